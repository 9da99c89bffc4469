import Verif.Props.Cross
import Verif.Props.ExactTF

/-!
# C62, C63: check characters written out by hand, and the `usize` arithmetic of the checksums
-/

set_option autoImplicit false

namespace Barcoders
open Spec

/-! ## C62: appending the check character oneself -/

theorem code39Check_alphabet (s : List Char) : code39Check s ∈ code39Alphabet := by
  have hlt : (s.map code39Value).sum % 43 < code39Alphabet.length := Nat.mod_lt _ (by decide)
  rw [code39Check, List.getD_eq_getElem?_getD, List.getElem?_eq_getElem hlt]
  exact List.getElem_mem hlt

/-- C62. `Code39::with_checksum(s)` draws the symbol of `Code39::new(s + check)` with the check character of the standard; no other character does. -/
theorem C62_code39_check_by_hand (s : List Char) (x : Code39.Code39) (hs : s.length < 256)
    (h : Code39.withChecksum s = .ok x) :
    (∃ y ms, Code39.new (s ++ [code39Check s]) = .ok y ∧ Code39.encode y = .ok ms ∧ Code39.encode x = .ok ms) ∧
      ∀ c y, Code39.new (s ++ [c]) = .ok y → Code39.encode y = Code39.encode x → c = code39Check s := by
  obtain ⟨rfl, hA⟩ := code39_init_ok s true x h
  have hA' : ∀ c ∈ s ++ [code39Check s], c ∈ code39Alphabet := by
    intro c hc
    rcases List.mem_append.mp hc with hc | hc
    · exact hA c hc
    · rw [List.mem_singleton.mp hc]; exact code39Check_alphabet s
  have hbl := code39_byteLen _ hA'
  rw [List.length_append, List.length_singleton] at hbl
  have hnew := ((C13_code39_accepts (s ++ [code39Check s]) (by omega)).1).mpr ⟨by simp, by simp; omega, hA'⟩
  obtain ⟨y, hy⟩ := hnew
  refine ⟨⟨y, _, hy, (code39_symbol _ false y hy).2, code39_encode_eq ⟨s, true⟩ hA⟩, ?_⟩
  intro c' z hz he
  have hz' := (code39_symbol _ false z hz).2
  rw [hz', code39_encode_eq ⟨s, true⟩ hA, Outcome.ok.injEq] at he
  have h1 := C14_code39_scan _ z hz
  have h2 := C14_code39_scan _ y hy
  obtain ⟨m1, e1, r1⟩ := h1
  obtain ⟨m2, e2, r2⟩ := h2
  rw [hz', Outcome.ok.injEq] at e1
  rw [(code39_symbol _ false y hy).2, Outcome.ok.injEq] at e2
  have : m1 = m2 := by rw [← e1, ← e2]; exact he
  rw [this, r2, Option.some.injEq] at r1
  have := (List.append_inj' r1 rfl).2
  rw [List.singleton_inj] at this
  exact this.symm

example : code39Check "A1".toList = 'B' ∧
    (Code39.withChecksum "A1".toList >>= Code39.encode) = (Code39.new "A1B".toList >>= Code39.encode) := by decide

/-- C62. Odd-length `TF::interleaved(s)` draws the symbol of `TF::interleaved` of `s` and the digit it adds. -/
theorem C62_itf_digit_by_hand (b b' : Build) (s : List Char) (x : TF.TF) (hs : s.length % 2 = 1) (hl : s.length < 256)
    (h : TF.interleaved b s = .ok x) :
    ∃ c, c.isDigit = true ∧ ∃ y ms, TF.interleaved b' (s ++ [c]) = .ok y ∧ TF.encode y = .ok ms ∧ TF.encode x = .ok ms ∧
      scanItf ms = some (digitsOf (s ++ [c])) := by
  obtain ⟨ds, h1, h2, h3, hD, h5, h6⟩ := itf_symbol b s x h
  rcases h5 with ⟨h5, -⟩ | ⟨-, c, hc, rfl⟩
  · omega
  · have hdig : ∀ c < 10, (Char.ofNat (48 + c)).isDigit = true ∧ digitsOf [Char.ofNat (48 + c)] = [c] := by decide
    have hD' : AllDigits (s ++ [Char.ofNat (48 + c)]) := by
      intro d hd
      rcases List.mem_append.mp hd with hd | hd
      · exact hD d hd
      · rw [List.mem_singleton.mp hd]; exact (hdig c hc).1
    obtain ⟨t, ms, e1, e2, e3⟩ := C51_itf_even b' (s ++ [Char.ofNat (48 + c)]) hD' (by simp; omega) (by simp) (by simp; omega)
    refine ⟨Char.ofNat (48 + c), (hdig c hc).1, t, ms, e1, e2, ?_, e3⟩
    obtain ⟨es, -, -, -, -, k5, k6⟩ := itf_symbol b' _ t e1
    rcases k5 with ⟨-, k5⟩ | ⟨k5, -⟩
    · rw [k6] at e2
      have hsp : digitsOf (s ++ [Char.ofNat (48 + c)]) = digitsOf s ++ [c] := by
        rw [← (hdig c hc).2]
        simp [digitsOf]
      rw [h6, ← e2, k5, hsp]
    · simp at k5; omega

example : (Code39.withChecksum "A1".toList >>= Code39.encode) = (Code39.new "A1B".toList >>= Code39.encode) := by decide
example : (TF.interleaved .debug "123".toList >>= TF.encode) = (TF.interleaved .debug "1236".toList >>= TF.encode) := by decide

/-! ## C63: `usize` arithmetic -/

/-- A `usize` result on a machine of `w` bits, checked. -/
def usz (w n : Nat) : Outcome Nat := if n < 2 ^ w then .ok n else .panic .overflow

/-- The checksum loop of Code 93 and Code 11 with every product and every sum checked; pairs are weight and value. -/
def checkedSum (w : Nat) (l : List (Nat × Nat)) : Outcome Nat :=
  foldO (fun acc p => do
    let m ← usz w (p.1 * p.2)
    usz w (acc + m)) 0 l

theorem checkedSum_ok (w k : Nat) (l : List (Nat × Nat)) (h : ∀ p ∈ l, p.1 * p.2 ≤ k) (hl : k * l.length < 2 ^ w) :
    checkedSum w l = .ok (l.foldl (fun acc p => acc + p.1 * p.2) 0) := by
  have key : ∀ (l : List (Nat × Nat)) (acc : Nat), (∀ p ∈ l, p.1 * p.2 ≤ k) → acc + k * l.length < 2 ^ w →
      foldO (fun acc p => do
        let m ← usz w (p.1 * p.2)
        usz w (acc + m)) acc l = .ok (l.foldl (fun acc p => acc + p.1 * p.2) acc) := by
    intro l
    induction l with
    | nil => intros; rfl
    | cons p l ih =>
      intro acc hp hk
      have h1 := hp p (by simp)
      rw [List.length_cons, Nat.mul_succ] at hk
      rw [foldO, usz, if_pos (by omega), Outcome.ok_bind, usz, if_pos (by omega), Outcome.ok_bind, List.foldl_cons]
      exact ih _ (fun q hq => hp q (by simp [hq])) (by omega)
  exact key l 0 h (by omega)

theorem enumFrom_snd_mem {α : Type} (k : Nat) (l : List α) (p : Nat × α) (h : p ∈ enumFrom k l) : p.2 ∈ l := by
  induction l generalizing k with
  | nil => cases h
  | cons a l ih =>
    rw [enumFrom, List.mem_cons] at h
    rcases h with rfl | h
    · simp
    · exact List.mem_cons_of_mem _ (ih _ h)

theorem code93_weight_le (n t i : Nat) (ht : 0 < t) : Code93.weight n t i ≤ t := by
  unfold Code93.weight
  have := Nat.mod_lt (n - i) ht
  simp only
  split <;> omega

theorem code11_weight_le (t i : Nat) (ht : 0 < t) : Code11.weight t i ≤ t := by
  unfold Code11.weight
  have := Nat.mod_lt i ht
  simp only
  split <;> omega

theorem code93Value_le : ∀ c ∈ code93Alphabet, code93Value c ≤ 46 := by decide
theorem code11Value_le : ∀ c ∈ code11Alphabet, code11Value c ≤ 10 := by decide
theorem code39Value_le : ∀ c ∈ code39Alphabet, code39Value c ≤ 42 := by decide

/-- C63. The `usize` checksum arithmetic of Code 93 never overflows, on machines of 18 bits or more: with every intermediate
result checked, the loop computes the sum of the model (for the data, and for the data followed by a check character). -/
theorem C63_code93_usize (w : Nat) (hw : 18 ≤ w) (s : List Char) (x : Code93.Code93) (hs : byteLen s < 2 ^ 32)
    (h : Code93.new s = .ok x) (d : List Char) (hd : d = s ∨ ∃ c ∈ code93Alphabet, d = s ++ [c]) (t : Nat)
    (ht : t = 20 ∨ t = 15) :
    ∃ ps, mapO Code93.getCharPos d = .ok ps ∧
      checkedSum w ((enumerate ps).map (fun p => (Code93.weight d.length t p.1, p.2))) =
        .ok ((enumerate ps).foldl (fun acc p => acc + Code93.weight d.length t p.1 * p.2) 0) := by
  obtain ⟨h1, h2, hA⟩ := (C16_code93_accepts s hs).mp ⟨x, h⟩
  have hdA : ∀ c ∈ d, c ∈ code93Alphabet := by
    rcases hd with rfl | ⟨c, hc, rfl⟩
    · exact hA
    · intro e he
      rcases List.mem_append.mp he with he | he
      · exact hA e he
      · rw [List.mem_singleton.mp he]; exact hc
  have hdl : d.length ≤ 257 := by
    rcases hd with rfl | ⟨c, hc, rfl⟩
    · omega
    · simp; omega
  refine ⟨_, mapO_ok _ code93Value d (fun c hc => code93_pos c (hdA c hc)), ?_⟩
  have hpow : 2 ^ 18 ≤ 2 ^ w := Nat.pow_le_pow_right (by omega) hw
  rw [checkedSum_ok w (20 * 46), List.foldl_map]
  · intro p hp
    obtain ⟨q, hq, rfl⟩ := List.mem_map.mp hp
    have hv := enumFrom_snd_mem 0 _ q hq
    obtain ⟨c, hc, hcv⟩ := List.mem_map.mp hv
    have := code93Value_le c (hdA c hc)
    have hwt := code93_weight_le d.length t q.1 (by omega)
    exact Nat.mul_le_mul (by omega) (by omega)
  · rw [List.length_map, enumerate, enumFrom_length, List.length_map]
    omega

example : mapO Code93.getCharPos "T%".toList = .ok [29, 42] ∧ checkedSum 8 [(2, 29), (1, 42)] = .ok 100 := by decide

/-- C63. The same for Code 11. -/
theorem C63_code11_usize (w : Nat) (hw : 15 ≤ w) (s : List Char) (x : Code11.Code11) (hs : byteLen s < 2 ^ 32)
    (h : Code11.new s = .ok x) (d : List Char) (hd : d = s ∨ ∃ c ∈ code11Alphabet, d = s ++ [c]) (t : Nat)
    (ht : t = 10 ∨ t = 9) :
    ∃ ps, mapO Code11.getCharPos d = .ok ps ∧
      checkedSum w ((enumerate ps.reverse).map (fun p => (Code11.weight t (p.1 + 1), p.2))) =
        .ok ((enumerate ps.reverse).foldl (fun acc p => acc + Code11.weight t (p.1 + 1) * p.2) 0) := by
  obtain ⟨h1, h2, hA⟩ := (C19_code11_accepts s hs).mp ⟨x, h⟩
  have hdA : ∀ c ∈ d, c ∈ code11Alphabet := by
    rcases hd with rfl | ⟨c, hc, rfl⟩
    · exact hA
    · intro e he
      rcases List.mem_append.mp he with he | he
      · exact hA e he
      · rw [List.mem_singleton.mp he]; exact hc
  have hdl : d.length ≤ 257 := by
    rcases hd with rfl | ⟨c, hc, rfl⟩
    · omega
    · simp; omega
  refine ⟨_, mapO_ok _ code11Value d (fun c hc => code11_pos c (hdA c hc)), ?_⟩
  have hpow : 2 ^ 15 ≤ 2 ^ w := Nat.pow_le_pow_right (by omega) hw
  rw [checkedSum_ok w (10 * 10), List.foldl_map]
  · intro p hp
    obtain ⟨q, hq, rfl⟩ := List.mem_map.mp hp
    have hv := enumFrom_snd_mem 0 _ q hq
    rw [List.mem_reverse] at hv
    obtain ⟨c, hc, hcv⟩ := List.mem_map.mp hv
    have := code11Value_le c (hdA c hc)
    have hwt := code11_weight_le t (q.1 + 1) (by omega)
    exact Nat.mul_le_mul (by omega) (by omega)
  · rw [List.length_map, enumerate, enumFrom_length, List.length_reverse, List.length_map]
    omega

example : mapO Code11.getCharPos "1-".toList = .ok [1, 10] ∧ checkedSum 4 [(1, 10), (2, 1)] = .ok 12 ∧
    checkedSum 4 [(1, 10), (2, 10)] = .panic .overflow := by decide

/-- C63. The same for the plain sum of Code 39 (all weights one). -/
theorem C63_code39_usize (w : Nat) (hw : 14 ≤ w) (s : List Char) (x : Code39.Code39) (hs : byteLen s < 2 ^ 32)
    (h : Code39.withChecksum s = .ok x) :
    ∃ ps, mapO Code39.getCharPos s = .ok ps ∧ checkedSum w (ps.map (fun v => (1, v))) = .ok ps.sum := by
  obtain ⟨h1, h2, hA⟩ := (C13_code39_accepts s hs).2.mp ⟨x, h⟩
  refine ⟨_, mapO_ok _ code39Value s (fun c hc => code39_pos c (hA c hc)), ?_⟩
  have hpow : 2 ^ 14 ≤ 2 ^ w := Nat.pow_le_pow_right (by omega) hw
  rw [checkedSum_ok w 42, List.foldl_map]
  · congr 1
    have key : ∀ (l : List Nat) (a : Nat), l.foldl (fun acc v => acc + (1, v).1 * (1, v).2) a = a + l.sum := by
      intro l
      induction l with
      | nil => intro a; rfl
      | cons v l ih => intro a; rw [List.foldl_cons, ih, List.sum_cons]; simp only; omega
    rw [key]
    omega
  · intro p hp
    obtain ⟨v, hv, rfl⟩ := List.mem_map.mp hp
    obtain ⟨c, hc, rfl⟩ := List.mem_map.mp hv
    have := code39Value_le c (hA c hc)
    simp only
    omega
  · rw [List.length_map, List.length_map]
    omega

-- The loop does notice overflow when the machine is too small.
example : checkedSum 6 [(20, 3)] = .ok 60 ∧ checkedSum 6 [(20, 4)] = .panic .overflow ∧
    checkedSum 6 [(20, 3), (1, 4)] = .panic .overflow := by decide

end Barcoders
