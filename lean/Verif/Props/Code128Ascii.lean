import Verif.Spec.Code128Write
import Verif.Props.ExactCode128
import Verif.Props.Shape

/-!
# C79: every ASCII text fits in a Code 128 symbol
-/

set_option autoImplicit false

namespace Barcoders
open Spec

theorem ascii_not_special (c : Char) (h : c.toNat < 128) :
    c ≠ 'À' ∧ c ≠ 'Ɓ' ∧ c ≠ 'Ć' ∧ c ≠ fnc1 ∧ c ≠ fnc2 ∧ c ≠ fnc3 ∧ c ≠ fnc4 ∧ c ≠ shiftChar ∧ c ≠ delChar := by
  refine ⟨?_, ?_, ?_, ?_, ?_, ?_, ?_, ?_, ?_⟩ <;> (rintro rfl; exact absurd h (by decide))

theorem plainMessage_ascii (c : Char) (h : c.toNat < 128) : plainMessage [c] = [c] := by
  obtain ⟨h1, h2, h3, h4, h5, h6, -, -, h9⟩ := ascii_not_special c h
  simp [plainMessage, h1, h2, h3, h4, h5, h6, h9]

theorem toNat_eq (c : Char) (n : Nat) (h : c.toNat = n) : Char.ofNat n = c := by
  rw [← h]
  exact Char.ofNat_toNat c

theorem plainMessage_append (s t : List Char) : plainMessage (s ++ t) = plainMessage s ++ plainMessage t := by
  rw [plainMessage, plainMessage, plainMessage, ← List.map_append, ← List.filter_append]

theorem plainMessage_inB (c : Char) (h : c.toNat < 128) : plainMessage (asciiInB c) = [c] := by
  unfold asciiInB
  split
  · rw [plainMessage_cons 'À', plainMessage_cons c, plainMessage_ascii c h]
    rw [show plainMessage ['À'] = [] by decide, show plainMessage ['Ɓ'] = [] by decide]
    rfl
  · split
    · next h => rw [show plainMessage ['÷'] = [Char.ofNat 127] by decide, toNat_eq c 127 h]
    · exact plainMessage_ascii c h

theorem strict_ascii (t : List Char) (h : ∀ c ∈ t, c.toNat < 128) : Code128Strict .B (t.flatMap asciiInB) := by
  induction t with
  | nil => exact .nil _
  | cons c t ih =>
    have hc := h c (by simp)
    have ih := ih (fun c hc => h c (by simp [hc]))
    rw [List.flatMap_cons]
    unfold asciiInB
    split
    · exact .switch .B .A _ (by decide) (.single .A c _ (Or.inl (by omega)) (.switch .A .B _ (by decide) ih))
    · split
      · exact .single .B '÷' _ (Or.inr (Or.inl rfl)) ih
      · exact .single .B c _ (Or.inl (by omega)) ih

theorem ascii_members (t : List Char) (h : ∀ c ∈ t, c.toNat < 128) :
    ∀ d ∈ t.flatMap asciiInB, d ≠ fnc1 ∧ d ≠ fnc4 ∧ d ≠ shiftChar := by
  intro d hd
  obtain ⟨c, hc, hd⟩ := List.mem_flatMap.mp hd
  have hn := ascii_not_special c (h c hc)
  unfold asciiInB at hd
  split at hd
  · simp only [List.mem_cons, List.not_mem_nil, or_false] at hd
    rcases hd with rfl | rfl | rfl
    · decide
    · exact ⟨hn.2.2.2.1, hn.2.2.2.2.2.2.1, hn.2.2.2.2.2.2.2.1⟩
    · decide
  · split at hd
    · simp only [List.mem_cons, List.not_mem_nil, or_false] at hd
      subst hd
      decide
    · simp only [List.mem_cons, List.not_mem_nil, or_false] at hd
      subst hd
      exact ⟨hn.2.2.2.1, hn.2.2.2.2.2.2.1, hn.2.2.2.2.2.2.2.1⟩

/-- A string in strict form whose data is without FNC1, FNC4 and SHIFT: accepted, encoded, transmitted. -/
theorem plain_transmitted (b : Build) (set : CodeSet) (r : List Char) (hs : Code128Strict set r) (hl : r.length ≤ 6488)
    (hm : ∀ d ∈ r, d ≠ fnc1 ∧ d ≠ fnc4 ∧ d ≠ shiftChar) :
    ∃ x ms, Code128.new (set.char :: r) = .ok x ∧ Code128.encode b x = .ok ms ∧ receiveCode128 ms = some (plainMessage r) := by
  have hf : Code128StrictForm (set.char :: r) := ⟨set, r, rfl, hs⟩
  obtain ⟨x, ms, h1, h2, -⟩ := C28_code128_scan_partial b _ hf (by simp; omega)
  have hset : set.char ≠ fnc4 ∧ set.char ≠ shiftChar := by cases set <;> decide
  obtain ⟨ms', h3, h4⟩ := C55_code128_plain b _ x h1 (by simp; omega) hf
    (by
      intro h
      rcases List.mem_cons.mp h with h | h
      · exact hset.2 h.symm
      · exact (hm _ h).2.2 rfl)
    (by
      intro h
      rcases List.mem_cons.mp h with h | h
      · exact hset.1 h.symm
      · exact (hm _ h).2.1 rfl)
  rw [h2, Outcome.ok.injEq] at h3
  subst h3
  refine ⟨x, ms, h1, h2, ?_⟩
  rw [h4, List.tail_cons, if_neg]
  intro h
  cases r with
  | nil => cases h
  | cons d r =>
    simp only [List.head?_cons, Option.some.injEq] at h
    exact (hm d (by simp)).1 h

/-- C79. Every ASCII text of up to 2162 characters, control characters and DEL included, can be put in a Code 128 symbol: a
scanner transmits exactly the text. -/
theorem C79_ascii (b : Build) (t : List Char) (h : ∀ c ∈ t, c.toNat < 128) (hl : t.length ≤ 2162) :
    ∃ x ms, Code128.new (asciiAsCode128 t) = .ok x ∧ Code128.encode b x = .ok ms ∧ receiveCode128 ms = some t := by
  have hlen : (t.flatMap asciiInB).length ≤ 3 * t.length := by
    clear hl h
    induction t with
    | nil => simp
    | cons c t ih =>
      rw [List.flatMap_cons, List.length_append, List.length_cons]
      have : (asciiInB c).length ≤ 3 := by
        unfold asciiInB
        split
        · simp
        · split <;> simp
      omega
  obtain ⟨x, ms, h1, h2, h3⟩ := plain_transmitted b .B _ (strict_ascii t h) (by omega) (ascii_members t h)
  refine ⟨x, ms, h1, h2, ?_⟩
  rw [h3]
  congr 1
  clear h1 h2 h3 hl hlen x ms
  induction t with
  | nil => rfl
  | cons c t ih =>
    rw [List.flatMap_cons, plainMessage_append, plainMessage_inB c (h c (by simp)), ih (fun c hc => h c (by simp [hc]))]
    rfl

example : (∀ c ∈ "a\tB".toList, c.toNat < 128) ∧ ∃ x ms, Code128.new (asciiAsCode128 "a\tB".toList) = .ok x ∧
    Code128.encode .release x = .ok ms ∧ receiveCode128 ms = some "a\tB".toList := ⟨by decide, _, _, rfl, rfl, by decide +kernel⟩

theorem plainMessage_asciis (t : List Char) (h : ∀ c ∈ t, c.toNat < 128) : plainMessage t = t := by
  induction t with
  | nil => rfl
  | cons c t ih => rw [plainMessage_cons, plainMessage_ascii c (h c (by simp)), ih (fun c hc => h c (by simp [hc]))]; rfl

theorem setCDigits_of (set : CodeSet) (hset : set ≠ .C) (t : List Char) (h : ∀ c ∈ t, c.toNat < 128) : setCDigits set t = 0 := by
  induction t with
  | nil => rfl
  | cons c t ih =>
    obtain ⟨h1, h2, h3, -⟩ := ascii_not_special c (h c (by simp))
    rw [setCDigits, if_neg h1, if_neg h2, if_neg h3, if_neg (by simp [hset]), ih (fun c hc => h c (by simp [hc]))]

/-- C79. Text in one code set: printable ASCII after `Ɓ`, capitals and control characters after `À`. The symbol has 11 modules
per character and 35 more, and a scanner transmits exactly the text. -/
theorem C79_one_set (b : Build) (t : List Char) (hl : t.length ≤ 6488) :
    ((∀ c ∈ t, 32 ≤ c.toNat ∧ c.toNat < 127) → ∃ x ms, Code128.new ('Ɓ' :: t) = .ok x ∧ Code128.encode b x = .ok ms ∧
      receiveCode128 ms = some t ∧ ms.length = 11 * t.length + 35) ∧
    ((∀ c ∈ t, c.toNat < 96) → ∃ x ms, Code128.new ('À' :: t) = .ok x ∧ Code128.encode b x = .ok ms ∧
      receiveCode128 ms = some t ∧ ms.length = 11 * t.length + 35) := by
  have strict : ∀ set : CodeSet, (∀ c ∈ t, code128Single set c) → Code128Strict set t := by
    intro set hs
    clear hl
    induction t with
    | nil => exact .nil _
    | cons c t ih => exact .single set c t (hs c (by simp)) (ih (fun c hc => hs c (by simp [hc])))
  have key : ∀ set : CodeSet, set ≠ .C → (∀ c ∈ t, code128Single set c) → (∀ c ∈ t, c.toNat < 128) →
      ∃ x ms, Code128.new (set.char :: t) = .ok x ∧ Code128.encode b x = .ok ms ∧
      receiveCode128 ms = some t ∧ ms.length = 11 * t.length + 35 := by
    intro set hset hs ha
    obtain ⟨x, ms, h1, h2, h3⟩ := plain_transmitted b set t (strict set hs) hl (fun d hd => by
      have := ascii_not_special d (ha d hd)
      exact ⟨this.2.2.2.1, this.2.2.2.2.2.2.1, this.2.2.2.2.2.2.2.1⟩)
    rw [plainMessage_asciis t ha] at h3
    obtain ⟨n, vs, hn, -, -, hrow⟩ := C32_code128_row b _ x ms h1 h2
    refine ⟨x, ms, h1, h2, h3, ?_⟩
    have hz : setCDigits .A (set.char :: t) = 0 := by
      cases set with
      | A => exact setCDigits_of .A hset t ha
      | B => exact setCDigits_of .B hset t ha
      | C => exact absurd rfl hset
    rw [hz, List.length_cons] at hn
    rw [hrow.length]
    omega
  exact ⟨fun h => key .B (by decide) (fun c hc => Or.inl (h c hc)) (fun c hc => by have := h c hc; omega),
    fun h => key .A (by decide) (fun c hc => Or.inl (h c hc)) (fun c hc => by have := h c hc; omega)⟩

example : ∃ x ms, Code128.new ('Ɓ' :: "Hello".toList) = .ok x ∧ Code128.encode .debug x = .ok ms ∧
    receiveCode128 ms = some "Hello".toList ∧ ms.length = 90 := ⟨_, _, rfl, rfl, by decide +kernel, by decide +kernel⟩

theorem strict_digits (n : Nat) : ∀ t : List Char, t.length = 2 * n → AllDigits t → Code128Strict .C t := by
  induction n with
  | zero =>
    intro t h _
    obtain rfl : t = [] := List.length_eq_zero_iff.mp (by omega)
    exact .nil _
  | succ n ih =>
    intro t h hd
    match t, h with
    | d :: e :: t, h =>
      exact .pair d e t (hd d (by simp)) (hd e (by simp)) (ih t (by simp at h; omega) (fun c hc => hd c (by simp [hc])))

theorem digit_ascii (c : Char) (h : c.isDigit = true) : c.toNat < 128 := by
  simp only [Char.isDigit, Bool.and_eq_true, decide_eq_true_eq] at h
  have : c.val ≤ 57 := h.2
  have : c.val.toNat ≤ 57 := this
  have e : c.toNat = c.val.toNat := rfl
  omega

theorem setCDigits_digits (t : List Char) (h : AllDigits t) : setCDigits .C t = t.length := by
  induction t with
  | nil => rfl
  | cons c t ih =>
    have hc := h c (by simp)
    obtain ⟨h1, h2, h3, -⟩ := ascii_not_special c (digit_ascii c hc)
    rw [setCDigits, if_neg h1, if_neg h2, if_neg h3, if_pos ⟨rfl, hc⟩, ih (fun c hc => h c (by simp [hc])), List.length_cons]
    omega

/-- C79. An even number of digits after `Ć` takes 11 modules for every two digits, and 35 more. -/
theorem C79_digits (b : Build) (t : List Char) (hl : t.length ≤ 6488) (hd : AllDigits t) (he : t.length % 2 = 0) :
    ∃ x ms, Code128.new ('Ć' :: t) = .ok x ∧ Code128.encode b x = .ok ms ∧ receiveCode128 ms = some t ∧
      2 * ms.length = 11 * t.length + 70 := by
  have ha : ∀ c ∈ t, c.toNat < 128 := fun c hc => digit_ascii c (hd c hc)
  obtain ⟨x, ms, h1, h2, h3⟩ := plain_transmitted b .C t (strict_digits (t.length / 2) t (by omega) hd) hl (fun d hd => by
      have := ascii_not_special d (ha d hd)
      exact ⟨this.2.2.2.1, this.2.2.2.2.2.2.1, this.2.2.2.2.2.2.2.1⟩)
  rw [plainMessage_asciis t ha] at h3
  obtain ⟨n, vs, hn, -, -, hrow⟩ := C32_code128_row b _ x ms h1 h2
  refine ⟨x, ms, h1, h2, h3, ?_⟩
  have hz : setCDigits .A ('Ć' :: t) = t.length := setCDigits_digits t hd
  rw [show CodeSet.C.char = 'Ć' from rfl, hz, List.length_cons] at hn
  rw [hrow.length]
  omega

example : ∃ x ms, Code128.new ('Ć' :: "0042".toList) = .ok x ∧ Code128.encode .debug x = .ok ms ∧ ms.length = 57 ∧
    receiveCode128 ms = some "0042".toList := ⟨_, _, rfl, rfl, by decide +kernel, by decide +kernel⟩

/-- An odd number of digits cannot be written in set C alone. -/
theorem C79_odd_digits : Code128.new "Ć123".toList = .err .character ∧ ∃ x ms, Code128.new "Ć12Ɓ3".toList = .ok x ∧
    Code128.encode .debug x = .ok ms ∧ receiveCode128 ms = some "123".toList :=
  ⟨by decide +kernel, _, _, rfl, rfl, by decide +kernel⟩

example : asciiAsCode128 "a\tB\u007f".toList = ['Ɓ', 'a', 'À', '\t', 'Ɓ', 'B', '÷'] := by decide
example : ∃ x ms, Code128.new (asciiAsCode128 "a\tB\u007f".toList) = .ok x ∧ Code128.encode .debug x = .ok ms ∧
    receiveCode128 ms = some "a\tB\u007f".toList := ⟨_, _, rfl, rfl, by decide +kernel⟩
example : ∃ x ms, Code128.new "Ć123456".toList = .ok x ∧ Code128.encode .debug x = .ok ms ∧ ms.length = 68 ∧
    receiveCode128 ms = some "123456".toList := ⟨_, _, rfl, rfl, by decide, by decide +kernel⟩

end Barcoders
