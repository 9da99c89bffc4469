import Verif.Props.Code11
import Verif.Props.Code128
import Verif.Props.EanSupp
import Verif.Lemmas.Symbols

/-!
# More errors that the check characters catch (C56, C57)
-/

set_option autoImplicit false

namespace Barcoders
open Spec

/-! ## C56: Code 11, adjacent transpositions -/

theorem code11Text_length (s : List Char) : (code11Text s).length = if s.length > 10 then s.length + 2 else s.length + 1 := by
  unfold code11Text
  split <;> simp

/-- C56. Whatever symbol reads as a Code 11 text with two unequal adjacent data characters exchanged is rejected. -/
theorem C56_code11_transposition (s : List Char) (x : Code11.Code11) (hx : Code11.new s = .ok x)
    (p q : List Char) (a c : Char) (hs : s = p ++ a :: c :: q) (hne : c ≠ a)
    (bits : List Nat) (he : Code11.encode x = .ok bits) (ks : List Char) (hr : readCode11 bits = some (s ++ ks))
    (bits' : List Nat) (hr' : readCode11 bits' = some (p ++ c :: a :: q ++ ks)) : scanCode11 bits' = none := by
  obtain ⟨rfl, hA⟩ := code11_new_ok s x hx
  rw [code11_encode_eq s hA] at he
  cases he
  rw [readCode11_paint _ (code11_text_mem s hA)] at hr
  have hr := Option.some.inj hr
  rw [scanCode11, hr', Option.bind_some]
  cases h : verifyCode11 (p ++ c :: a :: q ++ ks) with
  | none => rfl
  | some s' =>
    exfalso
    rw [verifyCode11_iff] at h
    have hsl : s.length = (p ++ c :: a :: q).length := by rw [hs]; simp
    have hl : s'.length = s.length := by
      have e1 := congrArg List.length h
      have e2 := congrArg List.length hr
      rw [code11Text_length] at e1 e2
      rw [List.length_append] at e1 e2
      split at e1 <;> split at e2 <;> omega
    have key : s' = p ++ c :: a :: q ∧ code11Check 10 s' = code11Check 10 s := by
      unfold code11Text at h hr
      by_cases h10 : s.length > 10
      · rw [if_pos h10] at hr
        rw [if_pos (by omega)] at h
        obtain ⟨h1, h2⟩ := List.append_inj h (by rw [hl, hsl])
        obtain ⟨-, h3⟩ := List.append_inj hr rfl
        rw [h2] at h3
        simp at h3
        exact ⟨h1.symm, h3.1.symm⟩
      · rw [if_neg h10] at hr
        rw [if_neg (by omega)] at h
        obtain ⟨h1, h2⟩ := List.append_inj h (by rw [hl, hsl])
        obtain ⟨-, h3⟩ := List.append_inj hr rfl
        rw [h2] at h3
        simp at h3
        exact ⟨h1.symm, h3.symm⟩
    obtain ⟨h1, h8⟩ := key
    have h9 : cyclicSum 10 0 (s'.map code11Value).reverse % 11 = cyclicSum 10 0 (s.map code11Value).reverse % 11 := by
      rw [← code11Value_check, ← code11Value_check, h8]
    have ha : a ∈ code11Alphabet := hA a (by rw [hs]; simp)
    have hc : c ∈ code11Alphabet := hA c (by rw [hs]; simp)
    rw [hs, h1] at h9
    simp only [List.map_append, List.map_cons, List.reverse_append, List.reverse_cons, List.append_assoc,
      List.cons_append, List.nil_append] at h9
    rw [cyclicSum_append, cyclicSum_append] at h9
    simp only [cyclicSum] at h9
    generalize (0 + (List.map code11Value q).reverse.length) = j at h9
    generalize cyclicSum 10 0 (List.map code11Value q).reverse = Q at h9
    generalize cyclicSum 10 (j + 1 + 1) (List.map code11Value p).reverse = P at h9
    apply hne
    apply code11Value_inj c a hc ha
    have l1 := code11Value_lt a ha
    have l2 := code11Value_lt c hc
    generalize code11Value a = A at h9 l1 ⊢
    generalize code11Value c = C at h9 l2 ⊢
    by_cases hj : j % 10 = 9
    · rw [show (j + 1) % 10 = 0 by omega, hj] at h9
      omega
    · rw [show (j + 1) % 10 = j % 10 + 1 by omega, Nat.succ_mul (j % 10 + 1), Nat.succ_mul (j % 10 + 1)] at h9
      generalize (j % 10 + 1) * A = wA at h9
      generalize (j % 10 + 1) * C = wC at h9
      omega

-- a symbol that reads "132-455" is rejected
example : verifyCode11 "123-455".toList = some "123-45".toList ∧ verifyCode11 "132-455".toList = none ∧
    readCode11 (paint (code11SymWidths "132-455".toList)) = some "132-455".toList := by decide

/-! ## C57: Code 128 -/

theorem positionSum_append (k : Nat) (l m : List Nat) :
    positionSum k (l ++ m) = positionSum k l + positionSum (k + l.length) m := by
  induction l generalizing k with
  | nil => simp [positionSum]
  | cons a l ih =>
    rw [List.cons_append, positionSum, ih, positionSum, List.length_cons, Nat.add_assoc, Nat.add_assoc, Nat.add_comm 1 l.length]

theorem verifyCode128_iff (start c : Nat) (data : List Nat) (r : Nat × List Nat) :
    verifyCode128 (start :: data ++ [c]) = some r ↔ c = code128Sum start data % 103 ∧ r = (start, data) := by
  simp only [verifyCode128, List.cons_append, List.getLast?_concat, List.dropLast_concat]
  split
  · rename_i h
    simp [h, eq_comm]
  · rename_i h
    simp [h]

theorem mul_cancel_103 (w a c : Nat) (hw : w % 103 ≠ 0) (ha : a < 103) (hc : c < 103)
    (h : (w * a) % 103 = (w * c) % 103) : a = c := by
  have inv : ∀ w < 103, w ≠ 0 → ∃ v < 103, (v * w) % 103 = 1 := by decide +kernel
  obtain ⟨v, -, hv⟩ := inv (w % 103) (Nat.mod_lt _ (by omega)) hw
  have hv : (v * w) % 103 = 1 := by rw [Nat.mul_mod] at hv ⊢; simpa using hv
  have e : ∀ x < 103, (v * (w * x)) % 103 = x := by
    intro x hx
    rw [← Nat.mul_assoc, Nat.mul_mod, hv, Nat.one_mul, Nat.mod_mod, Nat.mod_eq_of_lt hx]
  rw [← e a ha, ← e c hc, Nat.mul_mod, h, ← Nat.mul_mod]

/-- C57. In the symbols (start, data, check) of any encoded string, replace the data symbol at position `n` (counted from 1)
by another one below 103: the reader's check accepts the result exactly when `n` is a multiple of 103. -/
theorem C57_code128_single_error (b : Build) (s : List Char) (x : Code128.Code128) (h : Code128.new s = .ok x)
    (hl : s.length ≤ 6489) (ms : List Nat) (he : Code128.encode b x = .ok ms) (start chk v w : Nat) (p q : List Nat)
    (hr : readCode128 ms = some (start :: (p ++ v :: q) ++ [chk])) (hv : v < 103) (hw : w < 103) (hne : w ≠ v) :
    (∃ r, verifyCode128 (start :: (p ++ w :: q) ++ [chk]) = some r) ↔ (p.length + 1) % 103 = 0 := by
  obtain ⟨ms', st, data, he', hr'⟩ := code128_check_symbol b s x h hl
  rw [he, Outcome.ok.injEq] at he'
  subst he'
  rw [hr, Option.some.injEq] at hr'
  simp only [List.cons_append, List.cons.injEq] at hr'
  obtain ⟨rfl, h1⟩ := hr'
  obtain ⟨rfl, h2⟩ := List.append_inj' h1 rfl
  have hchk : chk = code128Sum start (p ++ v :: q) % 103 := by simpa using h2
  have expand : ∀ u, code128Sum start (p ++ u :: q) =
      (start + positionSum 1 p + positionSum (1 + p.length + 1) q) + (p.length + 1) * u := by
    intro u
    rw [code128Sum, positionSum_append, positionSum, Nat.add_comm 1 p.length]
    omega
  constructor
  · rintro ⟨r, hr⟩
    rw [verifyCode128_iff] at hr
    have e := hr.1.symm.trans hchk
    rw [expand, expand] at e
    refine Decidable.byContradiction fun hn => hne ?_
    apply mul_cancel_103 (p.length + 1) w v hn hw hv
    generalize (p.length + 1) * v = A at *
    generalize (p.length + 1) * w = C at *
    omega
  · intro hn
    refine ⟨(start, p ++ w :: q), (verifyCode128_iff _ _ _ _).mpr ⟨?_, rfl⟩⟩
    rw [hchk, expand, expand]
    obtain ⟨k, hk⟩ : ∃ k, p.length + 1 = 103 * k := ⟨(p.length + 1) / 103, by omega⟩
    rw [hk, Nat.mul_assoc, Nat.mul_assoc]
    omega

example : ∃ x ms, Code128.new "ÀHI".toList = .ok x ∧ Code128.encode .debug x = .ok ms ∧
    readCode128 ms = some (103 :: ([] ++ 40 :: [41]) ++ [19]) ∧ verifyCode128 (103 :: ([] ++ 39 :: [41]) ++ [19]) = none :=
  ⟨_, _, rfl, rfl, by decide +kernel, by decide⟩

/-- C57. Replacing the start symbol by another one is always caught. -/
theorem C57_code128_start_error (b : Build) (s : List Char) (x : Code128.Code128) (h : Code128.new s = .ok x)
    (hl : s.length ≤ 6489) (ms : List Nat) (he : Code128.encode b x = .ok ms) (start start' chk : Nat) (data : List Nat)
    (hr : readCode128 ms = some (start :: data ++ [chk])) (set set' : CodeSet) (h1 : start = set.start)
    (h2 : start' = set'.start) (hne : start' ≠ start) : verifyCode128 (start' :: data ++ [chk]) = none := by
  obtain ⟨ms', st, data', he', hr'⟩ := code128_check_symbol b s x h hl
  rw [he, Outcome.ok.injEq] at he'
  subst he'
  rw [hr, Option.some.injEq] at hr'
  simp only [List.cons_append, List.cons.injEq] at hr'
  obtain ⟨rfl, h3⟩ := hr'
  obtain ⟨rfl, h4⟩ := List.append_inj' h3 rfl
  have hchk : chk = code128Sum start data % 103 := by simpa using h4
  cases hv : verifyCode128 (start' :: data ++ [chk]) with
  | none => rfl
  | some r =>
    exfalso
    rw [verifyCode128_iff] at hv
    have e := hv.1.symm.trans hchk
    unfold code128Sum at e
    have b1 : 103 ≤ start ∧ start < 106 := by rw [h1]; cases set <;> decide
    have b2 : 103 ≤ start' ∧ start' < 106 := by rw [h2]; cases set' <;> decide
    omega

example : verifyCode128 [103, 40, 41, 99, 34, 56, 78, 67] ≠ none ∧ verifyCode128 [104, 40, 41, 99, 34, 56, 78, 67] = none := by
  decide

/-- C57. Exchanging two unequal adjacent data symbols is always caught. -/
theorem C57_code128_transposition (b : Build) (s : List Char) (x : Code128.Code128) (h : Code128.new s = .ok x)
    (hl : s.length ≤ 6489) (ms : List Nat) (he : Code128.encode b x = .ok ms) (start chk v w : Nat) (p q : List Nat)
    (hr : readCode128 ms = some (start :: (p ++ v :: w :: q) ++ [chk])) (hv : v < 103) (hw : w < 103) (hne : w ≠ v) :
    verifyCode128 (start :: (p ++ w :: v :: q) ++ [chk]) = none := by
  obtain ⟨ms', st, data, he', hr'⟩ := code128_check_symbol b s x h hl
  rw [he, Outcome.ok.injEq] at he'
  subst he'
  rw [hr, Option.some.injEq] at hr'
  simp only [List.cons_append, List.cons.injEq] at hr'
  obtain ⟨rfl, h1⟩ := hr'
  obtain ⟨rfl, h2⟩ := List.append_inj' h1 rfl
  have hchk : chk = code128Sum start (p ++ v :: w :: q) % 103 := by simpa using h2
  cases hver : verifyCode128 (start :: (p ++ w :: v :: q) ++ [chk]) with
  | none => rfl
  | some r =>
    exfalso
    rw [verifyCode128_iff] at hver
    have e := hver.1.symm.trans hchk
    simp only [code128Sum, positionSum_append, positionSum] at e
    rw [Nat.succ_mul (1 + p.length), Nat.succ_mul (1 + p.length)] at e
    generalize (1 + p.length) * v = A at *
    generalize (1 + p.length) * w = C at *
    omega

example : ∃ x ms, Code128.new "ÀHIĆ345678".toList = .ok x ∧ Code128.encode .debug x = .ok ms ∧
    readCode128 ms = some [103, 40, 41, 99, 34, 56, 78, 67] ∧
    verifyCode128 [103, 40, 41, 99, 34, 56, 78, 67] = some (103, [40, 41, 99, 34, 56, 78]) ∧
    verifyCode128 [103, 40, 41, 99, 35, 56, 78, 67] = none ∧
    verifyCode128 [103, 40, 41, 99, 56, 34, 78, 67] = none := ⟨_, _, rfl, rfl, by decide +kernel⟩

theorem code128Text_small (set : CodeSet) (v : Nat) (t : List Char) (h : code128Text set v = some t) : v < 103 := by
  refine Decidable.byContradiction fun hn => ?_
  have h0 : ∀ n, n < 103 → v ≠ n := by omega
  cases set <;> unfold code128Text at h <;>
    simp only [if_neg (show ¬ v < 100 by omega), if_neg (show ¬ v < 64 by omega), if_neg (show ¬ v < 96 by omega),
      if_neg (show ¬ v < 95 by omega), if_neg (h0 95 (by omega)), if_neg (h0 96 (by omega)), if_neg (h0 97 (by omega)),
      if_neg (h0 98 (by omega)), if_neg (h0 99 (by omega)), if_neg (h0 100 (by omega)), if_neg (h0 101 (by omega)),
      if_neg (h0 102 (by omega))] at h <;> cases h

theorem code128Decode_small (set : CodeSet) (vs : List Nat) (t : List Char) (h : code128Decode set vs = some t) :
    ∀ v ∈ vs, v < 103 := by
  induction vs generalizing set t with
  | nil => simp
  | cons v vs ih =>
    rw [code128Decode] at h
    cases h1 : code128Text set v with
    | none => rw [h1] at h; cases h
    | some a =>
      cases h2 : code128Decode (code128Next set v) vs with
      | none => rw [h1, h2] at h; cases h
      | some r =>
        intro u hu
        rcases List.mem_cons.mp hu with rfl | hu
        · exact code128Text_small _ _ _ h1
        · exact ih _ _ h2 u hu

theorem code128Start_eq (v : Nat) (set : CodeSet) (h : code128Start v = some set) : v = set.start := by
  unfold code128Start at h
  split at h
  · cases h; assumption
  · split at h
    · cases h; assumption
    · split at h
      · cases h; assumption
      · cases h

/-- What it takes to be read. -/
theorem scan128_inv (ms : List Nat) (start chk : Nat) (data : List Nat) (t : List Char)
    (hr : readCode128 ms = some (start :: data ++ [chk])) (h : scanCode128 ms = some t) :
    (∃ r, verifyCode128 (start :: data ++ [chk]) = some r) ∧ (∃ set : CodeSet, start = set.start) ∧ ∀ v ∈ data, v < 103 := by
  rw [scanCode128, hr] at h
  simp only [Option.bind_eq_bind, Option.bind_some] at h
  cases hv : verifyCode128 (start :: data ++ [chk]) with
  | none => rw [hv] at h; cases h
  | some r =>
    have hr := ((verifyCode128_iff _ _ _ _).mp hv).2
    subst hr
    rw [hv, Option.bind_some] at h
    cases hs : code128Start start with
    | none => simp [hs] at h
    | some set =>
      cases hd : code128Decode set data with
      | none => simp [hs, hd] at h
      | some u => exact ⟨⟨_, rfl⟩, ⟨set, code128Start_eq _ _ hs⟩, code128Decode_small _ _ _ hd⟩

/-- C57, rows of modules. Let `ms` be the drawn symbol and `start`, `data`, `chk` its symbols. A row with another start symbol,
another check symbol, another data symbol (at a place not divisible by 103), or two unequal adjacent data symbols exchanged is
not read at all. -/
theorem C57_code128_rows (b : Build) (s : List Char) (x : Code128.Code128) (h : Code128.new s = .ok x)
    (hl : s.length ≤ 6489) (ms : List Nat) (he : Code128.encode b x = .ok ms) (start chk : Nat) (data : List Nat)
    (hr : readCode128 ms = some (start :: data ++ [chk])) (ms' : List Nat) :
    (∀ start', start' ≠ start → readCode128 ms' = some (start' :: data ++ [chk]) → scanCode128 ms' = none) ∧
    (∀ chk', chk' ≠ chk → readCode128 ms' = some (start :: data ++ [chk']) → scanCode128 ms' = none) ∧
    (∀ p q v w, data = p ++ v :: q → w ≠ v → (p.length + 1) % 103 ≠ 0 →
      readCode128 ms' = some (start :: (p ++ w :: q) ++ [chk]) → scanCode128 ms' = none) ∧
    (∀ p q v w, data = p ++ v :: w :: q → w ≠ v →
      readCode128 ms' = some (start :: (p ++ w :: v :: q) ++ [chk]) → scanCode128 ms' = none) := by
  have hd : (∃ set : CodeSet, start = set.start) ∧ ∀ v ∈ data, v < 103 := by
    obtain ⟨ms1, e1, hs⟩ := C28_code128_scan_regrouped_partial b s x h hl
    rw [he, Outcome.ok.injEq] at e1
    subst e1
    exact (scan128_inv ms start chk data _ hr hs).2
  have hv : ∃ r, verifyCode128 (start :: data ++ [chk]) = some r := by
    obtain ⟨ms1, e1, hs⟩ := C28_code128_scan_regrouped_partial b s x h hl
    rw [he, Outcome.ok.injEq] at e1
    subst e1
    exact (scan128_inv ms start chk data _ hr hs).1
  obtain ⟨⟨set, hset⟩, hlt⟩ := hd
  have none_of : ∀ st ck da, readCode128 ms' = some (st :: da ++ [ck]) →
      ((∃ r, verifyCode128 (st :: da ++ [ck]) = some r) → (∃ set : CodeSet, st = set.start) → (∀ v ∈ da, v < 103) → False) →
      scanCode128 ms' = none := by
    intro st ck da hread hno
    cases hsc : scanCode128 ms' with
    | none => rfl
    | some t =>
      obtain ⟨a, c, d⟩ := scan128_inv ms' st ck da t hread hsc
      exact (hno a c d).elim
  refine ⟨?_, ?_, ?_, ?_⟩
  · intro start' hne hr'
    refine none_of _ _ _ hr' (fun hver hst _ => ?_)
    obtain ⟨set', h2⟩ := hst
    have := C57_code128_start_error b s x h hl ms he start start' chk data hr set set' hset h2 hne
    rw [this] at hver
    obtain ⟨r, hver⟩ := hver
    cases hver
  · intro chk' hne hr'
    refine none_of _ _ _ hr' (fun hver _ _ => ?_)
    obtain ⟨r, hver⟩ := hver
    obtain ⟨r', hv⟩ := hv
    exact hne (((verifyCode128_iff _ _ _ _).mp hver).1.trans ((verifyCode128_iff _ _ _ _).mp hv).1.symm)
  · rintro p q v w rfl hne hpos hr'
    refine none_of _ _ _ hr' (fun hver _ hlt' => ?_)
    exact hpos ((C57_code128_single_error b s x h hl ms he start chk v w p q hr (hlt v (by simp)) (hlt' w (by simp)) hne).mp hver)
  · rintro p q v w rfl hne hr'
    refine none_of _ _ _ hr' (fun hver _ _ => ?_)
    rw [C57_code128_transposition b s x h hl ms he start chk v w p q hr (hlt v (by simp)) (hlt w (by simp)) hne] at hver
    obtain ⟨r, hver⟩ := hver
    cases hver

-- the rows exist: any symbols can be drawn
example : readCode128 (paint (code128Widths [103, 40, 41, 99, 35, 56, 78, 67])) = some [103, 40, 41, 99, 35, 56, 78, 67] ∧
    scanCode128 (paint (code128Widths [103, 40, 41, 99, 35, 56, 78, 67])) = none := by decide +kernel

end Barcoders
