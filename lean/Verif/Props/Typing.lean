import Verif.Props.TwoDigits
import Verif.Props.Cross

/-!
# Digits left out, typed twice, or typed for the wrong kind of number (C113)
-/

set_option autoImplicit false

namespace Barcoders
open Spec

theorem shift_eq (a : Char) (q : List Char) : q = (a :: q).take q.length ↔ ∀ c ∈ q, c = a := by
  induction q generalizing a with
  | nil => simp
  | cons d q ih =>
    rw [List.length_cons, List.take_succ_cons, List.cons.injEq, ih d]
    simp only [List.mem_cons, forall_eq_or_imp]
    constructor
    · rintro ⟨rfl, h⟩; exact ⟨rfl, h⟩
    · rintro ⟨rfl, h⟩; exact ⟨rfl, h⟩

theorem left_out_take (p q : List Char) (a : Char) (n : Nat) (hl : (p ++ a :: q).length = n + 1) :
    (p ++ q).take n = (p ++ a :: q).take n ↔ ∀ c ∈ q, c = a := by
  have hn : n = p.length + q.length := by simp at hl; omega
  subst hn
  rw [List.take_of_length_le (by simp), List.take_append, List.take_of_length_le (by omega), Nat.add_sub_cancel_left,
    List.append_cancel_left_eq, shift_eq]

theorem left_out {T : Type} (mk : List Nat → T) (f : List Char → Outcome T) (n : Nat) (hn : n < 100)
    (hf : ∀ s, f s = if byteLen s % 2 ^ 32 ≠ n ∧ byteLen s % 2 ^ 32 ≠ n + 1 then Outcome.err Error.length
      else if ¬ AllDigits s then .err .character
      else if s.length = n + 1 ∧ ¬ Gs1Valid (digitsOf s) then .err .checksum
      else .ok (mk ((digitsOf s).take n))) (p q : List Char) (a : Char) (x : T) (hl : (p ++ a :: q).length = n + 1)
    (h : f (p ++ a :: q) = .ok x) :
    (∃ y, f (p ++ q) = .ok y) ∧ ((∀ c ∈ q, c = a) → f (p ++ q) = .ok x) := by
  have hD := new_digits mk f n hf _ x h
  have hD' : AllDigits (p ++ q) := by
    intro c hc
    apply hD
    simp only [List.mem_append, List.mem_cons] at hc ⊢
    rcases hc with hc | hc
    · exact Or.inl hc
    · exact Or.inr (Or.inr hc)
  have hl' : (p ++ q).length = n := by simp at hl ⊢; omega
  have h1 : f (p ++ q) = .ok (mk (digitsOf ((p ++ q).take n))) := by
    rw [hf, digits_byteLen _ hD', hl', if_neg (show ¬ (n % 2 ^ 32 ≠ n ∧ n % 2 ^ 32 ≠ n + 1) by omega), if_neg (not_not_intro hD'),
      if_neg (by omega)]
    simp [digitsOf]
  refine ⟨⟨_, h1⟩, fun hq => ?_⟩
  rw [h1, ← h, hf, digits_byteLen _ hD, hl, if_neg (show ¬ ((n + 1) % 2 ^ 32 ≠ n ∧ (n + 1) % 2 ^ 32 ≠ n + 1) by omega),
    if_neg (not_not_intro hD), if_neg, (left_out_take p q a n hl).mpr hq]
  · simp [digitsOf]
  · rintro ⟨-, hv⟩
    have := (complete_number_form mk f n hn hf _ hD hl).2 hv
    rw [h] at this
    cases this

/-- C113. A digit is left out of an accepted complete number: what remains is always accepted, as a number that lacks its check
digit. The symbol is the right one exactly if the digit was followed by nothing but the same digit (so that only the check digit
is missing). -/
theorem C113_left_out (b : Build) (p q : List Char) (a : Char) :
    (∀ x ms, (p ++ a :: q).length = 13 → Ean13.new b (p ++ a :: q) = .ok x → Ean13.encode b x = .ok ms →
      ∃ y ms', Ean13.new b (p ++ q) = .ok y ∧ Ean13.encode b y = .ok ms' ∧ (ms' = ms ↔ ∀ c ∈ q, c = a)) ∧
    (∀ x ms, (p ++ a :: q).length = 8 → Ean8.new b (p ++ a :: q) = .ok x → Ean8.encode b x = .ok ms →
      ∃ y ms', Ean8.new b (p ++ q) = .ok y ∧ Ean8.encode b y = .ok ms' ∧ (ms' = ms ↔ ∀ c ∈ q, c = a)) ∧
    ∀ x ms, (p ++ a :: q).length = 12 → Upca.new b (p ++ a :: q) = .ok x → Upca.encode b x = .ok ms →
      ∃ y ms', Upca.new b (p ++ q) = .ok y ∧ Upca.encode b y = .ok ms' ∧ (ms' = ms ↔ ∀ c ∈ q, c = a) := by
  refine ⟨fun x ms hl h he => ?_, fun x ms hl h he => ?_, fun x ms hl h he => ?_⟩
  · obtain ⟨⟨y, hy⟩, hs⟩ := left_out Ean13.EAN13.mk (Ean13.new b) 12 (by omega) (ean13_new b) p q a x hl h
    obtain ⟨ms', he', -⟩ := C02_ean13_scan b _ y hy
    refine ⟨y, ms', hy, he', fun hm => ?_, fun hq => ?_⟩
    · subst hm
      exact (left_out_take p q a 12 hl).mp ((C33_ean_injective b b _ _ ms').1 y x hy h he' he)
    · rw [hs hq] at hy
      cases hy
      rw [he] at he'
      exact (Outcome.ok.inj he').symm
  · obtain ⟨⟨y, hy⟩, hs⟩ := left_out Ean8.EAN8.mk (Ean8.new b) 7 (by omega) (ean8_new b) p q a x hl h
    obtain ⟨ms', he', -⟩ := C07_ean8_scan b _ y hy
    refine ⟨y, ms', hy, he', fun hm => ?_, fun hq => ?_⟩
    · subst hm
      exact (left_out_take p q a 7 hl).mp ((C33_ean_injective b b _ _ ms').2.1 y x hy h he' he)
    · rw [hs hq] at hy
      cases hy
      rw [he] at he'
      exact (Outcome.ok.inj he').symm
  · obtain ⟨⟨y, hy⟩, hs⟩ := left_out Upca.UPCA.mk (Upca.new b) 11 (by omega) (upca_new b) p q a x hl h
    obtain ⟨ms', he', -⟩ := C09_upca_scan b _ y hy
    refine ⟨y, ms', hy, he', fun hm => ?_, fun hq => ?_⟩
    · subst hm
      exact (left_out_take p q a 11 hl).mp ((C33_ean_injective b b _ _ ms').2.2 y x hy h he' he)
    · rw [hs hq] at hy
      cases hy
      rw [he] at he'
      exact (Outcome.ok.inj he').symm

/-- 7501031311309 without its first 1 is drawn as 7500313113099. -/
example : ∃ x y ms, Ean13.new .debug ("750".toList ++ '1' :: "031311309".toList) = .ok x ∧
    Ean13.new .debug ("750".toList ++ "031311309".toList) = .ok y ∧ Ean13.encode .debug y = .ok ms ∧
    scanEan13 ms = some [7, 5, 0, 0, 3, 1, 3, 1, 1, 3, 0, 9, 9] := ⟨_, _, _, rfl, rfl, rfl, by decide +kernel⟩

theorem byteLen_insert (p q : List Char) (c : Char) : byteLen (p ++ c :: q) = byteLen (p ++ q) + c.utf8Size := by
  unfold byteLen
  simp
  omega

theorem utf8Size_range (c : Char) : 1 ≤ c.utf8Size ∧ c.utf8Size ≤ 4 := ⟨c.utf8Size_pos, c.utf8Size_le_four⟩

/-- C113. A character too many in a complete number, anywhere and whichever, is rejected with `Err(Length)`. -/
theorem C113_one_too_many (b : Build) (p q : List Char) (c : Char) :
    ((p ++ q).length = 13 → (Ean13.new b (p ++ q)).isOk = true → Ean13.new b (p ++ c :: q) = .err .length) ∧
    ((p ++ q).length = 8 → (Ean8.new b (p ++ q)).isOk = true → Ean8.new b (p ++ c :: q) = .err .length) ∧
    ((p ++ q).length = 12 → (Upca.new b (p ++ q)).isOk = true → Upca.new b (p ++ c :: q) = .err .length) := by
  have hc := utf8Size_range c
  refine ⟨fun hl h => ?_, fun hl h => ?_, fun hl h => ?_⟩
  · obtain ⟨x, h⟩ := isOk_of h
    have hb := digits_byteLen _ (new_digits Ean13.EAN13.mk (Ean13.new b) 12 (ean13_new b) _ x h)
    rw [ean13_new, byteLen_insert, hb, hl, if_pos (by omega)]
  · obtain ⟨x, h⟩ := isOk_of h
    have hb := digits_byteLen _ (new_digits Ean8.EAN8.mk (Ean8.new b) 7 (ean8_new b) _ x h)
    rw [ean8_new, byteLen_insert, hb, hl, if_pos (by omega)]
  · obtain ⟨x, h⟩ := isOk_of h
    have hb := digits_byteLen _ (new_digits Upca.UPCA.mk (Upca.new b) 11 (upca_new b) _ x h)
    rw [upca_new, byteLen_insert, hb, hl, if_pos (by omega)]

example : (Ean13.new .debug "7501031311309".toList).isOk = true ∧ Ean13.new .debug "75001031311309".toList = .err .length := by
  decide

/-- C113. A complete UPC-A number given to `EAN13::new` is accepted, but taken for twelve digits without check digit: the symbol
is read as that number with a further digit, and it is the UPC-A symbol only if all digits are 0. -/
theorem C113_upca_as_ean13 (b : Build) (s : List Char) (x : Upca.UPCA) (ms : List Nat) (hl : s.length = 12)
    (h : Upca.new b s = .ok x) (he : Upca.encode b x = .ok ms) :
    ∃ y ms', Ean13.new b s = .ok y ∧ Ean13.encode b y = .ok ms' ∧
      scanEan13 ms' = some (digitsOf s ++ [gs1Digit (digitsOf s)]) ∧ (ms' = ms ↔ ∀ c ∈ s, c = '0') := by
  have hD := new_digits Upca.UPCA.mk (Upca.new b) 11 (upca_new b) _ x h
  have hb := digits_byteLen s hD
  have hdl : (digitsOf s).length = 12 := by simp [digitsOf, hl]
  have hy : ∃ y, Ean13.new b s = .ok y := by
    rw [ean13_new, hb, hl, if_neg (by omega), if_neg (not_not_intro hD), if_neg (by omega)]
    exact ⟨_, rfl⟩
  obtain ⟨y, hy⟩ := hy
  obtain ⟨ms', he', hs'⟩ := C02_ean13_scan b s y hy
  rw [List.take_of_length_le (by omega)] at hs'
  refine ⟨y, ms', hy, he', hs', ?_⟩
  -- the UPC-A symbol is that of the EAN-13 number with a zero in front
  have h10 := C10_upca_is_ean13 b s (by omega)
  rw [h, Outcome.ok_bind, he] at h10
  obtain ⟨z, hz⟩ : ∃ z, Ean13.new b ('0' :: s) = .ok z := by
    cases hz : Ean13.new b ('0' :: s) with
    | ok z => exact ⟨z, rfl⟩
    | err e => rw [hz] at h10; cases h10
    | panic e => rw [hz] at h10; cases h10
  rw [hz, Outcome.ok_bind] at h10
  have hD0 : AllDigits ('0' :: s) := new_digits Ean13.EAN13.mk (Ean13.new b) 12 (ean13_new b) _ z hz
  constructor
  · rintro rfl
    have h12 := (C33_ean_injective b b s ('0' :: s) ms').1 y z hy hz he' h10.symm
    rw [List.take_of_length_le (by omega)] at h12
    have h13 : s = ('0' :: s).take s.length := by rw [hl]; exact h12
    exact (shift_eq '0' s).mp h13
  · intro h0
    have h13 := (shift_eq '0' s).mpr h0
    have hyz : y = z := by
      have e1 : Ean13.new b s = .ok ⟨(digitsOf s).take 12⟩ := by
        rw [ean13_new, hb, hl, if_neg (by omega), if_neg (not_not_intro hD), if_neg (by omega)]
      have e2 : z = ⟨(digitsOf ('0' :: s)).take 12⟩ := by
        have := hz
        rw [ean13_new] at this
        exact (decision_ok Ean13.EAN13.mk 12 _ z this).1
      rw [hy, Outcome.ok.injEq] at e1
      rw [e1, e2]
      congr 1
      rw [hl] at h13
      have := congrArg digitsOf h13
      simp only [digitsOf, List.map_take] at this ⊢
      rw [← this, List.take_of_length_le (by simp; omega)]
    subst hyz
    rw [he'] at h10
    exact (Outcome.ok.inj h10).symm

/-- 012345678905 is drawn as 0123456789050, which is not the EAN-13 number 0012345678905. -/
example : ∃ x y ms, Upca.new .debug "012345678905".toList = .ok x ∧ Ean13.new .debug "012345678905".toList = .ok y ∧
    Ean13.encode .debug y = .ok ms ∧ scanEan13 ms = some [0, 1, 2, 3, 4, 5, 6, 7, 8, 9, 0, 5, 0] :=
  ⟨_, _, _, rfl, rfl, rfl, by decide +kernel⟩

/-- C113. An EAN-13 number given to `UPCA::new`: with its check digit it is rejected; without, it is accepted exactly if it
happens to be a valid UPC-A number. -/
theorem C113_ean13_as_upca (b : Build) (s : List Char) (x : Ean13.EAN13) (h : Ean13.new b s = .ok x) :
    (s.length = 13 → Upca.new b s = .err .length) ∧
    (s.length = 12 → ((∃ y, Upca.new b s = .ok y) ↔ Gs1Valid (digitsOf s)) ∧
      (¬ Gs1Valid (digitsOf s) → Upca.new b s = .err .checksum)) := by
  have hD := new_digits Ean13.EAN13.mk (Ean13.new b) 12 (ean13_new b) _ x h
  have hb := digits_byteLen s hD
  refine ⟨fun hl => ?_, fun hl => complete_number_form Upca.UPCA.mk (Upca.new b) 11 (by omega) (upca_new b) s hD hl⟩
  rw [upca_new, hb, hl, if_pos (by omega)]

example : Upca.new .debug "7501031311309".toList = .err .length ∧ Upca.new .debug "750103131130".toList = .err .checksum ∧
    (Upca.new .debug "012345678905".toList).isOk = true := by decide

end Barcoders
