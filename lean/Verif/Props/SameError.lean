import Verif.Spec.SameError
import Verif.Props.Illegible
import Verif.Props.FewModules

/-!
# C123: whether an error is noticed depends on the error alone
-/

set_option autoImplicit false

namespace Barcoders

open Spec

theorem sameError_cons (m x x' y y' : Nat) (a a' c c' : List Nat) (h : SameError m (x :: a) (x' :: a') (y :: c) (y' :: c')) :
    (x + y') % m = (x' + y) % m ∧ SameError m a a' c c' := by
  obtain ⟨h1, h2, h3, h4⟩ := h
  refine ⟨h4 0 (by simp), by simpa using h1, by simpa using h2, by simpa using h3, fun i hi => ?_⟩
  have := h4 (i + 1) (by simpa using hi)
  simpa using this

theorem getD_rev (l : List Nat) (i : Nat) (h : i < l.length) : l.reverse.getD i 0 = l.getD (l.length - 1 - i) 0 := by
  rw [List.getD_eq_getElem?_getD, List.getD_eq_getElem?_getD, List.getElem?_reverse h]

theorem sameError_reverse (m : Nat) (a a' c c' : List Nat) (h : SameError m a a' c c') :
    SameError m a.reverse a'.reverse c.reverse c'.reverse := by
  obtain ⟨h1, h2, h3, h4⟩ := h
  refine ⟨by simpa using h1, by simpa using h2, by simpa using h3, fun i hi => ?_⟩
  rw [List.length_reverse] at hi
  rw [getD_rev a i hi, getD_rev a' i (by omega), getD_rev c i (by omega), getD_rev c' i (by omega), h1, h2, h3]
  exact h4 _ (by omega)

theorem sameError_snoc (m x x' y y' : Nat) (a a' c c' : List Nat) (l1 : a'.length = a.length) (l2 : c.length = a.length)
    (l3 : c'.length = a.length) (h : SameError m (a ++ [x]) (a' ++ [x']) (c ++ [y]) (c' ++ [y'])) :
    SameError m a a' c c' ∧ (x + y') % m = (x' + y) % m := by
  obtain ⟨-, -, -, h4⟩ := h
  refine ⟨⟨l1, l2, l3, fun i hi => ?_⟩, ?_⟩
  · have := h4 i (by simp; omega)
    simp only [List.getD_eq_getElem?_getD] at this ⊢
    rw [List.getElem?_append_left (by omega), List.getElem?_append_left (by omega), List.getElem?_append_left (by omega),
      List.getElem?_append_left (by omega)] at this
    exact this
  · have := h4 a.length (by simp)
    simp only [List.getD_eq_getElem?_getD] at this
    rw [List.getElem?_append_right (by omega), List.getElem?_append_right (by omega), List.getElem?_append_right (by omega),
      List.getElem?_append_right (by omega), l1, l2, l3] at this
    simpa using this

theorem mul_same (m w x x' y y' : Nat) (h : (x + y') % m = (x' + y) % m) : (w * x + w * y') % m = (w * x' + w * y) % m := by
  rw [← Nat.mul_add, ← Nat.mul_add, Nat.mul_mod, h, ← Nat.mul_mod]

theorem add_same (m p p' q q' : Nat) (h1 : p % m = p' % m) (h2 : q % m = q' % m) : (p + q) % m = (p' + q') % m := by
  rw [Nat.add_mod, h1, h2, ← Nat.add_mod]

theorem cyclicSum_same (m n j : Nat) (a a' c c' : List Nat) (h : SameError m a a' c c') :
    (cyclicSum n j a + cyclicSum n j c') % m = (cyclicSum n j a' + cyclicSum n j c) % m := by
  induction a generalizing a' c c' j with
  | nil =>
    obtain ⟨h1, h2, h3, -⟩ := h
    rw [List.length_eq_zero_iff.mp h1, List.length_eq_zero_iff.mp h2, List.length_eq_zero_iff.mp h3]
  | cons x a ih =>
    obtain ⟨h1, h2, h3, -⟩ := id h
    cases a' with
    | nil => simp at h1
    | cons x' a' => cases c with
      | nil => simp at h2
      | cons y c => cases c' with
        | nil => simp at h3
        | cons y' c' =>
          obtain ⟨q1, q2⟩ := sameError_cons m x x' y y' a a' c c' h
          have e1 := mul_same m (j % n + 1) x x' y y' q1
          have e2 := ih (j + 1) a' c c' q2
          have := add_same m _ _ _ _ e1 e2
          unfold cyclicSum
          rw [Nat.add_add_add_comm ((j % n + 1) * x), Nat.add_add_add_comm ((j % n + 1) * x')]
          exact this

theorem altSum_same (m w : Nat) (a a' c c' : List Nat) (h : SameError m a a' c c') :
    (altSum w a + altSum w c') % m = (altSum w a' + altSum w c) % m := by
  induction a generalizing a' c c' w with
  | nil =>
    obtain ⟨h1, h2, h3, -⟩ := h
    rw [List.length_eq_zero_iff.mp h1, List.length_eq_zero_iff.mp h2, List.length_eq_zero_iff.mp h3]
  | cons x a ih =>
    obtain ⟨h1, h2, h3, -⟩ := id h
    cases a' with
    | nil => simp at h1
    | cons x' a' => cases c with
      | nil => simp at h2
      | cons y c => cases c' with
        | nil => simp at h3
        | cons y' c' =>
          obtain ⟨q1, q2⟩ := sameError_cons m x x' y y' a a' c c' h
          have e1 := mul_same m w x x' y y' q1
          have e2 := ih (4 - w) a' c c' q2
          have := add_same m _ _ _ _ e1 e2
          unfold altSum
          rw [Nat.add_add_add_comm (w * x), Nat.add_add_add_comm (w * x')]
          exact this

theorem positionSum_same (m k : Nat) (a a' c c' : List Nat) (h : SameError m a a' c c') :
    (positionSum k a + positionSum k c') % m = (positionSum k a' + positionSum k c) % m := by
  induction a generalizing a' c c' k with
  | nil =>
    obtain ⟨h1, h2, h3, -⟩ := h
    rw [List.length_eq_zero_iff.mp h1, List.length_eq_zero_iff.mp h2, List.length_eq_zero_iff.mp h3]
  | cons x a ih =>
    obtain ⟨h1, h2, h3, -⟩ := id h
    cases a' with
    | nil => simp at h1
    | cons x' a' => cases c with
      | nil => simp at h2
      | cons y c => cases c' with
        | nil => simp at h3
        | cons y' c' =>
          obtain ⟨q1, q2⟩ := sameError_cons m x x' y y' a a' c c' h
          have e1 := mul_same m k x x' y y' q1
          have e2 := ih (k + 1) a' c c' q2
          have := add_same m _ _ _ _ e1 e2
          unfold positionSum
          rw [Nat.add_add_add_comm (k * x), Nat.add_add_add_comm (k * x')]
          exact this

/-! ## Article numbers -/

theorem same_error_number {T : Type} (mk : List Nat → T) (f : List Char → Outcome T) (n : Nat) (hn : n < 100)
    (hf : ∀ s, f s = if byteLen s % 2 ^ 32 ≠ n ∧ byteLen s % 2 ^ 32 ≠ n + 1 then Outcome.err Error.length
      else if ¬ AllDigits s then .err .character
      else if s.length = n + 1 ∧ ¬ Gs1Valid (digitsOf s) then .err .checksum
      else .ok (mk ((digitsOf s).take n))) (s s' t t' : List Char) (hs : AllDigits s) (hs' : AllDigits s') (ht : AllDigits t)
    (ht' : AllDigits t') (hl : s.length = n + 1) (h : SameError 10 (digitsOf s) (digitsOf s') (digitsOf t) (digitsOf t'))
    (h1 : (f s).isOk = true) (h2 : (f t).isOk = true) : (f s').isOk = (f t').isOk := by
  have ok : ∀ u, AllDigits u → u.length = n + 1 → (f u).isOk = decide (Gs1Valid (digitsOf u)) := by
    intro u hu hl
    have hb : byteLen u = n + 1 := by rw [digits_byteLen u hu, hl]
    rw [hf, hb, Nat.mod_eq_of_lt (by omega), if_neg (by omega), if_neg (by simpa using hu)]
    by_cases hv : Gs1Valid (digitsOf u)
    · rw [if_neg (by simp [hv])]; simp [Outcome.isOk, hv]
    · rw [if_pos ⟨hl, hv⟩]; simp [Outcome.isOk, hv]
  obtain ⟨l1, l2, l3, -⟩ := id h
  simp only [digitsOf, List.length_map] at l1 l2 l3
  rw [ok s hs hl, decide_eq_true_eq] at h1
  rw [ok t ht (by omega), decide_eq_true_eq] at h2
  rw [ok s' hs' (by omega), ok t' ht' (by omega)]
  have := altSum_same 10 1 _ _ _ _ (sameError_reverse 10 _ _ _ _ h)
  rw [decide_eq_decide]
  unfold Gs1Valid at h1 h2 ⊢
  omega

/-- C123. An error in an EAN-13, EAN-8 or UPC-A number with check digit is noticed in every number or in none. -/
theorem C123_numbers (b : Build) (s s' t t' : List Char) (hs : AllDigits s) (hs' : AllDigits s') (ht : AllDigits t)
    (ht' : AllDigits t') (h : SameError 10 (digitsOf s) (digitsOf s') (digitsOf t) (digitsOf t')) :
    (s.length = 13 → (Ean13.new b s).isOk = true → (Ean13.new b t).isOk = true → (Ean13.new b s').isOk = (Ean13.new b t').isOk) ∧
    (s.length = 8 → (Ean8.new b s).isOk = true → (Ean8.new b t).isOk = true → (Ean8.new b s').isOk = (Ean8.new b t').isOk) ∧
    (s.length = 12 → (Upca.new b s).isOk = true → (Upca.new b t).isOk = true → (Upca.new b s').isOk = (Upca.new b t').isOk) :=
  ⟨fun hl => same_error_number Ean13.EAN13.mk (Ean13.new b) 12 (by omega) (ean13_new b) s s' t t' hs hs' ht ht' hl h,
    fun hl => same_error_number Ean8.EAN8.mk (Ean8.new b) 7 (by omega) (ean8_new b) s s' t t' hs hs' ht ht' hl h,
    fun hl => same_error_number Upca.UPCA.mk (Upca.new b) 11 (by omega) (upca_new b) s s' t t' hs hs' ht ht' hl h⟩

/-- Digits 1 and 3 are changed by five. The constructor notices neither here nor there. -/
example : SameError 10 (digitsOf "55123457".toList) (digitsOf "05623457".toList) (digitsOf "96385074".toList) (digitsOf "46885074".toList) ∧
    (Ean8.new .debug "55123457".toList).isOk = true ∧ (Ean8.new .debug "96385074".toList).isOk = true ∧
    (Ean8.new .debug "05623457".toList).isOk = true ∧ (Ean8.new .debug "46885074".toList).isOk = true := by decide

/-- Digits 1 and 2 exchanged here, changed by as much there. -/
example : SameError 10 (digitsOf "15123459".toList) (digitsOf "51123459".toList) (digitsOf "96385074".toList) (digitsOf "32385074".toList) ∧
    (Ean8.new .debug "51123459".toList).isOk = false ∧ (Ean8.new .debug "32385074".toList).isOk = false := by decide

/-! ## Check characters -/

/-- A text of check values, from the right, that begins with one check character. -/
def OneCheck (m n : Nat) (vs : List Nat) : Prop := ∃ c r, vs = c :: r ∧ cyclicSum n 0 r % m = c

/-- A text of check values, from the right, that begins with two check characters. -/
def TwoChecks (m n n' : Nat) (vs : List Nat) : Prop :=
  ∃ k c r, vs = k :: c :: r ∧ cyclicSum n 0 r % m = c ∧ cyclicSum n' 0 (c :: r) % m = k

theorem check_same (m A A' E E' x x' y y' : Nat) (hm : m = 43 ∨ m = 47 ∨ m = 11 ∨ m = 103) (h : (A + E') % m = (A' + E) % m)
    (hx : (x + y') % m = (x' + y) % m) (h1 : A % m = x) (h2 : E % m = y) (hx' : x' < m) (hy' : y' < m) :
    A' % m = x' ↔ E' % m = y' := by
  rcases hm with rfl | rfl | rfl | rfl <;> omega

theorem oneCheck_same (m n : Nat) (hm : m = 43 ∨ m = 47 ∨ m = 11 ∨ m = 103) (a a' c c' : List Nat) (h : SameError m a a' c c')
    (ha' : ∀ v ∈ a', v < m) (hc' : ∀ v ∈ c', v < m) (h1 : OneCheck m n a) (h2 : OneCheck m n c) :
    OneCheck m n a' ↔ OneCheck m n c' := by
  obtain ⟨x, r, rfl, e1⟩ := h1
  obtain ⟨y, q, rfl, e2⟩ := h2
  obtain ⟨l1, -, l3, -⟩ := id h
  cases a' with
  | nil => simp at l1
  | cons x' r' => cases c' with
    | nil => simp at l3
    | cons y' q' =>
      obtain ⟨g1, g2⟩ := sameError_cons m _ _ _ _ _ _ _ _ h
      have := check_same m _ _ _ _ x x' y y' hm (cyclicSum_same m n 0 _ _ _ _ g2) g1 e1 e2 (ha' _ (by simp)) (hc' _ (by simp))
      constructor
      · rintro ⟨_, _, e, e'⟩
        cases e
        exact ⟨_, _, rfl, this.mp e'⟩
      · rintro ⟨_, _, e, e'⟩
        cases e
        exact ⟨_, _, rfl, this.mpr e'⟩

theorem twoChecks_same (m n n' : Nat) (hm : m = 43 ∨ m = 47 ∨ m = 11 ∨ m = 103) (a a' c c' : List Nat)
    (h : SameError m a a' c c') (ha' : ∀ v ∈ a', v < m) (hc' : ∀ v ∈ c', v < m) (h1 : TwoChecks m n n' a)
    (h2 : TwoChecks m n n' c) : TwoChecks m n n' a' ↔ TwoChecks m n n' c' := by
  obtain ⟨k, x, r, rfl, e1, f1⟩ := h1
  obtain ⟨i, y, q, rfl, e2, f2⟩ := h2
  obtain ⟨l1, -, l3, -⟩ := id h
  match a', c', l1, l3, h, ha', hc' with
  | k' :: x' :: r', i' :: y' :: q', _, _, h, ha', hc' =>
    obtain ⟨g1, g2⟩ := sameError_cons m _ _ _ _ _ _ _ _ h
    obtain ⟨g3, g4⟩ := sameError_cons m _ _ _ _ _ _ _ _ g2
    have t1 := check_same m _ _ _ _ x x' y y' hm (cyclicSum_same m n 0 _ _ _ _ g4) g3 e1 e2 (ha' _ (by simp)) (hc' _ (by simp))
    have t2 := check_same m _ _ _ _ k k' i i' hm (cyclicSum_same m n' 0 _ _ _ _ g2) g1 f1 f2 (ha' _ (by simp)) (hc' _ (by simp))
    constructor
    · rintro ⟨_, _, _, e, e', e''⟩
      cases e
      exact ⟨_, _, _, rfl, t1.mp e', t2.mp e''⟩
    · rintro ⟨_, _, _, e, e', e''⟩
      cases e
      exact ⟨_, _, _, rfl, t1.mpr e', t2.mpr e''⟩

theorem cyclicSum_one (j : Nat) (r : List Nat) : cyclicSum 1 j r = r.sum := by
  induction r generalizing j with
  | nil => rfl
  | cons d r ih => rw [cyclicSum, ih, List.sum_cons, Nat.mod_one]; omega

theorem cyclicSum_one_reverse (r : List Nat) : cyclicSum 1 0 r.reverse = r.sum := by
  rw [cyclicSum_one, List.sum_reverse]

/-- Texts, last character first. -/
theorem snoc_cases (u : List Char) (h : u ≠ []) : ∃ p c, u = p ++ [c] := ⟨u.dropLast, u.getLast h, (List.dropLast_concat_getLast h).symm⟩

theorem code39_oneCheck (ms : List Nat) (u : List Char) (h : scanCode39 ms = some u) :
    (scanCode39Checked ms).isSome = true ↔ OneCheck 43 1 (u.map code39Value).reverse := by
  have hA := scanCode39_chars ms u h
  rw [scanCode39Checked, h]
  show (if u ≠ [] ∧ u.getLast? = some (code39Check u.dropLast) then some u.dropLast else none).isSome = true ↔ _
  by_cases hu : u = []
  · subst hu
    simp [OneCheck]
  · obtain ⟨p, c, rfl⟩ := snoc_cases u hu
    have hp : c ∈ code39Alphabet := hA c (by simp)
    simp only [List.dropLast_concat, List.getLast?_concat, Option.some.injEq]
    have e : c = code39Check p ↔ (p.map code39Value).sum % 43 = code39Value c := by
      rw [← code39Value_check]
      constructor
      · intro h; rw [← h]
      · intro h; exact (code39Value_inj _ _ (code39Check_mem p) hp h).symm
    rw [show ((p ++ [c]).map code39Value).reverse = code39Value c :: (p.map code39Value).reverse by simp]
    constructor
    · intro h
      split at h
      · next hc =>
        refine ⟨_, _, rfl, ?_⟩
        rw [cyclicSum_one_reverse]
        exact e.mp hc.2
      · simp at h
    · rintro ⟨_, _, hq, h'⟩
      cases hq
      rw [cyclicSum_one_reverse] at h'
      rw [if_pos ⟨by simp, e.mpr h'⟩]
      rfl

/-- C123. Code 39 with check character. -/
theorem C123_code39 (s t : List Char) (x y : Code39.Code39) (hx : Code39.withChecksum s = .ok x) (hy : Code39.withChecksum t = .ok y)
    (ms ns ms' ns' : List Nat) (he : Code39.encode x = .ok ms) (he' : Code39.encode y = .ok ns) (u u' v v' : List Char)
    (hu : scanCode39 ms = some u) (hu' : scanCode39 ms' = some u') (hv : scanCode39 ns = some v) (hv' : scanCode39 ns' = some v')
    (h : SameError 43 (u.map code39Value) (u'.map code39Value) (v.map code39Value) (v'.map code39Value)) :
    (scanCode39Checked ms').isSome = true ↔ (scanCode39Checked ns').isSome = true := by
  have good : ∀ (s : List Char) (x : Code39.Code39) (ms : List Nat), Code39.withChecksum s = .ok x → Code39.encode x = .ok ms →
      (scanCode39Checked ms).isSome = true := by
    intro s x ms hx he
    obtain ⟨bits, e2, -, e3⟩ := C14_code39_checksum_scan s x hx
    rw [he, Outcome.ok.injEq] at e2
    subst e2
    rw [e3]; rfl
  rw [code39_oneCheck _ _ hu', code39_oneCheck _ _ hv']
  have lt : ∀ (ms : List Nat) (u : List Char), scanCode39 ms = some u → ∀ w ∈ (u.map code39Value).reverse, w < 43 := by
    intro ms u h w hw
    obtain ⟨c, hc, rfl⟩ := List.mem_map.mp (List.mem_reverse.mp hw)
    exact code39Value_lt c (scanCode39_chars ms u h c hc)
  exact oneCheck_same 43 1 (by omega) _ _ _ _ (sameError_reverse 43 _ _ _ _ h) (lt _ _ hu') (lt _ _ hv')
    ((code39_oneCheck _ _ hu).mp (good s x ms hx he)) ((code39_oneCheck _ _ hv).mp (good t y ns hy he'))

/-- `0` misread as `1` in front, and the check character misread to suit. -/
example : ∃ x y x' y' ms ns ms' ns', Code39.withChecksum "0A".toList = .ok x ∧ Code39.withChecksum "4B".toList = .ok y ∧
    Code39.withChecksum "1A".toList = .ok x' ∧ Code39.withChecksum "5B".toList = .ok y' ∧ Code39.encode x = .ok ms ∧
    Code39.encode y = .ok ns ∧ Code39.encode x' = .ok ms' ∧ Code39.encode y' = .ok ns' ∧
    scanCode39 ms = some "0AA".toList ∧ scanCode39 ms' = some "1AB".toList ∧ scanCode39 ns = some "4BF".toList ∧
    scanCode39 ns' = some "5BG".toList ∧
    SameError 43 ("0AA".toList.map code39Value) ("1AB".toList.map code39Value) ("4BF".toList.map code39Value)
      ("5BG".toList.map code39Value) :=
  ⟨_, _, _, _, _, _, _, _, rfl, rfl, rfl, rfl, rfl, rfl, rfl, rfl, by decide +kernel, by decide +kernel, by decide +kernel,
    by decide +kernel, by decide +kernel⟩

theorem readCode93_chars (ms : List Nat) (u : List Char) (h : readCode93 ms = some u) : ∀ c ∈ u, c ∈ code93Alphabet := by
  unfold readCode93 at h
  simp only [Option.bind_eq_bind, Option.bind_eq_some_iff] at h
  obtain ⟨es, -, h⟩ := h
  split at h
  case isFalse => cases h
  rw [Option.bind_some, Option.bind_eq_some_iff] at h
  obtain ⟨cs, h1, h2⟩ := h
  obtain ⟨rfl, h3⟩ := stars_inv cs u h2
  intro c hc
  have := readAll_values (fun c => c ∈ code93Chart.map Prod.fst) 6 (by omega) readCode93Char
    (fun w c h => chart_mem _ w c h) _ _ h1 c (by simp [hc])
  rcases code93_chart_chars c this with rfl | h
  · exact absurd hc h3
  · exact h

theorem readCode11_chars (ms : List Nat) (u : List Char) (h : readCode11 ms = some u) : ∀ c ∈ u, c ∈ code11Alphabet := by
  unfold readCode11 at h
  simp only [Option.bind_eq_bind, Option.bind_eq_some_iff] at h
  obtain ⟨es, -, cs, h1, h2⟩ := h
  obtain ⟨rfl, h3⟩ := stars_inv cs u h2
  intro c hc
  have := readAll_values (fun c => c ∈ code11Chart.map Prod.fst) 6 (by omega) readCode11Char
    (gap_mem _ 5 _ (fun _ => rfl)) _ _ h1 c (by simp [hc])
  rcases code11_chart_chars c this with rfl | h
  · exact absurd hc h3
  · exact h

theorem code93_twoChecks (u : List Char) (hA : ∀ c ∈ u, c ∈ code93Alphabet) :
    (verifyCode93 u).isSome = true ↔ TwoChecks 47 20 15 (u.map code93Value).reverse := by
  have key : (verifyCode93 u).isSome = true ↔ ∃ s, u = code93Text s := by
    rw [Option.isSome_iff_exists]
    exact exists_congr (fun s => verifyCode93_iff u s)
  rw [key]
  constructor
  · rintro ⟨s, rfl⟩
    refine ⟨code93Value (code93Check 15 (s ++ [code93Check 20 s])), code93Value (code93Check 20 s), (s.map code93Value).reverse,
      by simp [code93Text], (code93Value_check 20 s).symm, ?_⟩
    rw [code93Value_check 15]
    simp
  · rintro ⟨k, c, r, h, h1, h2⟩
    have hl : 2 ≤ u.length := by
      have := congrArg List.length h
      simp at this
      omega
    obtain ⟨p, kc, rfl⟩ := snoc_cases u (by rintro rfl; simp at hl)
    obtain ⟨q, cc, rfl⟩ := snoc_cases p (by rintro rfl; simp at hl)
    simp only [List.map_append, List.map_cons, List.map_nil, List.reverse_append, List.reverse_cons, List.reverse_nil, List.nil_append,
      List.cons_append, List.cons.injEq] at h
    obtain ⟨rfl, rfl, rfl⟩ := h
    refine ⟨q, ?_⟩
    have e1 : cc = code93Check 20 q := code93Value_inj _ _ (hA cc (by simp)) (code93Check_mem 20 q) (by
      rw [code93Value_check, h1])
    have e2 : kc = code93Check 15 (q ++ [cc]) := code93Value_inj _ _ (hA kc (by simp)) (code93Check_mem 15 _) (by
      rw [code93Value_check, ← h2]; simp)
    rw [code93Text, ← e1, ← e2]
    simp

/-- C123. Code 93. -/
theorem C123_code93 (b b' : Build) (s t : List Char) (ms ns ms' ns' : List Nat) (hs : Drawn b .code93 s ms)
    (ht : Drawn b' .code93 t ns) (u u' v v' : List Char)
    (hu : readCode93 ms = some u) (hu' : readCode93 ms' = some u') (hv : readCode93 ns = some v) (hv' : readCode93 ns' = some v')
    (h : SameError 47 (u.map code93Value) (u'.map code93Value) (v.map code93Value) (v'.map code93Value)) :
    (scanCode93 ms').isSome = true ↔ (scanCode93 ns').isSome = true := by
  have good : ∀ (b : Build) (s : List Char) (ms : List Nat) (u : List Char), Drawn b .code93 s ms → readCode93 ms = some u →
      TwoChecks 47 20 15 (u.map code93Value).reverse := by
    intro b s ms u hd hr
    obtain ⟨x, hx, he⟩ := hd
    obtain ⟨bits, e2, e3⟩ := C17_code93_scan s x hx
    rw [he, Outcome.ok.injEq] at e2
    subst e2
    rw [← code93_twoChecks u (readCode93_chars ms u hr)]
    rw [scanCode93, hr, Option.bind_some] at e3
    rw [e3]; rfl
  have lt : ∀ (ms : List Nat) (u : List Char), readCode93 ms = some u → ∀ w ∈ (u.map code93Value).reverse, w < 47 := by
    intro ms u h w hw
    obtain ⟨c, hc, rfl⟩ := List.mem_map.mp (List.mem_reverse.mp hw)
    exact code93Value_lt c (readCode93_chars ms u h c hc)
  rw [scanCode93, scanCode93, hu', hv', Option.bind_some, Option.bind_some, code93_twoChecks u' (readCode93_chars _ _ hu'),
    code93_twoChecks v' (readCode93_chars _ _ hv')]
  exact twoChecks_same 47 20 15 (by omega) _ _ _ _ (sameError_reverse 47 _ _ _ _ h) (lt _ _ hu') (lt _ _ hv') (good b s ms u hs hu)
    (good b' t ns v ht hv)

/-- `0` misread as `1` in front, in two texts. -/
example : ∃ ms ns ms' ns' u u' v v', Drawn .debug .code93 "0A".toList ms ∧ Drawn .debug .code93 "4B".toList ns ∧
    Drawn .debug .code93 "1A".toList ms' ∧ Drawn .debug .code93 "5B".toList ns' ∧ readCode93 ms = some u ∧ readCode93 ms' = some u' ∧
    readCode93 ns = some v ∧ readCode93 ns' = some v' ∧
    SameError 47 (u.map code93Value) (u'.map code93Value) (v.map code93Value) (v'.map code93Value) :=
  ⟨_, _, _, _, code93Text "0A".toList, code93Text "1A".toList, code93Text "4B".toList, code93Text "5B".toList, ⟨_, rfl, rfl⟩,
    ⟨_, rfl, rfl⟩, ⟨_, rfl, rfl⟩, ⟨_, rfl, rfl⟩, by decide +kernel, by decide +kernel, by decide +kernel, by decide +kernel,
    by decide +kernel⟩

theorem code11_checks (u : List Char) (hA : ∀ c ∈ u, c ∈ code11Alphabet) :
    (verifyCode11 u).isSome = true ↔
      (u.length ≤ 11 ∧ OneCheck 11 10 (u.map code11Value).reverse) ∨
      (13 ≤ u.length ∧ TwoChecks 11 10 9 (u.map code11Value).reverse) := by
  have key : (verifyCode11 u).isSome = true ↔ ∃ s, u = code11Text s := by
    rw [Option.isSome_iff_exists]
    exact exists_congr (fun s => verifyCode11_iff u s)
  rw [key]
  constructor
  · rintro ⟨s, rfl⟩
    rw [code11Text_length]
    by_cases hl : s.length > 10
    · right
      rw [if_pos hl, code11Text, if_pos hl]
      refine ⟨by omega, code11Value (code11Check 9 (s ++ [code11Check 10 s])), code11Value (code11Check 10 s),
        (s.map code11Value).reverse, by simp, (code11Value_check 10 s).symm, ?_⟩
      rw [code11Value_check 9]
      simp
    · left
      rw [if_neg hl, code11Text, if_neg hl]
      exact ⟨by omega, code11Value (code11Check 10 s), (s.map code11Value).reverse, by simp, (code11Value_check 10 s).symm⟩
  · rintro (⟨hl, c, r, h, h1⟩ | ⟨hl, k, c, r, h, h1, h2⟩)
    · obtain ⟨q, cc, rfl⟩ := snoc_cases u (by rintro rfl; simp at h)
      simp only [List.map_append, List.map_cons, List.map_nil, List.reverse_append, List.reverse_cons, List.reverse_nil,
        List.nil_append, List.cons_append, List.cons.injEq] at h
      obtain ⟨rfl, rfl⟩ := h
      refine ⟨q, ?_⟩
      have e1 : cc = code11Check 10 q := code11Value_inj _ _ (hA cc (by simp)) (code11Check_mem 10 q) (by
        rw [code11Value_check, h1])
      rw [code11Text, if_neg (by simp at hl; omega), ← e1]
    · obtain ⟨p, kc, rfl⟩ := snoc_cases u (by rintro rfl; simp at hl)
      obtain ⟨q, cc, rfl⟩ := snoc_cases p (by rintro rfl; simp at hl)
      simp only [List.map_append, List.map_cons, List.map_nil, List.reverse_append, List.reverse_cons, List.reverse_nil,
        List.nil_append, List.cons_append, List.cons.injEq] at h
      obtain ⟨rfl, rfl, rfl⟩ := h
      refine ⟨q, ?_⟩
      have e1 : cc = code11Check 10 q := code11Value_inj _ _ (hA cc (by simp)) (code11Check_mem 10 q) (by
        rw [code11Value_check, h1])
      have e2 : kc = code11Check 9 (q ++ [cc]) := code11Value_inj _ _ (hA kc (by simp)) (code11Check_mem 9 _) (by
        rw [code11Value_check, ← h2]; simp)
      rw [code11Text, if_pos (by simp at hl; omega), ← e1, ← e2]
      simp

/-- C123. Code 11. -/
theorem C123_code11 (b b' : Build) (s t : List Char) (ms ns ms' ns' : List Nat) (hs : Drawn b .code11 s ms)
    (ht : Drawn b' .code11 t ns) (u u' v v' : List Char)
    (hu : readCode11 ms = some u) (hu' : readCode11 ms' = some u') (hv : readCode11 ns = some v) (hv' : readCode11 ns' = some v')
    (h : SameError 11 (u.map code11Value) (u'.map code11Value) (v.map code11Value) (v'.map code11Value)) :
    (scanCode11 ms').isSome = true ↔ (scanCode11 ns').isSome = true := by
  have good : ∀ (b : Build) (s : List Char) (ms : List Nat) (u : List Char), Drawn b .code11 s ms → readCode11 ms = some u →
      (u.length ≤ 11 ∧ OneCheck 11 10 (u.map code11Value).reverse) ∨
      (13 ≤ u.length ∧ TwoChecks 11 10 9 (u.map code11Value).reverse) := by
    intro b s ms u hd hr
    obtain ⟨x, hx, he⟩ := hd
    obtain ⟨bits, e2, e3⟩ := C20_code11_scan s x hx
    rw [he, Outcome.ok.injEq] at e2
    subst e2
    rw [← code11_checks u (readCode11_chars ms u hr)]
    rw [scanCode11, hr, Option.bind_some] at e3
    rw [e3]; rfl
  have lt : ∀ (ms : List Nat) (u : List Char), readCode11 ms = some u → ∀ w ∈ (u.map code11Value).reverse, w < 11 := by
    intro ms u h w hw
    obtain ⟨c, hc, rfl⟩ := List.mem_map.mp (List.mem_reverse.mp hw)
    exact code11Value_lt c (readCode11_chars ms u h c hc)
  rw [scanCode11, scanCode11, hu', hv', Option.bind_some, Option.bind_some, code11_checks u' (readCode11_chars _ _ hu'),
    code11_checks v' (readCode11_chars _ _ hv')]
  obtain ⟨l1, l2, l3, -⟩ := id h
  simp only [List.length_map] at l1 l2 l3
  rcases good b s ms u hs hu with ⟨c1, c2⟩ | ⟨c1, c2⟩ <;> rcases good b' t ns v ht hv with ⟨d1, d2⟩ | ⟨d1, d2⟩
  · have := oneCheck_same 11 10 (by omega) _ _ _ _ (sameError_reverse 11 _ _ _ _ h) (lt _ _ hu') (lt _ _ hv') c2 d2
    rw [this, l1, l3]
    constructor
    · rintro (h | h)
      · exact .inl h
      · omega
    · rintro (h | h)
      · exact .inl h
      · omega
  · omega
  · omega
  · have := twoChecks_same 11 10 9 (by omega) _ _ _ _ (sameError_reverse 11 _ _ _ _ h) (lt _ _ hu') (lt _ _ hv') c2 d2
    rw [this, l1, l3]
    constructor
    · rintro (h | h)
      · omega
      · exact .inr h
    · rintro (h | h)
      · omega
      · exact .inr h

/-- `0` misread as `1` in front, in two texts. -/
example : ∃ ms ns ms' ns' u u' v v', Drawn .debug .code11 "0-".toList ms ∧ Drawn .debug .code11 "42".toList ns ∧
    Drawn .debug .code11 "1-".toList ms' ∧ Drawn .debug .code11 "52".toList ns' ∧ readCode11 ms = some u ∧ readCode11 ms' = some u' ∧
    readCode11 ns = some v ∧ readCode11 ns' = some v' ∧
    SameError 11 (u.map code11Value) (u'.map code11Value) (v.map code11Value) (v'.map code11Value) :=
  ⟨_, _, _, _, code11Text "0-".toList, code11Text "1-".toList, code11Text "42".toList, code11Text "52".toList, ⟨_, rfl, rfl⟩,
    ⟨_, rfl, rfl⟩, ⟨_, rfl, rfl⟩, ⟨_, rfl, rfl⟩, by decide +kernel, by decide +kernel, by decide +kernel, by decide +kernel,
    by decide +kernel⟩

/-- C123. Code 128, as far as the check symbol goes. -/
theorem C123_code128 (b b' : Build) (s t : List Char) (ms ns : List Nat) (hs : Drawn b .code128 s ms)
    (ht : Drawn b' .code128 t ns) (ls : s.length ≤ 6489) (lt : t.length ≤ 6489) (u v u' v' : List Nat) (a a' c c' : Nat)
    (hu : readCode128 ms = some (a :: u ++ [c])) (hv : readCode128 ns = some (a' :: v ++ [c'])) (i i' k k' : Nat) (hk : k < 103)
    (hk' : k' < 103) (h : SameError 103 (a :: u ++ [c]) (i :: u' ++ [k]) (a' :: v ++ [c']) (i' :: v' ++ [k'])) :
    (verifyCode128 (i :: u' ++ [k])).isSome = true ↔ (verifyCode128 (i' :: v' ++ [k'])).isSome = true := by
  have ver : ∀ (a c : Nat) (u : List Nat), (verifyCode128 (a :: u ++ [c])).isSome = true ↔ (a + positionSum 1 u) % 103 = c := by
    intro a c u
    unfold verifyCode128
    rw [List.cons_append]
    simp only [List.getLast?_concat, List.dropLast_concat, code128Sum]
    split
    · next h => simp [h]
    · next h => simp; exact fun h' => h h'.symm
  have good : ∀ (b : Build) (s : List Char) (ms : List Nat) (a c : Nat) (u : List Nat), Drawn b .code128 s ms → s.length ≤ 6489 →
      readCode128 ms = some (a :: u ++ [c]) → (a + positionSum 1 u) % 103 = c := by
    intro b s ms a c u hd hl hr
    obtain ⟨x, hx, he⟩ := hd
    obtain ⟨bits, e2, e3⟩ := C28_code128_scan_regrouped_partial b s x hx hl
    rw [he, Outcome.ok.injEq] at e2
    subst e2
    rw [← ver]
    unfold scanCode128 at e3
    simp only [Option.bind_eq_bind, Option.bind_eq_some_iff] at e3
    obtain ⟨vs, f1, ⟨st, d⟩, f2, -⟩ := e3
    rw [hr, Option.some.injEq] at f1
    rw [f1, f2]; rfl
  have g1 := good b s ms a c u hs ls hu
  have g2 := good b' t ns a' c' v ht lt hv
  rw [ver, ver]
  obtain ⟨l1, l2, l3, -⟩ := id h
  simp only [List.length_append, List.length_cons, List.length_nil] at l1 l2 l3
  have r1 := sameError_cons 103 _ _ _ _ _ _ _ _ h
  obtain ⟨r2, r3⟩ := sameError_snoc 103 _ _ _ _ _ _ _ _ (by omega) (by omega) (by omega) r1.2
  refine check_same 103 _ _ _ _ c k c' k' (by omega) ?_ r3 g1 g2 hk hk'
  have e2 := positionSum_same 103 1 _ _ _ _ r2
  have := add_same 103 _ _ _ _ r1.1 e2
  rw [Nat.add_add_add_comm a, Nat.add_add_add_comm i]
  exact this

/-- `A` and `B` in code set B, misread as `B` and `C`, with the check symbol misread to suit. -/
example : ∃ ms ns, Drawn .debug .code128 "ƁA".toList ms ∧ Drawn .debug .code128 "ƁB".toList ns ∧
    readCode128 ms = some (104 :: [33] ++ [34]) ∧ readCode128 ns = some (104 :: [34] ++ [35]) ∧
    SameError 103 (104 :: [33] ++ [34]) (104 :: [34] ++ [35]) (104 :: [34] ++ [35]) (104 :: [35] ++ [36]) ∧
    (verifyCode128 (104 :: [35] ++ [36])).isSome = true :=
  ⟨_, _, ⟨_, rfl, rfl⟩, ⟨_, rfl, rfl⟩, by decide +kernel, by decide +kernel, by decide +kernel, by decide +kernel⟩

end Barcoders
