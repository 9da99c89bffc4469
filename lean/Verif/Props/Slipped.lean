import Verif.Spec.Slipped
import Verif.Props.LostBars
import Verif.Props.Exact

/-!
# C131: modules lost or too many

A printer drops a column of dots or prints one twice, a scanner loses count. What is left has another number of modules than the
symbol had, and hardly ever one that a symbol can have. Where the characters differ in width it is the number of bars that tells.
-/

set_option autoImplicit false

namespace Barcoders
open Spec

/-! ## Runs of a row with one module more -/

/-- What one module more does to the runs, once something has been read before it: a run is longer by one, there are two runs more,
or there is a run of one more at the very end. -/
inductive Grown : List (Nat × Nat) → List (Nat × Nat) → Prop
  | wider (l r : List (Nat × Nat)) (c n : Nat) : Grown (l ++ (c, n) :: r) (l ++ (c, n + 1) :: r)
  | split (c n n' : Nat) (r r' : List (Nat × Nat)) : r'.length = r.length + 2 → Grown ((c, n) :: r) ((c, n') :: r')
  | last (p : Nat × Nat) (l : List (Nat × Nat)) (x : Nat) : Grown (p :: l) (p :: l ++ [(x, 1)])

theorem runs_cons (m : Nat) (ms : List Nat) : runs (m :: ms) =
    match runs ms with
    | [] => [(m, 1)]
    | (c, n) :: r => if c = m then (c, n + 1) :: r else (m, 1) :: (c, n) :: r := rfl

theorem runs_nil_iff (ms : List Nat) : runs ms = [] ↔ ms = [] := by
  cases ms with
  | nil => simp [runs]
  | cons m ms =>
    rw [runs_cons]
    cases runs ms with
    | nil => simp
    | cons p r => obtain ⟨c, n⟩ := p; by_cases h : c = m <;> simp [h]

theorem grown_cons (m : Nat) (ms ms' : List Nat) (h : Grown (runs ms) (runs ms')) : Grown (runs (m :: ms)) (runs (m :: ms')) := by
  rw [runs_cons, runs_cons]
  generalize runs ms = R at h
  generalize runs ms' = R' at h
  cases h with
  | wider l r c n =>
    cases l with
    | nil =>
      by_cases hc : c = m
      · simp only [List.nil_append, hc, if_true]
        exact .wider [] r m (n + 1)
      · simp only [List.nil_append, hc, if_false]
        exact .wider [(m, 1)] r c n
    | cons p l =>
      obtain ⟨d, k⟩ := p
      by_cases hc : d = m
      · simp only [List.cons_append, hc, if_true]
        exact .wider ((m, k + 1) :: l) r c n
      · simp only [List.cons_append, hc, if_false]
        exact .wider ((m, 1) :: (d, k) :: l) r c n
  | split c n n' r r' hl =>
    by_cases hc : c = m
    · simp only [hc, if_true]
      exact .split m _ _ _ _ hl
    · simp only [hc, if_false]
      exact .split m _ _ _ _ (by simp [hl])
  | last p l x =>
    obtain ⟨d, k⟩ := p
    by_cases hc : d = m
    · simp only [List.cons_append, hc, if_true]
      exact .last (m, k + 1) l x
    · simp only [List.cons_append, hc, if_false]
      exact .last (m, 1) ((d, k) :: l) x

theorem grown_append (a ms ms' : List Nat) (h : Grown (runs ms) (runs ms')) : Grown (runs (a ++ ms)) (runs (a ++ ms')) := by
  induction a with
  | nil => exact h
  | cons m a ih => exact grown_cons m _ _ ih

/-- One module more after at least one other, in a row of bars and spaces. -/
theorem grown_insert (a b : List Nat) (m x : Nat) (h : ∀ v ∈ m :: x :: b, v = 0 ∨ v = 1) :
    Grown (runs (a ++ m :: b)) (runs (a ++ m :: x :: b)) := by
  apply grown_append
  rw [runs_cons m (x :: b), runs_cons x b, runs_cons m b]
  cases hb : runs b with
  | nil =>
    by_cases hx : x = m
    · simp only [hx, if_true]; exact .wider [] [] m 1
    · simp only [hx, if_false]; exact .last (m, 1) [] x
  | cons p r =>
    obtain ⟨c, n⟩ := p
    have hc : c = 0 ∨ c = 1 := by
      cases b with
      | nil => simp [runs] at hb
      | cons v b =>
        have hv := h v (by simp)
        rw [runs_cons] at hb
        cases hr : runs b with
        | nil => rw [hr] at hb; simp at hb; omega
        | cons q r' =>
          obtain ⟨d, k⟩ := q
          rw [hr] at hb
          by_cases hd : d = v
          · simp [hd] at hb; omega
          · simp [hd] at hb; omega
    have hm := h m (by simp)
    have hx := h x (by simp)
    by_cases h1 : c = x
    · subst h1
      by_cases h2 : c = m
      · subst h2
        simp only [if_true]
        exact .wider [] r c (n + 1)
      · simp only [if_true, h2, if_false]
        exact .wider [(m, 1)] r c n
    · simp only [h1, if_false]
      by_cases h2 : x = m
      · subst h2
        simp only [if_true, h1, if_false]
        exact .wider [] ((c, n) :: r) x 1
      · have h3 : c = m := by omega
        subst h3
        simp only [if_true, h2, if_false]
        exact .split c _ _ _ _ (by simp)

theorem elements_binary (ms es : List Nat) (h : elements ms = some es) :
    (∀ v ∈ ms, v = 0 ∨ v = 1) ∧ ms.head? = some 1 ∧ es = (runs ms).map Prod.snd := by
  unfold elements at h
  split at h
  · next hc =>
    rw [Bool.and_eq_true, List.all_eq_true] at hc
    refine ⟨fun v hv => by simpa using hc.1 v hv, by simpa using hc.2, ?_⟩
    injection h with h; exact h.symm
  · cases h

/-- One module more: an element is wider by one, or there are two elements more, or one at the end. -/
theorem missing_elements (ms ms' es es' : List Nat) (hm : OneMissing ms ms') (h : elements ms = some es)
    (h' : elements ms' = some es') :
    (∃ i, i < es'.length ∧ es = es'.set i (es'.getD i 0 + 1)) ∨ es.length = es'.length + 2 ∨ es = es' ++ [1] := by
  obtain ⟨a, x, b, rfl, rfl⟩ := hm
  obtain ⟨k1, k2, rfl⟩ := elements_binary _ _ h
  obtain ⟨-, k3, rfl⟩ := elements_binary _ _ h'
  have key : Grown (runs (a ++ b)) (runs (a ++ x :: b)) := by
    rcases List.eq_nil_or_concat a with rfl | ⟨a', m, rfl⟩
    · cases b with
      | nil => simp at k3
      | cons m b =>
        simp at k2 k3
        subst k2 k3
        exact grown_insert [] b 1 1 (fun v hv => k1 v (by simpa using hv))
    · rw [List.concat_eq_append] at k1 ⊢
      rw [List.append_assoc, List.append_assoc]
      refine grown_insert a' b m x (fun v hv => k1 v ?_)
      rw [List.append_assoc]
      exact List.mem_append_right _ hv
  generalize runs (a ++ b) = R at key
  generalize runs (a ++ x :: b) = R' at key
  cases key with
  | wider l r c n =>
    left
    refine ⟨l.length, by simp, ?_⟩
    simp
  | split c n n' r r' hl => right; left; simp [hl]
  | last p l x => right; right; simp

/-! ## How many modules a row that can be read has -/

theorem runs_sum (ms : List Nat) : ((runs ms).map Prod.snd).sum = ms.length := by
  induction ms with
  | nil => rfl
  | cons m ms ih =>
    rw [runs_cons]
    cases h : runs ms with
    | nil =>
      rw [h] at ih
      simp at ih ⊢
      exact List.eq_nil_of_length_eq_zero ih.symm
    | cons p r =>
      obtain ⟨c, n⟩ := p
      rw [h] at ih
      by_cases hc : c = m <;> simp [hc] at ih ⊢ <;> omega

theorem elements_sum (ms es : List Nat) (h : elements ms = some es) : es.sum = ms.length := by
  rw [(elements_binary ms es h).2.2, runs_sum]

/-- A scanner that reads only rows whose number of modules leaves the remainder `r` modulo `k`. -/
def Measured {α : Type} (k r : Nat) (scan : List Nat → Option α) : Prop := ∀ ms t, scan ms = some t → ms.length % k = r

theorem Measured.slipped {α β : Type} {k r : Nat} {scan : List Nat → Option α} {scan' : List Nat → Option β}
    (h : Measured (k + 1) r scan) (h2 : Measured (k + 1) r scan') (ms ms' : List Nat) (t : α) (hs : scan ms = some t)
    (hm : Slipped k ms ms') : scan' ms' = none := by
  cases h' : scan' ms' with
  | none => rfl
  | some t' =>
    exfalso
    obtain ⟨s1, s2, s3⟩ := hm
    have f1 := h ms t hs
    have f2 := h2 ms' t' h'
    have d1 := Nat.div_add_mod ms.length (k + 1)
    have d2 := Nat.div_add_mod ms'.length (k + 1)
    rw [f1] at d1
    rw [f2] at d2
    rcases Nat.lt_trichotomy (ms'.length / (k + 1)) (ms.length / (k + 1)) with hlt | heq | hgt
    · have := Nat.mul_le_mul_left (k + 1) (show ms'.length / (k + 1) + 1 ≤ ms.length / (k + 1) from hlt)
      rw [Nat.mul_succ] at this
      omega
    · rw [heq] at d2; omega
    · have := Nat.mul_le_mul_left (k + 1) (show ms.length / (k + 1) + 1 ≤ ms'.length / (k + 1) from hgt)
      rw [Nat.mul_succ] at this
      omega

theorem groups_measured {α : Type} (k m : Nat) (hk : 0 < k) (f : List Nat → Option α) (hf : ∀ w x, f w = some x → w.sum = m)
    (body : List Nat) (l : List α) (h : readAll k f body = some l) : body.sum % m = 0 := by
  obtain ⟨ws, rfl, a2, a3⟩ := readAll_groups k hk f body l h
  rw [groups_sum m ws (fun w hw => by obtain ⟨x, hx⟩ := (reads_of f ws l a3).1 w hw; exact hf w x hx)]
  exact Nat.mul_mod_right _ _

theorem code39_measured : Measured 13 12 scanCode39 := by
  intro ms t h
  obtain ⟨es, a1, a2, -⟩ := scanCode39_inv ms t h
  have := groups_measured 10 13 (by omega) readCode39Char (fun w x hw => by
    obtain ⟨p, hp, -, rfl⟩ := gap_read _ 9 readCode39Char (fun _ => rfl) w x hw
    rw [List.sum_append, code39_chart_sum p hp]; rfl) _ _ a2
  rw [← elements_sum ms es a1]
  simp at this
  omega

theorem code39Checked_measured : Measured 13 12 scanCode39Checked := fun ms t h => code39_measured ms _ (scanCode39Checked_inv ms t h)

theorem code93_measured : Measured 9 1 scanCode93 := by
  intro ms t h
  obtain ⟨body, a1, a2, -⟩ := scanCode93_inv ms t h
  have := groups_measured 6 9 (by omega) readCode93Char code93_read_sum _ _ a2
  rw [← elements_sum ms _ a1]
  simp
  omega

theorem code128_measured : Measured 11 2 scanCode128 := by
  intro ms t h
  obtain ⟨es, _, _, _, a1, a2, -⟩ := scanCode128_inv ms t h
  have := groups_measured 6 11 (by omega) code128Chart.idxOf? (fun w x hw => (code128_chart_firm w (idxOf_mem _ w x hw)).1) _ _ a2
  rw [← elements_sum ms _ a1]
  simp [code128Stop]
  omega

/-! ## The theorems -/

/-- C131. A row with any other number of modules than the symbol is not read as EAN-13, EAN-8 or UPC-A. -/
theorem C131_retail (b : Build) (s : List Char) (ms ms' : List Nat) (hl : ms'.length ≠ ms.length) :
    (Drawn b .ean13 s ms → scanEan13 ms' = none) ∧ (Drawn b .ean8 s ms → scanEan8 ms' = none) ∧
    (Drawn b .upca s ms → scanUpca ms' = none) := by
  have key : ∀ (scan : List Nat → Option (List Nat)) (k : Kind) (n : Nat), (∀ t ms, Drawn b k t ms → ms.length = n) →
      (∀ ms ds, scan ms = some ds → ∃ t, Drawn b k t ms) → Drawn b k s ms → scan ms' = none := by
    intro scan k n h1 h2 h3
    cases h : scan ms' with
    | none => rfl
    | some ds =>
      obtain ⟨t, ht⟩ := h2 _ _ h
      exact absurd ((h1 t _ ht).trans (h1 s ms h3).symm) hl
  refine ⟨key scanEan13 .ean13 95 ?_ ?_, key scanEan8 .ean8 67 ?_ ?_, key scanUpca .upca 95 ?_ ?_⟩
  · rintro t ms ⟨x, hx, he⟩; exact ((C32_ean_rows b b t ms).1 x hx he).length
  · intro ms ds h
    obtain ⟨t, -, -, ht⟩ := (C75_ean13 b ms ds).mp h
    exact ⟨t, ht⟩
  · rintro t ms ⟨x, hx, he⟩; exact ((C32_ean_rows b b t ms).2.1 x hx he).length
  · intro ms ds h
    obtain ⟨t, -, -, ht⟩ := (C75_ean8 b ms ds).mp h
    exact ⟨t, ht⟩
  · rintro t ms ⟨x, hx, he⟩; exact ((C32_ean_rows b b t ms).2.2 x hx he).length
  · intro ms ds h
    obtain ⟨t, -, -, ht⟩ := (C75_upca b ms ds).mp h
    exact ⟨t, ht⟩

/-- Ten light modules too many in the middle, or one of the guard missing. -/
example : ∃ ms, Drawn .debug .upca "01234567890".toList ms ∧ (scanUpca ms).isSome ∧ scanUpca (ms.drop 2) = none ∧
    scanUpca (ms.take 50 ++ [0, 0, 0, 0, 0, 0, 0, 0, 0, 0] ++ ms.drop 50) = none :=
  ⟨_, ⟨_, rfl, rfl⟩, by decide +kernel, by decide +kernel, by decide +kernel⟩

/-- C131. A row with up to 26 modules more or less than an add-on is not read. (A five-digit add-on has 27 more than one of two
digits.) -/
theorem C131_supp (b : Build) (s : List Char) (ms ms' : List Nat) (h : Drawn b .supp s ms) (hm : Slipped 26 ms ms') :
    scanAddOn ms' = none := by
  cases h' : scanAddOn ms' with
  | none => rfl
  | some ds =>
    exfalso
    obtain ⟨t, -, ht⟩ := (C75_supp b ms' ds).mp h'
    have len : ∀ t ms, Drawn b .supp t ms → ms.length = 20 ∨ ms.length = 47 := by
      rintro t ms ⟨x, hx, he⟩
      have := (C32_supp_row b t x ms hx he).length
      by_cases h2 : t.length = 2 <;> simp [h2] at this <;> omega
    have l1 := len s ms h
    have l2 := len t ms' ht
    obtain ⟨s1, s2, s3⟩ := hm
    omega

/-- The bound is exact: see `C87_supp_nine`, where the add-on of five digits becomes one of two. -/
example : ∃ ms, Drawn .debug .supp "20000".toList ms ∧ Slipped 27 ms (ms.take 20) ∧ scanAddOn (ms.take 20) = some [2, 0] ∧
    Slipped 26 ms (ms.take 21) ∧ scanAddOn (ms.take 21) = none :=
  ⟨_, ⟨_, rfl, rfl⟩, by unfold Slipped; decide +kernel, by decide +kernel, by unfold Slipped; decide +kernel, by decide +kernel⟩

/-- C131. Modules have been lost from a Code 39 symbol, or added to it, or both, and the number has changed by at most twelve: it is
not read. -/
theorem C131_code39 (b : Build) (s : List Char) (ms ms' : List Nat) (h : Drawn b .code39 s ms) (hm : Slipped 12 ms ms') :
    scanCode39 ms' = none ∧ scanCode39Checked ms' = none := by
  obtain ⟨t, ht⟩ : ∃ t, scanCode39 ms = some t := by
    obtain ⟨x, hx | hx, he⟩ := h
    · obtain ⟨ms'', h1, h2⟩ := C14_code39_scan s x hx
      rw [he, Outcome.ok.injEq] at h1
      subst h1
      exact ⟨_, h2⟩
    · obtain ⟨ms'', h1, h2⟩ := C14_code39_checksum_scan s x hx
      rw [he, Outcome.ok.injEq] at h1
      subst h1
      exact ⟨_, h2.1⟩
  exact ⟨code39_measured.slipped code39_measured ms ms' t ht hm, code39_measured.slipped code39Checked_measured ms ms' t ht hm⟩

/-- Twelve modules of the first character are lost and nothing is read; if all thirteen are lost, the rest of the text is read. -/
example : ∃ ms, Drawn .debug .code39 "10".toList ms ∧ Slipped 12 ms (ms.take 13 ++ ms.drop 25) ∧
    scanCode39 (ms.take 13 ++ ms.drop 25) = none ∧ scanCode39 (ms.take 13 ++ ms.drop 26) = some "0".toList :=
  ⟨_, ⟨_, Or.inl rfl, rfl⟩, by unfold Slipped; decide +kernel, by decide +kernel, by decide +kernel⟩

/-- C131. The same for Code 93, up to eight modules. -/
theorem C131_code93 (b : Build) (s : List Char) (ms ms' : List Nat) (h : Drawn b .code93 s ms) (hm : Slipped 8 ms ms') :
    scanCode93 ms' = none := by
  obtain ⟨x, hx, he⟩ := h
  obtain ⟨ms'', h1, h2⟩ := C17_code93_scan s x hx
  rw [he, Outcome.ok.injEq] at h1
  subst h1
  exact code93_measured.slipped code93_measured ms ms' _ h2 hm

/-- With nine modules a leading zero is lost. -/
example : ∃ ms, Drawn .debug .code93 "01".toList ms ∧ Slipped 8 ms (ms.take 9 ++ ms.drop 17) ∧
    scanCode93 (ms.take 9 ++ ms.drop 17) = none ∧ scanCode93 (ms.take 9 ++ ms.drop 18) = some "1".toList :=
  ⟨_, ⟨_, rfl, rfl⟩, by unfold Slipped; decide +kernel, by decide +kernel, by decide +kernel⟩

/-- C131. The same for Code 128, up to ten modules. -/
theorem C131_code128 (b : Build) (s : List Char) (ms ms' : List Nat) (h : Drawn b .code128 s ms) (hl : s.length ≤ 6489)
    (hm : Slipped 10 ms ms') : scanCode128 ms' = none := by
  obtain ⟨x, hx, he⟩ := h
  obtain ⟨ms'', h1, h2⟩ := C28_code128_scan_regrouped_partial b s x hx hl
  rw [he, Outcome.ok.injEq] at h1
  subst h1
  exact code128_measured.slipped code128_measured ms ms' _ h2 hm

/-- With eleven modules the blank at the end of a text is lost. -/
example : ∃ ms, Drawn .debug .code128 "ÀA ".toList ms ∧ Slipped 10 ms (ms.take 22 ++ ms.drop 32) ∧
    scanCode128 (ms.take 22 ++ ms.drop 32) = none ∧ scanCode128 (ms.take 22 ++ ms.drop 33) = some "ÀA".toList :=
  ⟨_, ⟨_, rfl, rfl⟩, by unfold Slipped; decide +kernel, by decide +kernel, by decide +kernel⟩

theorem getD_set_back (es : List Nat) (i : Nat) (hi : i < es.length) :
    es = (es.set i (es.getD i 0 + 1)).set i (es.getD i 0) ∧ (es.set i (es.getD i 0 + 1))[i]? ≠ some (es.getD i 0) := by
  constructor
  · rw [List.set_set]
    simp [hi]
  · rw [List.getElem?_set_self hi]
    simp

/-- A scanner that reads rows with `r` elements modulo `k` only: one module missing or too many is one element of the wrong width. -/
theorem missing_misjudged {k r : Nat} (hk : 2 < k) (ms ms' es es' : List Nat) (hm : OneMissing ms ms' ∨ OneMissing ms' ms)
    (h : elements ms = some es) (h' : elements ms' = some es') (hr : es.length % k = r) (hr' : es'.length % k = r) :
    ∃ i w, Misjudged i w ms ms' := by
  have off : ∀ n m : Nat, n % k = m % k → n ≠ m + 1 ∧ n ≠ m + 2 := by
    intro n m hnm
    have d1 := Nat.div_add_mod n k
    have d2 := Nat.div_add_mod m k
    rw [hnm] at d1
    constructor <;> intro e <;> subst e
    · rcases Nat.lt_or_ge (m / k) ((m + 1) / k) with hlt | hge
      · have := Nat.mul_le_mul_left k (show m / k + 1 ≤ (m + 1) / k from hlt)
        rw [Nat.mul_succ] at this
        omega
      · have := Nat.mul_le_mul_left k hge
        omega
    · rcases Nat.lt_or_ge (m / k) ((m + 2) / k) with hlt | hge
      · have := Nat.mul_le_mul_left k (show m / k + 1 ≤ (m + 2) / k from hlt)
        rw [Nat.mul_succ] at this
        omega
      · have := Nat.mul_le_mul_left k hge
        omega
  rcases hm with hm | hm
  · rcases missing_elements ms ms' es es' hm h h' with ⟨i, hi, rfl⟩ | e | rfl
    · obtain ⟨g1, g2⟩ := getD_set_back es' i hi
      exact ⟨i, es'.getD i 0, _, h, by simpa using hi, g2, by rw [← g1]; exact h'⟩
    · exact absurd e (off _ _ (hr.trans hr'.symm)).2
    · exact absurd (by simp) (off _ _ (hr.trans hr'.symm)).1
  · rcases missing_elements ms' ms es' es hm h' h with ⟨i, hi, rfl⟩ | e | rfl
    · refine ⟨i, es.getD i 0 + 1, es, h, hi, ?_, h'⟩
      rw [List.getD_eq_getElem?_getD, List.getElem?_eq_getElem hi]
      simp
    · exact absurd e (off _ _ (hr'.trans hr.symm)).2
    · exact absurd (by simp) (off _ _ (hr'.trans hr.symm)).1

/-- C131. A Code 11 symbol with one module missing, or with one too many, is not read. -/
theorem C131_code11 (b : Build) (s : List Char) (ms ms' : List Nat) (h : Drawn b .code11 s ms)
    (hm : OneMissing ms ms' ∨ OneMissing ms' ms) : scanCode11 ms' = none := by
  obtain ⟨x, hx, he⟩ := h
  obtain ⟨ms'', h1, h2⟩ := C20_code11_scan s x hx
  rw [he, Outcome.ok.injEq] at h1
  subst h1
  cases h' : scanCode11 ms' with
  | none => rfl
  | some t =>
    obtain ⟨es, e1, e2⟩ := code11_counted ms _ h2
    obtain ⟨es', e1', e2'⟩ := code11_counted ms' _ h'
    obtain ⟨i, w, hj⟩ := missing_misjudged (by omega) ms ms' es es' hm e1 e1' e2 e2'
    rw [← h']
    exact C84_code11 s x hx ms he i w ms' hj

/-- C131. With two modules missing, one in the text and one in the check character, 1 becomes 0. -/
theorem C131_code11_two : ∃ ms, Drawn .debug .code11 "1".toList ms ∧ OneMissing ms (ms.eraseIdx 9) ∧ scanCode11 (ms.eraseIdx 9) = none ∧
    OneMissing (ms.eraseIdx 9) ((ms.eraseIdx 9).eraseIdx 16) ∧ scanCode11 ((ms.eraseIdx 9).eraseIdx 16) = some "0".toList :=
  ⟨_, ⟨_, rfl, rfl⟩, ⟨[1, 0, 1, 1, 0, 0, 1, 0, 1], 1, _, rfl, rfl⟩, by decide +kernel,
    ⟨[1, 0, 1, 1, 0, 0, 1, 0, 1, 0, 1, 0, 1, 1, 0, 1], 1, _, rfl, rfl⟩, by decide +kernel⟩

/-- C131. A Codabar symbol of a text with start and stop characters, with one module missing or one too many, is not read as any text
with start and stop characters, by the standard's table or the library's. -/
theorem C131_codabar (b : Build) (s : List Char) (ms ms' : List Nat) (h : Drawn b .codabar s ms) (hA : CodabarFramed s)
    (hm : OneMissing ms ms' ∨ OneMissing ms' ms) (t : List Char) (ht : CodabarFramed t) :
    scanCodabar ms' ≠ some t ∧ scanOwnCodabar ms' ≠ some t := by
  obtain ⟨x, hx, he⟩ := h
  have he : Codabar.encode x = ms := by simpa using he
  have h2 := C54_codabar_own_scan s x hx
  rw [he] at h2
  obtain ⟨es, e1, e2⟩ := ownCodabar_counted ms _ h2
  constructor <;> intro h'
  · obtain ⟨es', e1', e2'⟩ := codabar_counted ms' _ h'
    obtain ⟨i, w, hj⟩ := missing_misjudged (by omega) ms ms' es es' hm e1 e1' e2 e2'
    rw [← he] at hj
    exact (C84_codabar s x hx hA i w ms' hj t ht).2 h'
  · obtain ⟨es', e1', e2'⟩ := ownCodabar_counted ms' _ h'
    obtain ⟨i, w, hj⟩ := missing_misjudged (by omega) ms ms' es es' hm e1 e1' e2 e2'
    rw [← he] at hj
    exact (C84_codabar s x hx hA i w ms' hj t ht).1 h'

/-- The start character with one module missing can be a 4; the text that is then read has no start character. -/
example : ∃ ms, Drawn .debug .codabar "A1B".toList ms ∧ OneMissing ms (ms.eraseIdx 1) ∧ OneMissing ms (ms.eraseIdx 4) ∧
    scanOwnCodabar (ms.eraseIdx 1) = none ∧ scanOwnCodabar (ms.eraseIdx 4) = some "41B".toList :=
  ⟨_, ⟨_, rfl, rfl⟩, ⟨[1], 0, _, rfl, rfl⟩, ⟨[1, 0, 1, 1], 0, _, rfl, rfl⟩, by decide +kernel, by decide +kernel⟩

/-- C131. An Interleaved 2 of 5 symbol with one module missing or one too many is not read, or the same number is read. -/
theorem C131_itf (b : Build) (s : List Char) (ms ms' : List Nat) (h : Drawn b .itf s ms)
    (hm : OneMissing ms ms' ∨ OneMissing ms' ms) : scanItf ms' = none ∨ scanItf ms' = scanItf ms := by
  obtain ⟨x, hx, he⟩ := h
  obtain ⟨ms'', ds, h1, h2, -⟩ := C25_itf_scan b s x hx
  rw [he, Outcome.ok.injEq] at h1
  subst h1
  cases h' : scanItf ms' with
  | none => exact Or.inl rfl
  | some ds' =>
    obtain ⟨es, e1, e2⟩ := itf_counted ms _ h2
    obtain ⟨es', e1', e2'⟩ := itf_counted ms' _ h'
    obtain ⟨i, w, hj⟩ := missing_misjudged (by omega) ms ms' es es' hm e1 e1' e2 e2'
    rw [← h']
    exact C84_itf b s x hx ms he i w ms' hj

/-- A wide bar that has lost one of its modules is still wide; a narrow space that is lost leaves nothing readable. -/
example : ∃ ms, Drawn .debug .itf "1234".toList ms ∧ OneMissing ms (ms.eraseIdx 4) ∧ OneMissing ms (ms.eraseIdx 7) ∧
    scanItf (ms.eraseIdx 4) = some [1, 2, 3, 4] ∧ scanItf (ms.eraseIdx 7) = none :=
  ⟨_, ⟨_, rfl, rfl⟩, ⟨[1, 0, 1, 0], 1, _, rfl, rfl⟩, ⟨[1, 0, 1, 0, 1, 1, 1], 0, _, rfl, rfl⟩, by decide +kernel, by decide +kernel⟩

/-- A space at the end makes no difference to the Standard 2 of 5 scanner. -/
theorem stf_last_space (ms ms' es : List Nat) (h : elements ms = some es) (h' : elements ms' = some (es ++ [1])) (ds ds' : List Nat)
    (hs : scanStf ms = some ds) (hs' : scanStf ms' = some ds') : ds = ds' := by
  obtain ⟨fs, f1, f2⟩ := stf_counted ms ds hs
  obtain ⟨fs', f1', f2'⟩ := stf_counted ms' ds' hs'
  rw [h, Option.some.injEq] at f1
  rw [h', Option.some.injEq] at f1'
  subst f1 f1'
  rw [List.length_append, List.length_singleton] at f2'
  unfold scanStf at hs hs'
  rw [h] at hs
  rw [h'] at hs'
  simp only [Option.bind_eq_bind, Option.bind_some, List.length_append, List.length_singleton] at hs hs'
  rw [if_neg (by omega)] at hs
  rw [if_pos (by omega), List.dropLast_concat, hs, Option.some.injEq] at hs'
  exact hs'

/-- C131. The same for Standard 2 of 5. -/
theorem C131_stf (b : Build) (s : List Char) (ms ms' : List Nat) (h : Drawn b .stf s ms)
    (hm : OneMissing ms ms' ∨ OneMissing ms' ms) : scanStf ms' = none ∨ scanStf ms' = some (digitsOf s) := by
  obtain ⟨x, hx, he⟩ := h
  obtain ⟨ms'', h1, h2⟩ := C24_stf_scan s x hx
  rw [he, Outcome.ok.injEq] at h1
  subst h1
  cases h' : scanStf ms' with
  | none => exact Or.inl rfl
  | some ds' =>
    right
    obtain ⟨es, e1, e2⟩ := stf_counted ms _ h2
    obtain ⟨es', e1', e2'⟩ := stf_counted ms' _ h'
    have judged : ∀ i w, Misjudged i w ms ms' → some ds' = some (digitsOf s) := by
      intro i w hj
      rcases C84_stf s x hx ms he i w ms' hj with h3 | h3
      · rw [h'] at h3; cases h3
      · rw [← h', h3]
    rcases hm with hm | hm
    · rcases missing_elements ms ms' es es' hm e1 e1' with ⟨i, hi, rfl⟩ | e | rfl
      · obtain ⟨g1, g2⟩ := getD_set_back es' i hi
        exact judged i (es'.getD i 0) ⟨_, e1, by simpa using hi, g2, by rw [← g1]; exact e1'⟩
      · omega
      · rw [stf_last_space ms' ms es' e1' e1 ds' _ h' h2]
    · rcases missing_elements ms' ms es' es hm e1' e1 with ⟨i, hi, rfl⟩ | e | rfl
      · refine judged i (es.getD i 0 + 1) ⟨es, e1, hi, ?_, e1'⟩
        rw [List.getD_eq_getElem?_getD, List.getElem?_eq_getElem hi]
        simp
      · omega
      · rw [stf_last_space ms ms' es e1 e1' _ ds' h2 h']

/-- The last space can be missing; the space before it cannot. -/
example : ∃ ms, Drawn .debug .stf "12".toList ms ∧ OneMissing ms ms.dropLast ∧ OneMissing ms (ms.eraseIdx 2) ∧
    scanStf ms.dropLast = some [1, 2] ∧ scanStf (ms.eraseIdx 2) = none := by
  refine ⟨_, ⟨_, rfl, rfl⟩, ?_, ⟨[1, 1], 0, _, rfl, rfl⟩, by decide +kernel, by decide +kernel⟩
  exact ⟨_, 0, [], (List.dropLast_concat_getLast (List.cons_ne_nil _ _)).symm, by rw [List.append_nil]; rfl⟩

end Barcoders
