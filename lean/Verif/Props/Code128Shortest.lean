import Verif.Spec.Code128Shortest
import Verif.Props.Code128Ascii
import Verif.Props.Cut
import Verif.Lemmas.ScanInj

/-!
# C105: the shortest Code 128 symbol for a text
-/

set_option autoImplicit false

namespace Barcoders
open Spec

theorem shorter_ind {P : List Nat → Prop} (p q : List Nat) (hp : P p) (hq : P q) : P (shorter p q) := by
  unfold shorter
  split
  · exact hp
  · exact hq

theorem shorter_length (p q : List Nat) : (shorter p q).length = min p.length q.length := by
  unfold shorter
  split <;> omega

theorem orSwitch_le (a b : List Nat) (c : Option (List Nat)) :
    (orSwitch a b c).a.length ≤ a.length ∧ (orSwitch a b c).b.length ≤ b.length ∧
      (∀ p, c = some p → (orSwitch a b c).c.length ≤ p.length) ∧
      ∀ s s', ((orSwitch a b c).of s).length ≤ 1 + ((orSwitch a b c).of s').length := by
  cases c with
  | none =>
    simp only [orSwitch, shorter_length, List.length_cons]
    refine ⟨by omega, by omega, by simp, fun s s' => ?_⟩
    cases s <;> cases s' <;> simp only [Plans.of, shorter_length, List.length_cons] <;> omega
  | some c =>
    simp only [orSwitch, shorter_length, List.length_cons]
    refine ⟨by omega, by omega, ?_, fun s s' => ?_⟩
    · intro p hp
      cases hp
      omega
    · cases s <;> cases s' <;> simp only [Plans.of, shorter_length, List.length_cons] <;> omega

theorem plans_cons (c : Char) (t : List Char) : ∃ o, plans (c :: t) =
    orSwitch (symbolsInA c ++ (plans t).a) (symbolsInB c ++ (plans t).b) o ∧
      (∀ d t', t = d :: t' → c.isDigit = true → d.isDigit = true →
        o = some (((c.toNat - 48) * 10 + (d.toNat - 48)) :: (plans t').c)) ∧
      (c = '\u001d' → o = some (102 :: (plans t).c)) := by
  cases t with
  | nil =>
    refine ⟨_, by simp only [plans, List.append_nil]; rfl, by simp, fun h => ?_⟩
    rw [if_pos h]
    rfl
  | cons d t =>
    refine ⟨_, by rw [plans], ?_, fun h => by rw [if_pos h]⟩
    intro d' t' h hc hd
    cases h
    rw [if_neg (by rintro rfl; cases hc), if_pos (by simp [hc, hd])]

theorem plans_switch (t : List Char) (s s' : CodeSet) : ((plans t).of s).length ≤ 1 + ((plans t).of s').length := by
  cases t with
  | nil => cases s <;> simp [plans, Plans.of]
  | cons c t =>
    obtain ⟨o, h, -, -⟩ := plans_cons c t
    rw [h]
    exact (orSwitch_le _ _ o).2.2.2 s s'

theorem plans_a (c : Char) (t : List Char) : (plans (c :: t)).a.length ≤ (symbolsInA c).length + (plans t).a.length := by
  obtain ⟨o, h, -⟩ := plans_cons c t
  have := (orSwitch_le (symbolsInA c ++ (plans t).a) (symbolsInB c ++ (plans t).b) o).1
  rw [h]
  simpa using this

theorem plans_b (c : Char) (t : List Char) : (plans (c :: t)).b.length ≤ (symbolsInB c).length + (plans t).b.length := by
  obtain ⟨o, h, -⟩ := plans_cons c t
  have := (orSwitch_le (symbolsInA c ++ (plans t).a) (symbolsInB c ++ (plans t).b) o).2.1
  rw [h]
  simpa using this

theorem plans_c (c d : Char) (t : List Char) (hc : c.isDigit = true) (hd : d.isDigit = true) :
    (plans (c :: d :: t)).c.length ≤ 1 + (plans t).c.length := by
  obtain ⟨o, h, ho, -⟩ := plans_cons c (d :: t)
  have := (orSwitch_le (symbolsInA c ++ (plans (d :: t)).a) (symbolsInB c ++ (plans (d :: t)).b) o).2.2.1 _ (ho d t rfl hc hd)
  rw [h]
  rw [List.length_cons] at this
  omega

theorem plans_gs (t : List Char) (set : CodeSet) :
    ((plans ('\u001d' :: t)).of set).length ≤ 1 + ((plans t).of set).length := by
  cases set with
  | A => have := plans_a '\u001d' t; have e : (symbolsInA '\u001d').length = 1 := rfl; simp only [Plans.of]; omega
  | B => have := plans_b '\u001d' t; have e : (symbolsInB '\u001d').length = 1 := rfl; simp only [Plans.of]; omega
  | C =>
    obtain ⟨o, h, -, ho⟩ := plans_cons '\u001d' t
    have := (orSwitch_le (symbolsInA '\u001d' ++ (plans t).a) (symbolsInB '\u001d' ++ (plans t).b) o).2.2.1 _ (ho rfl)
    rw [h]
    rw [List.length_cons] at this
    simp only [Plans.of]
    omega

/-- In set A, a GS is a symbol of its own. -/
theorem plans_gs_a (t : List Char) : (plans ('\u001d' :: t)).a = 93 :: (plans t).a := by
  obtain ⟨o, h, -, ho⟩ := plans_cons '\u001d' t
  have h1 := plans_switch t .A .B
  have h2 := plans_switch t .A .C
  simp only [Plans.of] at h1 h2
  rw [h, ho rfl]
  show shorter (93 :: (plans t).a) (shorter (100 :: 102 :: (plans t).b) (99 :: 102 :: (plans t).c)) = _
  rw [shorter, if_pos (by rw [shorter_length]; simp only [List.length_cons]; omega)]

/-- What one symbol transmits and does, and what the plans have for it. -/
def stepFits (st : ReaderState) (v : Nat) : Bool :=
  match transmitSymbol st v with
  | none => true
  | some (o, st') =>
    if st.shift then
      match o with
      | [c] => st'.set = st.set ∧ st'.shift = false ∧ (symbolsInA c).length ≤ 2 ∧ (symbolsInB c).length ≤ 2
      | _ => false
    else
      match o with
      | [] => st'.shift = false ∨ (st'.set = st.set ∧ st.set ≠ .C)
      | [c] => (c = '\u001d' ∧ st'.shift = false ∧ st'.set = st.set ∧ (st.first = true → st.set = .A)) ∨ (st'.shift = false ∧ st'.set = st.set ∧ (st.set = .A ∧ (symbolsInA c).length = 1 ∨ st.set = .B ∧ (symbolsInB c).length = 1))
      | [c, d] => st'.shift = false ∧ st'.set = .C ∧ st.set = .C ∧ c.isDigit = true ∧ d.isDigit = true
      | _ => false

theorem step_fits : ∀ set shift first, (shift = true → set ≠ .C) → ∀ v < 103, stepFits ⟨set, shift, first⟩ v = true := by
  intro set shift first h
  cases set <;> cases shift <;> cases first <;> first | exact absurd rfl (h rfl) | decide +kernel

/-- C105, the bound: symbols that transmit a text are at least as many as those planned. -/
theorem plans_least (vs : List Nat) (set : CodeSet) (shift first : Bool) (t : List Char) (hs : shift = true → set ≠ .C)
    (hv : ∀ v ∈ vs, v < 103) (h : transmitAll transmitSymbol ⟨set, shift, first⟩ vs = some t) :
    ((plans t).of set).length ≤ vs.length + (if shift then 1 else 0) := by
  induction vs generalizing set shift first t with
  | nil =>
    unfold transmitAll at h
    split at h
    · cases h
    · cases h
      cases set <;> simp [plans, Plans.of]
  | cons v vs ih =>
    rw [transmitAll_append] at h
    have hf := step_fits set shift first hs v (hv v (by simp))
    unfold stepFits at hf
    cases e : transmitSymbol ⟨set, shift, first⟩ v with
    | none => rw [e] at h; cases h
    | some p =>
      obtain ⟨o, set', shift', first'⟩ := p
      rw [e, Option.bind_some, Option.map_eq_some_iff] at h
      obtain ⟨r, h1, rfl⟩ := h
      rw [e] at hf
      have hv' := fun x hx => hv x (List.mem_cons_of_mem v hx)
      simp only [] at hf h1
      rw [List.length_cons]
      cases shift with
      | true =>
        simp only [if_true] at hf ⊢
        split at hf
        · next c =>
          simp only [decide_eq_true_eq] at hf
          obtain ⟨rfl, rfl, ha, hb⟩ := hf
          have := ih set' false first' r (by simp) hv' h1
          have h2 := plans_a c r
          have h3 := plans_b c r
          simp only [Bool.false_eq_true, if_false] at this
          cases set' with
          | A => simp only [Plans.of, List.singleton_append] at this ⊢; omega
          | B => simp only [Plans.of, List.singleton_append] at this ⊢; omega
          | C => exact absurd rfl (hs rfl)
        · cases hf
      | false =>
        simp only [Bool.false_eq_true, if_false] at hf ⊢
        split at hf
        · simp only [decide_eq_true_eq] at hf
          rw [List.nil_append]
          rcases hf with rfl | ⟨rfl, hc⟩
          · have := ih set' false first' r (by simp) hv' h1
            have h2 := plans_switch r set set'
            simp only [Bool.false_eq_true, if_false] at this
            omega
          · have := ih set' shift' first' r (fun _ => hc) hv' h1
            split at this <;> omega
        · next c =>
          simp only [decide_eq_true_eq] at hf
          rcases hf with ⟨rfl, rfl, rfl, -⟩ | ⟨rfl, rfl, hf⟩
          · have := ih set' false first' r (by simp) hv' h1
            have h2 := plans_gs r set'
            simp only [Bool.false_eq_true, if_false] at this
            simp only [List.singleton_append]
            omega
          · have := ih set' false first' r (by simp) hv' h1
            have h2 := plans_a c r
            have h3 := plans_b c r
            simp only [Bool.false_eq_true, if_false] at this
            rcases hf with ⟨rfl, hf⟩ | ⟨rfl, hf⟩
            · simp only [Plans.of, List.singleton_append] at this ⊢; omega
            · simp only [Plans.of, List.singleton_append] at this ⊢; omega
        · next c d =>
          simp only [decide_eq_true_eq] at hf
          obtain ⟨rfl, rfl, rfl, hc, hd⟩ := hf
          have := ih .C false first' r (by simp) hv' h1
          have h2 := plans_c c d r hc hd
          simp only [Bool.false_eq_true, if_false] at this
          simp only [Plans.of, List.cons_append, List.nil_append] at this ⊢; omega
        · cases hf

/-- At the very beginning, a GS is not FNC1: starting in set A is best. -/
theorem plans_least_first (vs : List Nat) (set : CodeSet) (r : List Char) (hv : ∀ v ∈ vs, v < 103)
    (h : transmitAll transmitSymbol ⟨set, false, true⟩ vs = some ('\u001d' :: r)) :
    (plans ('\u001d' :: r)).a.length ≤ vs.length := by
  cases vs with
  | nil => simp [transmitAll] at h
  | cons v vs =>
    have hf := step_fits set false true (by simp) v (hv v (by simp))
    rw [transmitAll_append] at h
    unfold stepFits at hf
    cases e : transmitSymbol ⟨set, false, true⟩ v with
    | none => rw [e] at h; cases h
    | some p =>
      obtain ⟨o, set', shift', first'⟩ := p
      rw [e, Option.bind_some, Option.map_eq_some_iff] at h
      obtain ⟨t', h1, h2⟩ := h
      rw [e] at hf
      have hv' := fun x hx => hv x (List.mem_cons_of_mem v hx)
      simp only [Bool.false_eq_true, if_false] at hf h1 h2
      rw [List.length_cons]
      split at hf
      · simp only [decide_eq_true_eq] at hf
        rw [List.nil_append] at h2
        subst h2
        cases shift' with
        | false =>
          have := plans_least vs set' false first' _ (by simp) hv' h1
          have h3 : (plans ('\u001d' :: r)).a.length ≤ 1 + ((plans ('\u001d' :: r)).of set').length := plans_switch _ .A set'
          simp only [Bool.false_eq_true, if_false] at this
          omega
        | true =>
          rcases hf with hf | ⟨rfl, hc⟩
          · cases hf
          cases vs with
          | nil => simp [transmitAll] at h1
          | cons w vs =>
            have hf := step_fits set' true first' (fun _ => hc) w (hv w (by simp))
            rw [transmitAll_append] at h1
            unfold stepFits at hf
            cases e : transmitSymbol ⟨set', true, first'⟩ w with
            | none => rw [e] at h1; cases h1
            | some p =>
              obtain ⟨o, set'', shift'', first''⟩ := p
              rw [e, Option.bind_some, Option.map_eq_some_iff] at h1
              obtain ⟨t', h1, h2⟩ := h1
              rw [e] at hf
              simp only [if_true] at hf h1 h2
              split at hf
              · next c =>
                simp only [decide_eq_true_eq] at hf
                obtain ⟨rfl, rfl, -, -⟩ := hf
                rw [List.singleton_append, List.cons.injEq] at h2
                obtain ⟨rfl, rfl⟩ := h2
                have := plans_least vs set'' false first'' _ (by simp) (fun x hx => hv x (by simp [hx])) h1
                have h3 : (plans t').a.length ≤ 1 + ((plans t').of set'').length := plans_switch _ .A set''
                simp only [Bool.false_eq_true, if_false] at this
                rw [plans_gs_a, List.length_cons, List.length_cons]
                omega
              · cases hf
      · next c =>
        simp only [decide_eq_true_eq] at hf
        rw [List.singleton_append, List.cons.injEq] at h2
        obtain ⟨rfl, rfl⟩ := h2
        have hA : set = .A ∧ set' = .A ∧ shift' = false := by
          rcases hf with ⟨-, hs, rfl, hA⟩ | ⟨hs, rfl, hf⟩
          · exact ⟨hA trivial, hA trivial, hs⟩
          · rcases hf with ⟨rfl, -⟩ | ⟨rfl, -⟩
            · exact ⟨rfl, rfl, hs⟩
            · exfalso
              have hno : ∀ v < 103, transmitSymbol ⟨.B, false, true⟩ v ≠ some (['\u001d'], ⟨.B, shift', first'⟩) := by
                cases shift' <;> cases first' <;> decide
              exact hno v (hv v (by simp)) e
        obtain ⟨rfl, rfl, rfl⟩ := hA
        have := plans_least vs .A false first' _ (by simp) hv' h1
        simp only [Bool.false_eq_true, if_false, Plans.of] at this
        rw [plans_gs_a, List.length_cons]
        omega
      · next c d =>
        simp only [decide_eq_true_eq] at hf
        obtain ⟨-, -, -, hc, -⟩ := hf
        rw [List.cons_append, List.cons.injEq] at h2
        rw [h2.1] at hc
        cases hc
      · cases hf

/-! ## The plans transmit the text -/

/-- Symbols that transmit a text, later on and, if `f` is true, also at the beginning. -/
def Sends (f : Bool) (set : CodeSet) (vs : List Nat) (t : List Char) : Prop :=
  (∀ first, (first = true → f = true) → transmitAll transmitSymbol ⟨set, false, first⟩ vs = some t) ∧ ∀ v ∈ vs, v < 103

theorem sends_step (f : Bool) (set set' : CodeSet) (v : Nat) (o : List Char) (vs : List Nat) (t : List Char) (hv : v < 103)
    (hf : ∀ first, (first = true → f = true) → transmitSymbol ⟨set, false, first⟩ v = some (o, ⟨set', false, false⟩))
    (h : Sends false set' vs t) : Sends f set (v :: vs) (o ++ t) := by
  refine ⟨fun first h1 => ?_, ?_⟩
  · rw [transmitAll_append, hf first h1, Option.bind_some, h.1 false (by simp)]; rfl
  · intro w hw
    rcases List.mem_cons.mp hw with rfl | hw
    · exact hv
    · exact h.2 w hw

theorem sends_shift (f : Bool) (set : CodeSet) (hset : set ≠ .C) (v : Nat) (c : Char) (vs : List Nat) (t : List Char) (hv : v < 103)
    (hf : transmitSymbol ⟨set, true, false⟩ v = some ([c], ⟨set, false, false⟩)) (h : Sends false set vs t) :
    Sends f set (98 :: v :: vs) (c :: t) := by
  refine ⟨fun first _ => ?_, ?_⟩
  · have h98 : transmitSymbol ⟨set, false, first⟩ 98 = some ([], ⟨set, true, false⟩) := by
      cases set with
      | A => rfl
      | B => rfl
      | C => exact absurd rfl hset
    rw [transmitAll_append, h98, Option.bind_some, transmitAll_append, hf, Option.bind_some, h.1 false (by simp)]; rfl
  · intro w hw
    rcases List.mem_cons.mp hw with rfl | hw
    · decide
    · rcases List.mem_cons.mp hw with rfl | hw
      · exact hv
      · exact h.2 w hw

theorem sends_inA (f : Bool) (c : Char) (hc : c.toNat < 128) (vs : List Nat) (t : List Char) (h : Sends false .A vs t) :
    Sends f .A (symbolsInA c ++ vs) (c :: t) := by
  have k1 : ∀ n < 96, ∀ first, transmitSymbol ⟨.A, false, first⟩ (if n < 32 then n + 64 else n - 32) =
    some ([Char.ofNat n], ⟨.A, false, false⟩) := by decide
  have k2 : ∀ n < 128, 96 ≤ n → transmitSymbol ⟨.A, true, false⟩ (n - 32) = some ([Char.ofNat n], ⟨.A, false, false⟩) := by decide
  unfold symbolsInA
  by_cases h1 : c.toNat < 32
  · rw [if_pos h1]
    refine sends_step f .A .A _ [c] vs t (by omega) (fun first _ => ?_) h
    have := k1 c.toNat (by omega) first
    rwa [if_pos h1, Char.ofNat_toNat] at this
  · rw [if_neg h1]
    by_cases h2 : c.toNat < 96
    · rw [if_pos h2]
      refine sends_step f .A .A _ [c] vs t (by omega) (fun first _ => ?_) h
      have := k1 c.toNat (by omega) first
      rwa [if_neg h1, Char.ofNat_toNat] at this
    · rw [if_neg h2]
      refine sends_shift f .A (by decide) _ c vs t (by omega) ?_ h
      have := k2 c.toNat hc (by omega)
      rwa [Char.ofNat_toNat] at this

/-- Except at the beginning, FNC1 transmits GS. -/
theorem sends_gs (set : CodeSet) (vs : List Nat) (t : List Char) (h : Sends false set vs t) :
    Sends false set (102 :: vs) ('\u001d' :: t) := by
  refine sends_step false set set 102 ['\u001d'] vs t (by decide) (fun first hf => ?_) h
  cases first with
  | false => rfl
  | true => exact absurd (hf rfl) (by decide)

theorem sends_inB (f : Bool) (c : Char) (hg : f = true → c ≠ '\u001d') (hc : c.toNat < 128) (vs : List Nat) (t : List Char)
    (h : Sends false .B vs t) : Sends f .B (symbolsInB c ++ vs) (c :: t) := by
  have k1 : ∀ n < 128, 32 ≤ n → ∀ first, transmitSymbol ⟨.B, false, first⟩ (n - 32) =
    some ([Char.ofNat n], ⟨.B, false, false⟩) := by decide
  have k2 : ∀ n < 32, transmitSymbol ⟨.B, true, false⟩ (n + 64) = some ([Char.ofNat n], ⟨.B, false, false⟩) := by decide
  unfold symbolsInB
  by_cases h0 : c = '\u001d'
  · rw [if_pos h0]
    subst h0
    cases f with
    | true => exact absurd rfl (hg rfl)
    | false => exact sends_gs .B vs t h
  rw [if_neg h0]
  by_cases h1 : c.toNat < 32
  · rw [if_pos h1]
    refine sends_shift f .B (by decide) _ c vs t (by omega) ?_ h
    have := k2 c.toNat h1
    rwa [Char.ofNat_toNat] at this
  · rw [if_neg h1]
    refine sends_step f .B .B _ [c] vs t (by omega) (fun first _ => ?_) h
    have := k1 c.toNat hc (by omega) first
    rwa [Char.ofNat_toNat] at this

theorem sends_inC (f : Bool) (c d : Char) (hc : c.isDigit = true) (hd : d.isDigit = true) (vs : List Nat) (t : List Char)
    (h : Sends false .C vs t) : Sends f .C (((c.toNat - 48) * 10 + (d.toNat - 48)) :: vs) (c :: d :: t) := by
  have k : ∀ a < 10, ∀ b < 10, ∀ first, transmitSymbol ⟨.C, false, first⟩ (a * 10 + b) =
    some ([Char.ofNat (48 + a), Char.ofNat (48 + b)], ⟨.C, false, false⟩) := by decide
  have dig : ∀ e : Char, e.isDigit = true → 48 ≤ e.toNat ∧ e.toNat < 58 := by
    intro e he
    simp only [Char.isDigit, Bool.and_eq_true, decide_eq_true_eq] at he
    have h1 : e.val.toNat ≤ 57 := he.2
    have h2 : 48 ≤ e.val.toNat := he.1
    exact ⟨h2, by have : e.toNat = e.val.toNat := rfl; omega⟩
  have h1 := dig c hc
  have h2 := dig d hd
  refine sends_step f .C .C _ [c, d] vs t (by omega) (fun first _ => ?_) h
  rw [k (c.toNat - 48) (by omega) (d.toNat - 48) (by omega) first, show 48 + (c.toNat - 48) = c.toNat by omega,
    show 48 + (d.toNat - 48) = d.toNat by omega, Char.ofNat_toNat, Char.ofNat_toNat]

/-- The symbol that selects a set. -/
def switchTo : CodeSet → Nat
  | .A => 101
  | .B => 100
  | .C => 99

theorem Sends.later {f : Bool} {set : CodeSet} {vs : List Nat} {t : List Char} (h : Sends f set vs t) : Sends false set vs t :=
  ⟨fun first hf => h.1 first (fun e => absurd (hf e) (by decide)), h.2⟩

theorem sends_switch (f : Bool) (set set' : CodeSet) (hne : set ≠ set') (v : Nat)
    (hv : v = switchTo set') (vs : List Nat) (t : List Char) (h : Sends false set' vs t) :
    Sends f set (v :: vs) t := by
  refine sends_step f set set' v [] vs t ?_ ?_ h
  · subst hv; cases set' <;> decide
  · subst hv
    intro first _
    revert hne
    cases set <;> cases set' <;> intro hne <;> first | rfl | exact absurd rfl hne

theorem orSwitch_sends (f : Bool) (a b : List Nat) (c : Option (List Nat)) (t : List Char) (ha : Sends f .A a t)
    (hb : Sends f .B b t) (hc : ∀ p, c = some p → Sends f .C p t) (set : CodeSet) : Sends f set ((orSwitch a b c).of set) t := by
  have ha' := ha.later
  have hb' := hb.later
  cases c with
  | none =>
    cases set with
    | A =>
      exact shorter_ind (P := fun p => Sends f .A p t) _ _ ha (sends_switch f .A .B (by decide) 100 rfl b t hb')
    | B =>
      exact shorter_ind (P := fun p => Sends f .B p t) _ _ hb (sends_switch f .B .A (by decide) 101 rfl a t ha')
    | C =>
      exact shorter_ind (P := fun p => Sends f .C p t) _ _ (sends_switch f .C .A (by decide) 101 rfl a t ha')
        (sends_switch f .C .B (by decide) 100 rfl b t hb')
  | some c =>
    have hc := hc c rfl
    have hc' := hc.later
    cases set with
    | A =>
      exact shorter_ind (P := fun p => Sends f .A p t) _ _ ha (shorter_ind (P := fun p => Sends f .A p t) _ _
        (sends_switch f .A .B (by decide) 100 rfl b t hb') (sends_switch f .A .C (by decide) 99 rfl c t hc'))
    | B =>
      exact shorter_ind (P := fun p => Sends f .B p t) _ _ hb (shorter_ind (P := fun p => Sends f .B p t) _ _
        (sends_switch f .B .A (by decide) 101 rfl a t ha') (sends_switch f .B .C (by decide) 99 rfl c t hc'))
    | C =>
      exact shorter_ind (P := fun p => Sends f .C p t) _ _ hc (shorter_ind (P := fun p => Sends f .C p t) _ _
        (sends_switch f .C .A (by decide) 101 rfl a t ha') (sends_switch f .C .B (by decide) 100 rfl b t hb'))

theorem plans_send (f : Bool) (t : List Char) (hg : f = true → t.head? ≠ some '\u001d') (ht : ∀ c ∈ t, c.toNat < 128)
    (set : CodeSet) : Sends f set ((plans t).of set) t := by
  induction t using plans.induct generalizing set f with
  | case1 =>
    have : (plans []).of set = [] := by cases set <;> rfl
    rw [this]
    exact ⟨fun _ _ => rfl, by simp⟩
  | case2 c =>
    rw [plans]
    have hc := ht c (by simp)
    have hg' : f = true → c ≠ '\u001d' := fun h e => hg h (by rw [e]; rfl)
    refine orSwitch_sends f _ _ _ [c] ?_ ?_ ?_ set
    · have := sends_inA f c hc [] [] ⟨fun _ _ => rfl, by simp⟩
      rwa [List.append_nil] at this
    · have := sends_inB f c hg' hc [] [] ⟨fun _ _ => rfl, by simp⟩
      rwa [List.append_nil] at this
    · intro p hp
      split at hp
      · next h =>
        cases hp
        subst h
        cases f with
        | true => exact absurd rfl (hg' rfl)
        | false => exact sends_gs .C [] [] ⟨fun _ _ => rfl, by simp⟩
      · cases hp
  | case3 c d t ih1 ih2 =>
    rw [plans]
    have hc := ht c (by simp)
    have hg' : f = true → c ≠ '\u001d' := fun h e => hg h (by rw [e]; rfl)
    have ih1 := ih1 false (by simp) (fun x hx => ht x (List.mem_cons_of_mem c hx))
    have ih2 := ih2 false (by simp) (fun x hx => ht x (by simp [hx]))
    refine orSwitch_sends f _ _ _ (c :: d :: t) (sends_inA f c hc _ _ (ih1 .A)) (sends_inB f c hg' hc _ _ (ih1 .B)) ?_ set
    intro p hp
    split at hp
    · next h =>
      cases hp
      subst h
      cases f with
      | true => exact absurd rfl (hg' rfl)
      | false => exact sends_gs .C _ _ (ih1 .C)
    · split at hp
      · next h =>
        simp only [Bool.and_eq_true] at h
        cases hp
        exact sends_inC f c d h.1 h.2 _ _ (ih2 .C)
      · cases hp

/-- The sequence for the best start transmits the text. -/
theorem start_sends (t : List Char) (ht : ∀ c ∈ t, c.toNat < 128) : Sends true (bestStart t) ((plans t).of (bestStart t)) t := by
  unfold bestStart
  by_cases h : t.head? = some '\u001d'
  · rw [if_pos h]
    cases t with
    | nil => cases h
    | cons c r =>
      rw [List.head?_cons, Option.some.injEq] at h
      subst h
      simp only [Plans.of]
      rw [plans_gs_a]
      exact sends_inA true '\u001d' (by decide) _ r (plans_send false r (by simp) (fun c hc => ht c (by simp [hc])) .A)
  · rw [if_neg h]
    exact plans_send true t (fun _ => h) ht _

/-! ## The symbols -/

theorem decode_total (vs : List Nat) (set : CodeSet) (hv : ∀ v ∈ vs, v < 103) : ∃ r, code128Decode set vs = some r := by
  induction vs generalizing set with
  | nil => exact ⟨[], rfl⟩
  | cons v vs ih =>
    have key : ∀ set : CodeSet, ∀ v < 103, (code128Text set v).isSome = true := by intro set; cases set <;> decide
    obtain ⟨r, hr⟩ := ih (code128Next set v) (fun x hx => hv x (List.mem_cons_of_mem v hx))
    obtain ⟨u, hu⟩ := Option.isSome_iff_exists.mp (key set v (hv v (by simp)))
    exact ⟨u ++ r, by simp [code128Decode, hu, hr]⟩

theorem decode_length (vs : List Nat) (set : CodeSet) (shift first : Bool) (r t : List Char) (hv : ∀ v ∈ vs, v < 103)
    (hs : shift = true → set ≠ .C) (h : code128Decode set vs = some r)
    (ht : transmitAll transmitSymbol ⟨set, shift, first⟩ vs = some t) : r.length ≤ vs.length + t.length := by
  induction vs generalizing set shift first r t with
  | nil => simp only [code128Decode, Option.some.injEq] at h; subst h; simp
  | cons v vs ih =>
    simp only [code128Decode, Option.bind_eq_bind, Option.bind_eq_some_iff, Option.some.injEq] at h
    obtain ⟨u, hu, a, ha, rfl⟩ := h
    rw [transmitAll_append, Option.bind_eq_some_iff] at ht
    obtain ⟨⟨o, set', shift', first'⟩, h1, h2⟩ := ht
    rw [Option.map_eq_some_iff] at h2
    obtain ⟨t', h3, rfl⟩ := h2
    obtain ⟨n1, n2, n3⟩ := transmit_next set shift first v (hv v (by simp)) hs _ h1 (by rw [hu]; simp)
    simp only [] at n1 n2 n3 h3
    have hset : set' = code128Next set v := by
      cases shift with
      | false => exact n1 rfl
      | true => rw [(n2 rfl).1, (n2 rfl).2]
    rw [← hset] at ha
    have := ih set' shift' first' a t' (fun x hx => hv x (List.mem_cons_of_mem v hx)) n3 ha h3
    have hul : u.length ≤ 1 + o.length := by
      rcases transmit_text set shift first v (hv v (by simp)) hs with h0 | ⟨c, g1, -⟩ | ⟨c, d, g1, -, g3, -⟩
      · rw [h0] at hu; cases hu
      · rw [hu, Option.some.injEq] at g1; rw [g1]; simp
      · rw [hu, Option.some.injEq] at g1
        rw [h1, Option.some.injEq, Prod.mk.injEq] at g3
        rw [g1, g3.1]; simp
    simp only [List.length_append, List.length_cons]
    omega

theorem bestSet_least (t : List Char) (set : CodeSet) : ((plans t).of (bestSet t)).length ≤ ((plans t).of set).length := by
  unfold bestSet
  split
  · next h => cases set <;> simp only [Plans.of] <;> omega
  · split
    · next h1 h2 => cases set <;> simp only [Plans.of] <;> omega
    · next h1 h2 => cases set <;> simp only [Plans.of] <;> omega

theorem plans_le (t : List Char) : (plans t).a.length ≤ 2 * t.length ∧ (plans t).b.length ≤ 2 * t.length := by
  induction t with
  | nil => simp [plans]
  | cons c t ih =>
    have h1 := plans_a c t
    have h2 := plans_b c t
    have : (symbolsInA c).length ≤ 2 := by unfold symbolsInA; split <;> (try split) <;> simp
    have : (symbolsInB c).length ≤ 2 := by unfold symbolsInB; split <;> (try split) <;> simp
    rw [List.length_cons]; omega

theorem shortestCount_le (t : List Char) : shortestCount t ≤ 2 * t.length := by
  unfold shortestCount bestStart
  split
  · exact (plans_le t).1
  · exact Nat.le_trans (bestSet_least t .B) (plans_le t).2

/-- C105, the bound for whole symbols. -/
theorem shortestCount_least (t : List Char) (set : CodeSet) (data : List Nat) (hv : ∀ v ∈ data, v < 103)
    (h : transmit set data = some t) : shortestCount t ≤ data.length := by
  unfold shortestCount bestStart
  by_cases hg : t.head? = some '\u001d'
  · rw [if_pos hg]
    cases t with
    | nil => cases hg
    | cons c r =>
      rw [List.head?_cons, Option.some.injEq] at hg
      subst hg
      exact plans_least_first data set r hv h
  · rw [if_neg hg]
    have := plans_least data set false true t (by simp) hv h
    simp only [Bool.false_eq_true, if_false] at this
    exact Nat.le_trans (bestSet_least t set) this

/-- The picture of a symbol and what is transmitted from it. -/
theorem received_symbols (b : Build) (s : List Char) (ms : List Nat) (t : List Char) (h : Drawn b .code128 s ms)
    (ht : receiveCode128 ms = some t) :
    ∃ set data, transmit set data = some t ∧ (∀ v ∈ data, v < 103) ∧ ms.length = 11 * data.length + 35 ∧
      ∃ c, readCode128 ms = some (set.start :: (data ++ [c])) := by
  obtain ⟨x, hx, he⟩ := h
  obtain ⟨set, data, c, hd, rfl⟩ := code128_symbol_data b s x ms hx he
  have hv : ∀ v ∈ CodeSet.start set :: data ++ [c], v < 106 := by
    intro v hv
    rw [List.cons_append, List.mem_cons] at hv
    rcases hv with rfl | hv
    · exact start_lt set
    · exact Nat.lt_trans (hd v hv) (by omega)
  refine ⟨set, data, ?_, fun v hv => hd v (by simp [hv]), ?_, c, readCode128_paint _ hv⟩
  · unfold receiveCode128 at ht
    rw [readCode128_paint _ hv] at ht
    simp only [Option.bind_eq_bind, Option.bind_some] at ht
    rw [Option.bind_eq_some_iff] at ht
    obtain ⟨p, h1, h2⟩ := ht
    unfold verifyCode128 at h1
    rw [List.cons_append] at h1
    simp only [List.getLast?_concat, List.dropLast_concat] at h1
    split at h1
    · cases h1
      simpa [code128Start_start] using h2
    · cases h1
  · rw [(code128_row _ hv).length]
    simp; omega

/-- A sequence of symbols is drawn as such. -/
theorem draw_symbols (b : Build) (set : CodeSet) (vs : List Nat) (t : List Char) (h1 : transmit set vs = some t)
    (h2 : ∀ v ∈ vs, v < 103) (hl : vs.length + t.length ≤ 6488) :
    ∃ r ms, code128Decode set vs = some r ∧ Drawn b .code128 (set.char :: r) ms ∧ scanCode128 ms = some (set.char :: r) ∧
      receiveCode128 ms = some t ∧ ms.length = 11 * vs.length + 35 := by
  obtain ⟨r, hr⟩ := decode_total vs set h2
  have hrl := decode_length vs set false true r t h2 (by simp) hr h1
  obtain ⟨x, ms, e1, e2, e3⟩ := C28_code128_scan_partial b (set.char :: r) ⟨set, r, rfl, code128Decode_strict set vs r hr⟩
    (by rw [List.length_cons]; omega)
  obtain ⟨es, set', data, r', a1, a2, a3, a4⟩ := scanCode128_inv ms _ e3
  rw [List.cons.injEq] at a4
  obtain rfl := codeSet_char_inj _ _ a4.1
  obtain rfl := a4.2
  obtain rfl := Spec.code128Decode_inj set vs data r hr a3
  have hread : readCode128 ms = some (set.start :: (vs ++ [code128Sum set.start vs % 103])) := by
    unfold readCode128
    rw [a1]
    simp only [Option.bind_eq_bind, Option.bind_some, expectEnd_append]
    exact a2
  have hrecv : receiveCode128 ms = some t := by
    unfold receiveCode128
    rw [hread]
    simp only [Option.bind_eq_bind, Option.bind_some, verifyCode128, List.getLast?_concat, List.dropLast_concat, if_true,
      code128Start_start]
    exact h1
  refine ⟨r, ms, hr, ⟨x, e1, e2⟩, e3, hrecv, ?_⟩
  obtain ⟨set', data', c, hd, rfl⟩ := code128_symbol_data b _ x ms e1 e2
  have hv : ∀ v ∈ CodeSet.start set' :: data' ++ [c], v < 106 := by
    intro v hv
    rw [List.cons_append, List.mem_cons] at hv
    rcases hv with rfl | hv
    · exact start_lt set'
    · exact Nat.lt_trans (hd v hv) (by omega)
  rw [readCode128_paint _ hv, Option.some.injEq] at hread
  have hlen := congrArg List.length hread
  simp only [List.length_append, List.length_cons, List.length_nil] at hlen
  rw [(code128_row _ hv).length]
  simp only [List.length_append, List.length_cons, List.length_nil]
  omega

/-- C105. Every symbol the library draws from which a scanner gets the text `t` has at least as many modules as the symbol of
`shortestCode128 t`; and that symbol is drawn, and a scanner gets `t` from it. -/
theorem C105_shortest (b : Build) (t : List Char) (ha : ∀ c ∈ t, c.toNat < 128) (hl : t.length ≤ 2162) :
    (∃ ms, Drawn b .code128 (shortestCode128 t) ms ∧ receiveCode128 ms = some t ∧ ms.length = 11 * shortestCount t + 35) ∧
    ∀ b' s' ms', Drawn b' .code128 s' ms' → receiveCode128 ms' = some t → 11 * shortestCount t + 35 ≤ ms'.length := by
  constructor
  · obtain ⟨h1, h2⟩ := start_sends t ha
    have hcount := shortestCount_le t
    unfold shortestCode128 shortestCount at *
    obtain ⟨r, ms, e1, e2, -, e3, e4⟩ := draw_symbols b (bestStart t) _ t (h1 true (fun _ => rfl)) h2 (by omega)
    rw [e1, Option.getD_some]
    exact ⟨ms, e2, e3, e4⟩
  · intro b' s' ms' hd hr
    obtain ⟨set, data, h1, h2, h3, -⟩ := received_symbols b' s' ms' t hd hr
    have := shortestCount_least t set data h2 h1
    omega

/-- C105. The same for GS1-128: among the symbols with FNC1 in front from which a scanner gets the message `t`, none has fewer
modules than that of `shortestGs1 t`. -/
theorem C105_gs1 (b : Build) (t : List Char) (ha : ∀ c ∈ t, c.toNat < 128) (hl : t.length ≤ 2162) :
    (∃ ms, Drawn b .code128 (shortestGs1 t) ms ∧ receiveGs1 ms = some t ∧ ms.length = 11 * shortestGs1Count t + 35) ∧
    ∀ b' s' ms', Drawn b' .code128 s' ms' → receiveGs1 ms' = some t → 11 * shortestGs1Count t + 35 ≤ ms'.length := by
  have hfnc : ∀ set : CodeSet, ∀ first, transmitSymbol ⟨set, false, first⟩ 102 = some (if first then [] else ['\u001d'], ⟨set, false, false⟩) := by
    intro set first; rfl
  constructor
  · obtain ⟨h1, h2⟩ := plans_send false t (by simp) ha (bestSet t)
    have hcount := Nat.le_trans (bestSet_least t .B) (plans_le t).2
    unfold shortestGs1 shortestGs1Count
    have htr : transmit (bestSet t) (102 :: (plans t).of (bestSet t)) = some t := by
      rw [transmit, transmitAll_append, hfnc, Option.bind_some, h1 false (by simp)]; rfl
    obtain ⟨r, ms, e1, e2, e5, e3, e4⟩ := draw_symbols b (bestSet t) _ t htr
      (by intro v hv; rcases List.mem_cons.mp hv with rfl | hv
          · decide
          · exact h2 v hv) (by rw [List.length_cons]; omega)
    rw [e1, Option.getD_some]
    refine ⟨ms, e2, ?_, by rw [e4, List.length_cons]; omega⟩
    have hr : ∃ r', r = fnc1 :: r' := by
      have ht : code128Text (bestSet t) 102 = some [fnc1] := by cases bestSet t <;> decide
      simp only [code128Decode, ht, Option.bind_eq_bind, Option.bind_some, Option.bind_eq_some_iff, Option.some.injEq] at e1
      obtain ⟨a, -, rfl⟩ := e1
      exact ⟨a, rfl⟩
    obtain ⟨r', rfl⟩ := hr
    unfold receiveGs1
    rw [e5]
    simp only [if_true]
    exact e3
  · intro b' s' ms' hd hr
    unfold receiveGs1 at hr
    split at hr
    · next a c l hscan =>
      split at hr
      · next hc =>
        subst hc
        obtain ⟨es, set, data, r, a1, a2, a3, a4⟩ := scanCode128_inv ms' _ hscan
        obtain ⟨set', data', h1, h2, h3, k, h4⟩ := received_symbols b' s' ms' t hd hr
        rw [List.cons.injEq] at a4
        have hread : readCode128 ms' = some (set.start :: (data ++ [code128Sum set.start data % 103])) := by
          unfold readCode128
          rw [a1]
          simp only [Option.bind_eq_bind, Option.bind_some, expectEnd_append]
          exact a2
        rw [hread, Option.some.injEq, List.cons.injEq, List.append_singleton_inj] at h4
        obtain ⟨hstart, rfl, -⟩ := h4
        unfold shortestGs1Count
        have hset : set = set' := by
          have h5 := congrArg code128Start hstart
          rwa [code128Start_start, code128Start_start, Option.some.injEq] at h5
        subst hset
        cases data with
        | nil =>
          cases a3
          cases a4.2
        | cons v vs =>
          have hv : v = 102 := by
            have hk : ∀ v < 103, (code128Text set v).any (fun w => w.head? == some fnc1) = true → v = 102 := by
              cases set <;> decide
            refine hk v (h2 v (by simp)) ?_
            have hne : ∀ v < 103, code128Text set v ≠ some [] := by cases set <;> decide
            simp only [code128Decode, Option.bind_eq_bind, Option.bind_eq_some_iff] at a3
            obtain ⟨w, hw, q, hq, hr⟩ := a3
            rw [hw]
            rw [← a4.2] at hr
            cases w with
            | nil => exact absurd hw (hne v (h2 v (by simp)))
            | cons x w =>
              have : x = fnc1 := by
                simp only [Option.some.injEq, List.cons_append, List.cons.injEq] at hr
                exact hr.1
              subst this
              rfl
          subst hv
          rw [transmit, transmitAll_append, hfnc, Option.bind_some, Option.map_eq_some_iff] at h1
          obtain ⟨t', h5, h6⟩ := h1
          rw [if_pos rfl, List.nil_append] at h6
          subst h6
          have := plans_least vs set false false t' (by simp) (fun x hx => h2 x (by simp [hx])) h5
          have h7 := bestSet_least t' set
          simp only [Bool.false_eq_true, if_false] at this
          rw [List.length_cons] at h3
          omega
      · cases hr
    · cases hr

example : shortestCode128 "AB123456".toList = "ƁABĆ123456".toList ∧
    (∃ ms, Drawn .debug .code128 "ƁABĆ123456".toList ms ∧ receiveCode128 ms = some "AB123456".toList ∧ ms.length = 101) ∧
    ∃ ms, Drawn .debug .code128 "ƁAB123456".toList ms ∧ receiveCode128 ms = some "AB123456".toList ∧ ms.length = 123 :=
  ⟨by decide +kernel, ⟨_, ⟨_, rfl, rfl⟩, by decide +kernel, by decide +kernel⟩, _, ⟨_, rfl, rfl⟩, by decide +kernel,
    by decide +kernel⟩

/-- Two GS1 elements, a batch number and a quantity: FNC1 stands for the GS between them. -/
example : shortestGs1 "10A12\u001d3012".toList = ['Ɓ', fnc1, '1', '0', 'A', 'Ć', '1', '2', fnc1, '3', '0', '1', '2'] ∧
    (∃ ms, Drawn .debug .code128 (shortestGs1 "10A12\u001d3012".toList) ms ∧ receiveGs1 ms = some "10A12\u001d3012".toList ∧
      ms.length = 134) ∧
    ∃ ms, Drawn .debug .code128 "ƁHELLO".toList ms ∧ receiveGs1 ms = none :=
  ⟨by decide +kernel, ⟨_, ⟨_, rfl, rfl⟩, by decide +kernel, by decide +kernel⟩, _, ⟨_, rfl, rfl⟩, by decide +kernel⟩

theorem orSwitch_ge (a b : List Nat) (c : Option (List Nat)) (n : Nat) (ha : n ≤ a.length) (hb : n ≤ b.length)
    (hc : ∀ x, c = some x → n ≤ x.length) (set : CodeSet) : n ≤ ((orSwitch a b c).of set).length := by
  cases c with
  | none => cases set <;> simp only [orSwitch, Plans.of, shorter_length, List.length_cons] <;> omega
  | some x =>
    have := hc x rfl
    cases set <;> simp only [orSwitch, Plans.of, shorter_length, List.length_cons] <;> omega

theorem symbolsInA_pos (c : Char) : 1 ≤ (symbolsInA c).length := by
  unfold symbolsInA; split
  · simp
  · split <;> simp

theorem symbolsInB_pos (c : Char) : 1 ≤ (symbolsInB c).length := by
  unfold symbolsInB; split
  · simp
  · split <;> simp

theorem plans_half (t : List Char) (set : CodeSet) : t.length ≤ 2 * ((plans t).of set).length := by
  induction t using plans.induct generalizing set with
  | case1 => simp
  | case2 c =>
    have := orSwitch_ge (symbolsInA c) (symbolsInB c) (if c = '\u001d' then some [102] else none) 1 (symbolsInA_pos c)
      (symbolsInB_pos c) (by intro x hx; split at hx <;> cases hx; simp) set
    simp only [plans, List.length_cons, List.length_nil]; omega
  | case3 c d t ih1 ih2 =>
    have ha := symbolsInA_pos c
    have hb := symbolsInB_pos c
    have h1 := ih1 .A
    have h2 := ih1 .B
    have h3 := ih2 .C
    have h4 := ih1 .C
    simp only [Plans.of, List.length_cons] at h1 h2 h3 h4
    have := orSwitch_ge (symbolsInA c ++ (plans (d :: t)).a) (symbolsInB c ++ (plans (d :: t)).b)
      (if c = '\u001d' then some (102 :: (plans (d :: t)).c)
      else if c.isDigit && d.isDigit then some (((c.toNat - 48) * 10 + (d.toNat - 48)) :: (plans t).c) else none)
      (1 + (t.length + 1) / 2) (by rw [List.length_append]; omega) (by rw [List.length_append]; omega)
      (by
        intro x hx
        split at hx
        · cases hx
          rw [List.length_cons]; omega
        · split at hx
          · cases hx
            rw [List.length_cons]; omega
          · cases hx) set
    simp only [plans, List.length_cons]; omega

theorem plans_no_digits (t : List Char) (h : ∀ c ∈ t, c.isDigit = false) (set : CodeSet) :
    t.length ≤ ((plans t).of set).length := by
  induction t using plans.induct generalizing set with
  | case1 => simp
  | case2 c =>
    have := orSwitch_ge (symbolsInA c) (symbolsInB c) (if c = '\u001d' then some [102] else none) 1 (symbolsInA_pos c)
      (symbolsInB_pos c) (by intro x hx; split at hx <;> cases hx; simp) set
    simpa only [plans, List.length_cons, List.length_nil] using this
  | case3 c d t ih1 ih2 =>
    have ha := symbolsInA_pos c
    have hb := symbolsInB_pos c
    have hd : ∀ x ∈ d :: t, x.isDigit = false := fun x hx => h x (List.mem_cons_of_mem c hx)
    have h1 := ih1 hd .A
    have h2 := ih1 hd .B
    have h4 := ih1 hd .C
    simp only [Plans.of, List.length_cons] at h1 h2 h4
    have := orSwitch_ge (symbolsInA c ++ (plans (d :: t)).a) (symbolsInB c ++ (plans (d :: t)).b)
      (if c = '\u001d' then some (102 :: (plans (d :: t)).c)
      else if c.isDigit && d.isDigit then some (((c.toNat - 48) * 10 + (d.toNat - 48)) :: (plans t).c) else none)
      (t.length + 2) (by rw [List.length_append]; omega) (by rw [List.length_append]; omega)
      (by
        intro x hx
        rw [h c (by simp)] at hx
        split at hx
        · cases hx
          rw [List.length_cons]; omega
        · cases hx) set
    simpa only [plans, List.length_cons] using this

/-- C105, the rules of thumb: no symbol carries more than two characters, and without digits none carries more than one. -/
theorem C105_bounds (b : Build) (s t : List Char) (ms : List Nat) (h : Drawn b .code128 s ms) (ht : receiveCode128 ms = some t) :
    11 * t.length + 70 ≤ 2 * ms.length ∧ ((∀ c ∈ t, c.isDigit = false) → 11 * t.length + 35 ≤ ms.length) := by
  obtain ⟨set, data, h1, h2, h3, -⟩ := received_symbols b s ms t h ht
  have := plans_least data set false true t (by simp) h2 h1
  simp only [Bool.false_eq_true, if_false] at this
  refine ⟨?_, fun hn => ?_⟩
  · have := plans_half t set
    omega
  · have := plans_no_digits t hn set
    omega

/-- Both bounds are met: `12345678` in 79 modules, `ABCD` in 79 modules. -/
example : (∃ ms, Drawn .debug .code128 "Ć12345678".toList ms ∧ receiveCode128 ms = some "12345678".toList ∧ ms.length = 79) ∧
    ∃ ms, Drawn .debug .code128 "ƁABCD".toList ms ∧ receiveCode128 ms = some "ABCD".toList ∧ ms.length = 79 :=
  ⟨⟨_, ⟨_, rfl, rfl⟩, by decide +kernel, by decide +kernel⟩, _, ⟨_, rfl, rfl⟩, by decide +kernel, by decide +kernel⟩

end Barcoders
