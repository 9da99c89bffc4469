import Verif.Lemmas.ScanInj
import Verif.Props.Turned
import Verif.Spec.Speck

/-!
# Rows that differ in one module

Changing one module of a row splits an element, joins elements, or moves one edge. Groups of elements in which the edge
between two groups cannot move differ in one group only.
-/

set_option autoImplicit false

namespace Spec

theorem paintFrom_inj (c : Nat) (hc : c < 2) (ws vs : List Nat) (hw : ∀ w ∈ ws, 0 < w) (hv : ∀ w ∈ vs, 0 < w)
    (h : paintFrom c ws = paintFrom c vs) : ws = vs := by
  have h1 := congrArg runs h
  rw [runs_paintFrom c hc ws hw, runs_paintFrom c hc vs hv] at h1
  have := congrArg (List.map Prod.snd) h1
  rwa [colours_snd, colours_snd] at this

/-- Of two neighbouring widths, one is greater by one and the other smaller by one; everything else agrees. -/
def Nudged (ws vs : List Nat) : Prop :=
  ∃ p a b a' b' q, ws = p ++ a :: b :: q ∧ vs = p ++ a' :: b' :: q ∧ a + b = a' + b' ∧ (a' = a + 1 ∨ a = a' + 1)

theorem Nudged.symm {ws vs : List Nat} (h : Nudged ws vs) : Nudged vs ws := by
  obtain ⟨p, a, b, a', b', q, h1, h2, h3, h4⟩ := h
  exact ⟨p, a', b', a, b, q, h2, h1, h3.symm, h4.symm⟩

theorem Nudged.cons {ws vs : List Nat} (w : Nat) (h : Nudged ws vs) : Nudged (w :: ws) (w :: vs) := by
  obtain ⟨p, a, b, a', b', q, rfl, rfl, h3, h4⟩ := h
  exact ⟨w :: p, a, b, a', b', q, rfl, rfl, h3, h4⟩

theorem Nudged.append {ws vs : List Nat} (t : List Nat) (h : Nudged ws vs) : Nudged (ws ++ t) (vs ++ t) := by
  obtain ⟨p, a, b, a', b', q, rfl, rfl, h3, h4⟩ := h
  exact ⟨p, a, b, a', b', q ++ t, by simp, by simp, h3, h4⟩

/-- The last element of the second is the last two of the first joined, of which the very last has width one. -/
def Joined (ws vs : List Nat) : Prop := ∃ p a, ws = p ++ [a, 1] ∧ vs = p ++ [a + 1]

/-- A different number of elements: two more, two less, or a narrow element at the end more or less. -/
def Recount (ws vs : List Nat) : Prop :=
  ws.length = vs.length + 2 ∨ vs.length = ws.length + 2 ∨ Joined ws vs ∨ Joined vs ws

theorem Recount.symm {ws vs : List Nat} (h : Recount ws vs) : Recount vs ws := by
  rcases h with h | h | h | h
  · exact Or.inr (Or.inl h)
  · exact Or.inl h
  · exact Or.inr (Or.inr (Or.inr h))
  · exact Or.inr (Or.inr (Or.inl h))

theorem Joined.cons {ws vs : List Nat} (w : Nat) (h : Joined ws vs) : Joined (w :: ws) (w :: vs) := by
  obtain ⟨p, a, rfl, rfl⟩ := h
  exact ⟨w :: p, a, rfl, rfl⟩

theorem Recount.cons {ws vs : List Nat} (w : Nat) (h : Recount ws vs) : Recount (w :: ws) (w :: vs) := by
  rcases h with h | h | h | h
  · exact Or.inl (by simp only [List.length_cons]; omega)
  · exact Or.inr (Or.inl (by simp only [List.length_cons]; omega))
  · exact Or.inr (Or.inr (Or.inl (h.cons w)))
  · exact Or.inr (Or.inr (Or.inr (h.cons w)))

/-- Differing in length, by at most two. -/
def NearLength (ws vs : List Nat) : Prop :=
  ws.length ≠ vs.length ∧ ws.length ≤ vs.length + 2 ∧ vs.length ≤ ws.length + 2

theorem Recount.near {ws vs : List Nat} (h : Recount ws vs) : NearLength ws vs := by
  unfold NearLength
  rcases h with h | h | ⟨p, a, rfl, rfl⟩ | ⟨p, a, rfl, rfl⟩
  · omega
  · omega
  · simp only [List.length_append, List.length_cons, List.length_nil]; omega
  · simp only [List.length_append, List.length_cons, List.length_nil]; omega

/-- The case of a first element that is shorter in the first row. -/
theorem one_off_lt (c : Nat) (hc : c < 2) (a d : Nat) (ws vs : List Nat) (hw : ∀ w ∈ ws, 0 < w)
    (hv : ∀ w ∈ vs, 0 < w) (hd : 0 < d) (p q : List Nat) (x y : Nat) (hxy : x ≠ y)
    (h1 : paintFrom c (a :: ws) = p ++ x :: q) (h2 : paintFrom c ((a + d) :: vs) = p ++ y :: q) :
    Nudged (a :: ws) ((a + d) :: vs) ∨ Recount (a :: ws) ((a + d) :: vs) := by
  obtain ⟨d, rfl⟩ := Nat.exists_eq_succ_of_ne_zero (by omega : d ≠ 0)
  have hlen : (paintFrom c (a :: ws)).length = (paintFrom c ((a + (d + 1)) :: vs)).length := by rw [h1, h2]; simp
  rw [paintFrom] at h1 h2
  rw [paintFrom, paintFrom] at hlen
  cases ws with
  | nil => simp [paintFrom, paintFrom_length] at hlen; omega
  | cons w ws =>
    have hw0 : 0 < w := hw w (by simp)
    obtain ⟨w, rfl⟩ := Nat.exists_eq_succ_of_ne_zero (by omega : w ≠ 0)
    rw [paintFrom, List.replicate_succ, List.cons_append] at h1
    rw [← List.replicate_append_replicate, List.replicate_succ, List.append_assoc, List.cons_append] at h2
    have hne : (1 - c : Nat) ≠ c := by omega
    -- the two rows agree on `a` modules, differ in the next, and must agree from there on
    have key : p = List.replicate a c := by
      rcases Nat.lt_trichotomy p.length a with hl | hl | hl
      · have e1 := congrArg (fun l => l[p.length]?) h1
        have e2 := congrArg (fun l => l[p.length]?) h2
        simp only [List.getElem?_append_right (Nat.le_refl _), Nat.sub_self, List.getElem?_cons_zero] at e1 e2
        rw [List.getElem?_append_left (by simpa using hl)] at e1 e2
        rw [e1] at e2
        exact absurd (Option.some.inj e2) hxy
      · exact (List.append_inj_left h1 (by simp [hl])).symm
      · have e1 := congrArg (fun l => l[a]?) h1
        have e2 := congrArg (fun l => l[a]?) h2
        rw [List.getElem?_append_left hl, List.getElem?_append_right (by simp)] at e1 e2
        simp only [List.length_replicate, Nat.sub_self, List.getElem?_cons_zero] at e1 e2
        rw [← e1] at e2
        exact absurd (Option.some.inj e2).symm hne
    subst key
    have e1 := List.append_cancel_left h1
    have e2 := List.append_cancel_left h2
    rw [List.cons.injEq] at e1 e2
    have e3 : List.replicate w (1 - c) ++ paintFrom (1 - (1 - c)) ws = List.replicate d c ++ paintFrom (1 - c) vs := by
      rw [e1.2, e2.2]
    have hcc : 1 - (1 - c) = c := by omega
    rw [hcc] at e3
    have hws : ∀ w ∈ ws, 0 < w := fun z hz => hw z (by simp [hz])
    cases w with
    | succ w =>
      cases d with
      | succ d =>
        rw [List.replicate_succ, List.replicate_succ, List.cons_append, List.cons_append, List.cons.injEq] at e3
        exact absurd e3.1 hne
      | zero =>
        have e4 : paintFrom (1 - c) ((w + 1) :: ws) = paintFrom (1 - c) vs := by
          rw [paintFrom, hcc]; simpa using e3
        have := paintFrom_inj (1 - c) (by omega) _ _ (by
          intro z hz
          rcases List.mem_cons.mp hz with rfl | hz
          · omega
          · exact hws z hz) hv e4
        subst this
        exact Or.inl ⟨[], a, w + 1 + 1, a + 1, w + 1, ws, rfl, rfl, by omega, by omega⟩
    | zero =>
      cases d with
      | succ d =>
        have e4 : paintFrom c ws = paintFrom c ((d + 1) :: vs) := by rw [paintFrom]; simpa using e3
        have := paintFrom_inj c hc _ _ hws (by
          intro z hz
          rcases List.mem_cons.mp hz with rfl | hz
          · omega
          · exact hv z hz) e4
        subst this
        exact Or.inr (Or.inl rfl)
      | zero =>
        have e4 : paintFrom c ws = paintFrom (1 - c) vs := by simpa using e3
        have h5 : ws = [] ∧ vs = [] := by
          cases ws with
          | nil =>
            cases vs with
            | nil => exact ⟨rfl, rfl⟩
            | cons v vs =>
              have := congrArg List.length e4
              have hv0 := hv v (by simp)
              simp [paintFrom] at this
              omega
          | cons w ws =>
            have hw1 := hws w (by simp)
            cases vs with
            | nil =>
              have := congrArg List.length e4
              simp [paintFrom] at this
              omega
            | cons v vs =>
              have hv1 := hv v (by simp)
              have := congrArg List.head? e4
              rw [paintFrom, paintFrom, List.head?_append, List.head?_append, List.head?_replicate, List.head?_replicate,
                if_neg (by omega), if_neg (by omega)] at this
              exact absurd (Option.some.inj (by simpa using this)) hne.symm
        obtain ⟨rfl, rfl⟩ := h5
        exact Or.inr (Or.inr (Or.inr (Or.inl ⟨[], a, rfl, rfl⟩)))

theorem one_off_from (c : Nat) (hc : c < 2) (ws vs : List Nat) (hw : ∀ w ∈ ws, 0 < w) (hv : ∀ w ∈ vs, 0 < w)
    (p q : List Nat) (x y : Nat) (hxy : x ≠ y) (h1 : paintFrom c ws = p ++ x :: q) (h2 : paintFrom c vs = p ++ y :: q) :
    Nudged ws vs ∨ Recount ws vs := by
  induction ws generalizing c vs p with
  | nil => rw [paintFrom] at h1; simp at h1
  | cons a ws ih =>
    cases vs with
    | nil => rw [paintFrom] at h2; simp at h2
    | cons b vs =>
      have ha := hw a (by simp)
      have hb := hv b (by simp)
      have hws : ∀ w ∈ ws, 0 < w := fun z hz => hw z (by simp [hz])
      have hvs : ∀ w ∈ vs, 0 < w := fun z hz => hv z (by simp [hz])
      rcases Nat.lt_trichotomy a b with hab | rfl | hab
      · obtain ⟨d, rfl⟩ := Nat.exists_eq_add_of_le (Nat.le_of_lt hab)
        exact one_off_lt c hc a d ws vs hws hvs (by omega) p q x y hxy h1 h2
      · rw [paintFrom] at h1 h2
        -- the difference comes later
        have hp : a ≤ p.length := by
          rcases Nat.lt_or_ge p.length a with hl | hl
          · have e1 := congrArg (fun l => l[p.length]?) h1
            have e2 := congrArg (fun l => l[p.length]?) h2
            simp only [List.getElem?_append_right (Nat.le_refl _), Nat.sub_self, List.getElem?_cons_zero] at e1 e2
            rw [List.getElem?_append_left (by simpa using hl)] at e1 e2
            rw [e1] at e2
            exact absurd (Option.some.inj e2) hxy
          · exact hl
        have hsplit : p = List.replicate a c ++ p.drop a := by
          have e1 := congrArg (List.take a) h1
          rw [List.take_left' (by simp), List.take_append_of_le_length hp] at e1
          rw [e1, List.take_append_drop]
        rw [hsplit, List.append_assoc] at h1 h2
        rcases ih (1 - c) (by omega) vs hws hvs (p.drop a) (List.append_cancel_left h1) (List.append_cancel_left h2)
          with h | h
        · exact Or.inl (h.cons a)
        · exact Or.inr (h.cons a)
      · obtain ⟨d, rfl⟩ := Nat.exists_eq_add_of_le (Nat.le_of_lt hab)
        rcases one_off_lt c hc b d vs ws hvs hws (by omega) p q y x (Ne.symm hxy) h2 h1 with h | h
        · exact Or.inl h.symm
        · exact Or.inr h.symm

/-- Changing one module moves an edge or changes the number of elements. -/
theorem one_off (ms : List Nat) (i : Nat) (hi : i < ms.length) (es es' : List Nat) (h : elements ms = some es)
    (h' : elements (speck i ms) = some es') : Nudged es es' ∨ Recount es es' := by
  obtain ⟨hp, -⟩ := Barcoders.elements_pos ms es h
  obtain ⟨hp', -⟩ := Barcoders.elements_pos _ es' h'
  have e1 := elements_inv _ _ h
  have e2 := elements_inv _ _ h'
  have hx : ms.getD i 0 ≠ 1 - ms.getD i 0 := by omega
  refine one_off_from 1 (by omega) es es' hp hp' (ms.take i) (ms.drop (i + 1)) _ _ hx ?_ ?_
  · show paint es = _
    rw [← e1, List.getD_eq_getElem?_getD, List.getElem?_eq_getElem hi, Option.getD_some, ← List.drop_eq_getElem_cons hi,
      List.take_append_drop]
  · show paint es' = _
    rw [← e2, speck, List.set_eq_take_append_cons_drop, if_pos hi]

/-! ## Groups -/

/-- Groups of the same sizes, with the same sum or the same last element. -/
def Alike : List (List Nat) → List (List Nat) → Prop
  | [], [] => True
  | b :: bs, c :: cs => b.length = c.length ∧ (b.sum = c.sum ∨ b.getLast? = c.getLast?) ∧ Alike bs cs
  | _, _ => False

theorem Alike.append {bs cs bs' cs' : List (List Nat)} (h : Alike bs cs) (h' : Alike bs' cs') :
    Alike (bs ++ bs') (cs ++ cs') := by
  induction bs generalizing cs with
  | nil =>
    cases cs with
    | nil => exact h'
    | cons c cs => exact h.elim
  | cons b bs ih =>
    cases cs with
    | nil => exact h.elim
    | cons c cs => exact ⟨h.1, h.2.1, ih h.2.2⟩

theorem alike_of (k : Nat) (P : List Nat → List Nat → Prop)
    (hP : ∀ b c, P b c → b.sum = c.sum ∨ b.getLast? = c.getLast?) (bs cs : List (List Nat)) (hl : bs.length = cs.length)
    (hb : ∀ b ∈ bs, b.length = k) (hc : ∀ c ∈ cs, c.length = k) (h : ∀ b ∈ bs, ∀ c ∈ cs, P b c) : Alike bs cs := by
  induction bs generalizing cs with
  | nil =>
    cases cs with
    | nil => trivial
    | cons c cs => simp at hl
  | cons b bs ih =>
    cases cs with
    | nil => simp at hl
    | cons c cs =>
      exact ⟨by rw [hb b (by simp), hc c (by simp)], hP b c (h b (by simp) c (by simp)),
        ih cs (by simpa using hl) (fun x hx => hb x (by simp [hx])) (fun x hx => hc x (by simp [hx]))
          (fun x hx y hy => h x (by simp [hx]) y (by simp [hy]))⟩

theorem alike_flatten (bs cs : List (List Nat)) (h : Alike bs cs) (hf : bs.flatten = cs.flatten) : bs = cs := by
  induction bs generalizing cs with
  | nil =>
    cases cs with
    | nil => rfl
    | cons c cs => exact h.elim
  | cons b bs ih =>
    cases cs with
    | nil => exact h.elim
    | cons c cs =>
      rw [List.flatten_cons, List.flatten_cons] at hf
      obtain ⟨h1, h2⟩ := List.append_inj hf h.1
      rw [h1, ih cs h.2.2 h2]

/-- An edge that moves in a row of groups moves inside one group. -/
theorem one_group (bs cs : List (List Nat)) (h : Alike bs cs) (hn : Nudged bs.flatten cs.flatten) :
    ∃ P b c Q, bs = P ++ b :: Q ∧ cs = P ++ c :: Q ∧ Nudged b c := by
  induction bs generalizing cs with
  | nil => obtain ⟨p, a, b, a', b', q, h1, -⟩ := hn; simp at h1
  | cons b bs ih =>
    cases cs with
    | nil => exact h.elim
    | cons c cs =>
      obtain ⟨hl, hs, ht⟩ := h
      obtain ⟨p, a, a2, a', a2', q, h1, h2, h3, h4⟩ := hn
      rw [List.flatten_cons] at h1 h2
      rcases Nat.lt_or_ge p.length b.length with hp | hp
      · -- the edge is in this group, or at its end
        rcases List.append_eq_append_iff.mp h1 with ⟨r, e1, -⟩ | ⟨r, e1, e2⟩
        · rw [e1, List.length_append] at hp; omega
        rcases List.append_eq_append_iff.mp h2 with ⟨r', e1', -⟩ | ⟨r', e1', e2'⟩
        · rw [hl, e1', List.length_append] at hp; omega
        have hr : r.length = r'.length := by
          rw [e1, e1', List.length_append, List.length_append] at hl; omega
        match r, r', hr with
        | [], _, _ => rw [e1] at hp; simp at hp
        | [x], [y], _ =>
          simp only [List.cons_append, List.cons.injEq, List.nil_append] at e2 e2'
          exfalso
          rw [e1, e1', ← e2.1, ← e2'.1] at hs
          rcases hs with hs | hs
          · simp at hs; omega
          · simp at hs; omega
        | x :: y :: r, x' :: y' :: r', hr =>
          simp only [List.cons_append, List.cons.injEq] at e2 e2'
          obtain ⟨rfl, rfl, e2⟩ := e2
          obtain ⟨rfl, rfl, e2'⟩ := e2'
          have hq : r ++ bs.flatten = r' ++ cs.flatten := by rw [← e2, ← e2']
          obtain ⟨rfl, e3⟩ := List.append_inj hq (by simpa using hr)
          rw [alike_flatten bs cs ht e3]
          exact ⟨[], b, c, cs, rfl, rfl, p, a, a2, a', a2', r, e1, e1', h3, h4⟩
      · have t1 := congrArg (List.take b.length) h1
        have t2 := congrArg (List.take b.length) h2
        rw [List.take_left' rfl, List.take_append_of_le_length hp] at t1
        rw [List.take_left' hl.symm, List.take_append_of_le_length hp] at t2
        have hbc : b = c := by rw [t1, t2]
        subst hbc
        have hsplit : p = b ++ p.drop b.length := by
          conv => lhs; rw [← List.take_append_drop b.length p]
          rw [← t1]
        rw [hsplit, List.append_assoc] at h1 h2
        obtain ⟨P, x, y, Q, e1, e2, e3⟩ := ih cs ht ⟨p.drop b.length, a, a2, a', a2', q, List.append_cancel_left h1,
          List.append_cancel_left h2, h3, h4⟩
        exact ⟨b :: P, x, y, Q, by rw [e1]; rfl, by rw [e2]; rfl, e3⟩

/-- The readings of rows of groups that differ in one group differ in one place. -/
theorem one_reading {α : Type} (f : List Nat → Option α) (P Q : List (List Nat)) (b c : List Nat) (l l' : List α)
    (h : (P ++ b :: Q).map f = l.map some) (h' : (P ++ c :: Q).map f = l'.map some) :
    ∃ u x y v, l = u ++ x :: v ∧ l' = u ++ y :: v ∧ f b = some x ∧ f c = some y := by
  induction P generalizing l l' with
  | nil =>
    cases l with
    | nil => simp at h
    | cons x l =>
      cases l' with
      | nil => simp at h'
      | cons y l' =>
        simp only [List.nil_append, List.map_cons, List.cons.injEq] at h h'
        have : l.map some = l'.map some := by rw [← h.2, ← h'.2]
        have hll : l = l' := by
          have := congrArg (List.filterMap id) this
          simpa [List.filterMap_map] using this
        subst hll
        exact ⟨[], x, y, l, rfl, rfl, h.1, h'.1⟩
  | cons a P ih =>
    cases l with
    | nil => simp at h
    | cons x l =>
      cases l' with
      | nil => simp at h'
      | cons y l' =>
        simp only [List.cons_append, List.map_cons, List.cons.injEq] at h h'
        obtain ⟨u, z, z', v, e1, e2, e3, e4⟩ := ih l l' h.2 h'.2
        have : x = y := by
          have := h.1.symm.trans h'.1
          exact Option.some.inj this
        subst this
        exact ⟨x :: u, z, z', v, by rw [e1]; rfl, by rw [e2]; rfl, e3, e4⟩

/-- The same test as a function. -/
def nudged : List Nat → List Nat → Bool
  | a :: b :: q, a' :: b' :: q' =>
    ((a' == a + 1 || a == a' + 1) && a + b == a' + b' && q == q') || (a == a' && nudged (b :: q) (b' :: q'))
  | _, _ => false

theorem nudged_of (ws vs : List Nat) (h : Nudged ws vs) : nudged ws vs = true := by
  obtain ⟨p, a, b, a', b', q, rfl, rfl, h3, h4⟩ := h
  induction p with
  | nil => rcases h4 with rfl | rfl <;> simp [nudged, h3]
  | cons x p ih =>
    cases p with
    | nil => simp only [List.cons_append, List.nil_append] at *; rw [nudged, ih]; simp
    | cons y p => simp only [List.cons_append] at *; rw [nudged, ih]; simp

end Spec
