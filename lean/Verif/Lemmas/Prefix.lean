import Verif.Lemmas.Symbols

/-!
# Pictures that begin alike
-/

set_option autoImplicit false

namespace Barcoders
open Spec

/-- If the modules of some elements are the beginning of those of others, all elements but the last agree. -/
theorem paintFrom_prefix (c : Nat) (hc : c < 2) (ws vs : List Nat) (hw : ∀ w ∈ ws, 0 < w) (hv : ∀ w ∈ vs, 0 < w)
    (h : paintFrom c ws <+: paintFrom c vs) : ws.dropLast <+: vs := by
  induction ws generalizing c vs with
  | nil => exact List.nil_prefix
  | cons w ws ih =>
    cases ws with
    | nil => exact List.nil_prefix
    | cons w' ws =>
      cases vs with
      | nil =>
        have := h.length_le
        have := hw w (by simp)
        rw [paintFrom_length, paintFrom_length] at *
        simp at *
        omega
      | cons v vs =>
        have h0 := hw w (by simp)
        have h1 := hw w' (by simp)
        have h2 := hv v (by simp)
        replace h : List.replicate w c ++ paintFrom (1 - c) (w' :: ws) <+: List.replicate v c ++ paintFrom (1 - c) vs := h
        have hwv : w = v := by
          obtain ⟨r, hr⟩ := h
          rcases Nat.lt_trichotomy w v with hlt | heq | hgt
          · exfalso
            have := congrArg (fun l : List Nat => l[w]?) hr
            simp only [paintFrom, List.append_assoc] at this
            rw [List.getElem?_append_right (by simp), List.length_replicate, Nat.sub_self, List.getElem?_append_left (by simpa using h1),
              List.getElem?_append_left (by simpa using hlt)] at this
            simp [h1, hlt] at this
            omega
          · exact heq
          · exfalso
            cases vs with
            | nil =>
              have := congrArg List.length hr
              simp [paintFrom] at this
              omega
            | cons v' vs =>
              have h3 := hv v' (by simp)
              have := congrArg (fun l : List Nat => l[v]?) hr
              simp only [paintFrom, List.append_assoc] at this
              rw [List.getElem?_append_left (by simpa using hgt), List.getElem?_append_right (by simp)] at this
              simp only [List.length_replicate, Nat.sub_self] at this
              rw [List.getElem?_append_left (by simpa using h3)] at this
              simp [h3, hgt] at this
              omega
        subst hwv
        rw [List.prefix_append_right_inj] at h
        have := ih (1 - c) (by omega) vs (fun w hw' => hw w (by simp [hw'])) (fun w hw' => hv w (by simp [hw'])) h
        rw [List.dropLast_cons_of_ne_nil (by simp)]
        exact List.cons_prefix_cons.mpr ⟨rfl, this⟩

/-- Codewords of `k` elements closed by a pattern that is not the beginning of a codeword: the codewords agree. -/
theorem codes_prefix {α : Type} (k : Nat) (hk : 2 ≤ k) (f : α → List Nat) (st st' : List Nat) (hst : st.length ≤ k + 1)
    (hst' : st.length = st'.length)
    (l m : List α) (hl : ∀ a ∈ l, (f a).length = k) (hm : ∀ a ∈ m, (f a).length = k)
    (inj : ∀ a ∈ l, ∀ c ∈ m, f a = f c → a = c)
    (hne : ∀ a ∈ m, (f a).take (st.length - 1) ≠ st.dropLast) (h : (l.flatMap f ++ st).dropLast <+: m.flatMap f ++ st') :
    l = m := by
  have hst0 : st ≠ [] ∨ m = [] := by
    cases m with
    | nil => exact Or.inr rfl
    | cons a m =>
      left
      rintro rfl
      exact hne a (by simp) (by simp)
  induction l generalizing m with
  | nil =>
    cases m with
    | nil => rfl
    | cons a m =>
      exfalso
      apply hne a (by simp)
      rw [List.flatMap_nil, List.nil_append, List.flatMap_cons, List.append_assoc] at h
      have hp := List.prefix_iff_eq_take.mp h
      rw [List.length_dropLast, List.take_append_of_le_length (by rw [hm a (by simp)]; omega)] at hp
      exact hp.symm
  | cons a l ih =>
    cases m with
    | nil =>
      have := h.length_le
      simp only [List.length_dropLast, List.flatMap_cons, List.length_append, hl a (by simp), List.flatMap_nil,
        List.length_nil] at this
      omega
    | cons c m =>
      have hst1 : st ≠ [] := hst0.resolve_right (by simp)
      rw [List.flatMap_cons, List.flatMap_cons, List.append_assoc, List.append_assoc,
        List.dropLast_append_of_ne_nil (by simp [hst1])] at h
      obtain ⟨r, hr⟩ := h
      rw [List.append_assoc] at hr
      obtain ⟨h1, h2⟩ := List.append_inj hr (by rw [hl a (by simp), hm c (by simp)])
      rw [inj a (by simp) c (by simp) h1, ih m (fun x hx => hl x (by simp [hx])) (fun x hx => hm x (by simp [hx]))
        (fun x hx y hy => inj x (by simp [hx]) y (by simp [hy])) (fun x hx => hne x (by simp [hx])) ⟨r, h2⟩ (Or.inl hst1)]

/-- The same for pictures, with a common opening pattern. -/
theorem framed_prefix {α : Type} (c : Nat) (hc : c < 2) (k : Nat) (hk : 2 ≤ k) (f : α → List Nat) (pre st st' : List Nat)
    (hst : st.length ≤ k + 1) (hst' : st.length = st'.length) (hst0 : st ≠ []) (l m : List α)
    (hl : ∀ a ∈ l, (f a).length = k) (hm : ∀ a ∈ m, (f a).length = k) (inj : ∀ a ∈ l, ∀ c ∈ m, f a = f c → a = c)
    (hne : ∀ a ∈ m, (f a).take (st.length - 1) ≠ st.dropLast)
    (hp : ∀ w ∈ pre ++ (l.flatMap f ++ st), 0 < w) (hp' : ∀ w ∈ pre ++ (m.flatMap f ++ st'), 0 < w)
    (h : paintFrom c (pre ++ (l.flatMap f ++ st)) <+: paintFrom c (pre ++ (m.flatMap f ++ st'))) : l = m := by
  have := paintFrom_prefix c hc _ _ hp hp' h
  rw [List.dropLast_append_of_ne_nil (by simp [hst0]), List.prefix_append_right_inj] at this
  exact codes_prefix k hk f st st' hst hst' l m hl hm inj hne this

/-- The same for pictures that end alike. -/
theorem framed_suffix {α : Type} (k : Nat) (hk : 2 ≤ k) (hev : k % 2 = 0) (f : α → List Nat) (pre pre' st : List Nat)
    (hpre : pre.length ≤ k + 1) (hpre' : pre.length = pre'.length) (hpre0 : pre ≠ []) (l m : List α)
    (hl : ∀ a ∈ l, (f a).length = k) (hm : ∀ a ∈ m, (f a).length = k) (inj : ∀ a ∈ l, ∀ c ∈ m, f a = f c → a = c)
    (hne : ∀ a ∈ m, (f a).drop (k + 1 - pre.length) ≠ pre.tail)
    (hp : ∀ w ∈ pre ++ (l.flatMap f ++ st), 0 < w) (hp' : ∀ w ∈ pre' ++ (m.flatMap f ++ st), 0 < w)
    (h : paint (pre ++ (l.flatMap f ++ st)) <:+ paint (pre' ++ (m.flatMap f ++ st))) : l = m := by
  have e1 : ∀ (p : List Nat) (l : List α), (p ++ (l.flatMap f ++ st)).reverse =
      st.reverse ++ (l.reverse.flatMap (fun a => (f a).reverse) ++ p.reverse) := by
    intro p l
    rw [List.reverse_append, List.reverse_append, List.reverse_flatMap, List.append_assoc]
    rfl
  have e2 : ∀ (p : List Nat) (l : List α), (∀ a ∈ l, (f a).length = k) → p.length = pre.length →
      Spec.flip 1 ((p ++ (l.flatMap f ++ st)).length + 1) = Spec.flip 1 (pre.length + st.length + 1) := by
    intro p l h1 h2
    have h3 : k * l.length % 2 = 0 := by rw [Nat.mul_mod, hev]; simp
    simp only [List.length_append, flatMap_length_eq k f l h1, h2, Spec.flip]
    have : (pre.length + (k * l.length + st.length) + 1) % 2 = (pre.length + st.length + 1) % 2 := by omega
    rw [this]
  rw [← List.reverse_prefix, paint, paint, paintFrom_reverse 1 (by omega), paintFrom_reverse 1 (by omega), e2 pre l hl rfl,
    e2 pre' m hm hpre'.symm, e1, e1] at h
  have hc : Spec.flip 1 (pre.length + st.length + 1) < 2 := by unfold Spec.flip; split <;> omega
  have hpos : ∀ (p : List Nat) (l : List α), (∀ w ∈ p ++ (l.flatMap f ++ st), 0 < w) →
      ∀ w ∈ st.reverse ++ (l.reverse.flatMap (fun a => (f a).reverse) ++ p.reverse), 0 < w := by
    intro p l h w hw
    rw [← e1, List.mem_reverse] at hw
    exact h w hw
  have := framed_prefix _ hc k hk (fun a => (f a).reverse) st.reverse pre.reverse pre'.reverse (by simpa using hpre)
    (by simpa using hpre') (by simpa using hpre0) l.reverse m.reverse
    (fun a ha => by simpa using hl a (by simpa using ha)) (fun a ha => by simpa using hm a (by simpa using ha))
    (fun a ha c hc h => inj a (by simpa using ha) c (by simpa using hc) (by simpa using h)) ?_ (hpos _ _ hp) (hpos _ _ hp') h
  · simpa using congrArg List.reverse this
  · intro a ha he
    have ha' : a ∈ m := by simpa using ha
    apply hne a ha'
    have := congrArg List.reverse he
    rw [List.length_reverse, List.take_reverse, List.reverse_reverse, hm a ha', List.dropLast_reverse,
      List.reverse_reverse] at this
    rw [← this]
    congr 1
    have : pre.length ≠ 0 := by simpa using hpre0
    omega

end Barcoders
