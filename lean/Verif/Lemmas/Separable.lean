import Verif.Lemmas.Counting

/-!
Codes with as many words as check characters allow: if no two code words agree off `r` places, and there are `|A| ^ (L - r)` of
them, then any contents of the other places can be completed in exactly one way.
-/

set_option autoImplicit false

namespace Barcoders
open Spec

theorem nodup_length_le {α : Type} (l k : List α) (hl : l.Nodup) (h : ∀ a ∈ l, a ∈ k) : l.length ≤ k.length := by
  induction l generalizing k with
  | nil => simp
  | cons a l ih =>
    rw [List.nodup_cons] at hl
    obtain ⟨p, q, rfl⟩ := List.append_of_mem (h a (by simp))
    have := ih (p ++ q) hl.2 (fun x hx => by
      have h1 := h x (by simp [hx])
      have hne : x ≠ a := fun e => hl.1 (e ▸ hx)
      simp only [List.mem_append, List.mem_cons] at h1 ⊢
      rcases h1 with h1 | h1 | h1
      · exact Or.inl h1
      · exact absurd h1 hne
      · exact Or.inr h1)
    simp only [List.length_append, List.length_cons] at this ⊢
    omega

/-- A map between equally many things that keeps them apart leaves none out. -/
theorem exactly_onto {α β : Type} {n : Nat} {P : α → Prop} {Q : β → Prop} (hp : Exactly n P) (hq : Exactly n Q) (f : α → β)
    (hf : ∀ a, P a → Q (f a)) (hi : ∀ a a', P a → P a' → f a = f a' → a = a') : ∀ y, Q y → ∃ a, P a ∧ f a = y := by
  obtain ⟨l, h1, h2, h3⟩ := hp
  obtain ⟨k, k1, k2, k3⟩ := hq
  intro y hy
  by_cases h : y ∈ l.map f
  · obtain ⟨a, ha, e⟩ := List.mem_map.mp h
    exact ⟨a, (h3 a).mp ha, e⟩
  · exfalso
    have hn : (y :: l.map f).Nodup := List.nodup_cons.mpr
      ⟨h, nodup_map f l h1 (fun a ha a' ha' => hi a a' ((h3 a).mp ha) ((h3 a').mp ha'))⟩
    have := nodup_length_le _ k hn (by
      intro z hz
      rcases List.mem_cons.mp hz with rfl | hz
      · exact (k3 z).mpr hy
      · obtain ⟨a, ha, rfl⟩ := List.mem_map.mp hz
        exact (k3 _).mpr (hf a ((h3 a).mp ha)))
    simp only [List.length_cons, List.length_map] at this
    omega

theorem agreeOff_refl {α : Type} (K : List Nat) (s : List α) : AgreeOff K s s := ⟨rfl, fun _ _ => rfl⟩

/-- The fillings of some places. -/
theorem exactly_fill {α : Type} (A : List α) (hA : A.Nodup) (s : List α) (hs : ∀ c ∈ s, c ∈ A) (K : List Nat) (hK : K.Nodup)
    (hl : ∀ i ∈ K, i < s.length) : Exactly (A.length ^ K.length) (fun t => (∀ c ∈ t, c ∈ A) ∧ AgreeOff K s t) := by
  induction K with
  | nil =>
    refine ⟨[s], by simp, rfl, fun t => ?_⟩
    rw [List.mem_singleton]
    constructor
    · rintro rfl; exact ⟨hs, agreeOff_refl _ _⟩
    · rintro ⟨-, -, h⟩; exact List.ext_getElem? (fun i => h i List.not_mem_nil)
  | cons i K ih =>
    rw [List.nodup_cons] at hK
    have hi := hl i (by simp)
    have hF := ih hK.2 (fun j hj => hl j (by simp [hj]))
    have hA' : Exactly A.length (fun a => a ∈ A) := ⟨A, hA, rfl, fun _ => Iff.rfl⟩
    rw [List.length_cons, Nat.pow_succ, Nat.mul_comm]
    refine exactly_congr (exactly_image (exactly_pairs hA' hF) (fun p => p.2.set i p.1) ?_) ?_
    · rintro ⟨a, u⟩ ⟨a', u'⟩ ⟨-, -, hu1, hu2⟩ ⟨-, -, hv1, hv2⟩ e
      simp only at hu1 hu2 hv1 hv2 e
      have ha : a = a' := by
        have := congrArg (fun l : List α => l[i]?) e
        simpa [List.getElem?_set, hu1, hv1, hi] using this
      have hu : u = u' := by
        apply List.ext_getElem?
        intro j
        by_cases hj : i = j
        · subst hj; rw [hu2 i hK.1, hv2 i hK.1]
        · have := congrArg (fun l : List α => l[j]?) e
          simpa [List.getElem?_set, hj] using this
      rw [ha, hu]
    · intro t
      constructor
      · rintro ⟨⟨a, u⟩, ⟨ha, hu0, hu1, hu2⟩, rfl⟩
        simp only at ha hu0 hu1 hu2 ⊢
        refine ⟨fun c hc => ?_, by simp [hu1], fun j hj => ?_⟩
        · rcases List.mem_or_eq_of_mem_set hc with h | rfl
          · exact hu0 c h
          · exact ha
        · rw [List.mem_cons] at hj
          rw [List.getElem?_set_ne (fun e => hj (Or.inl e.symm))]
          exact hu2 j (fun h => hj (Or.inr h))
      · rintro ⟨h0, h1, h2⟩
        have hit : i < t.length := by omega
        refine ⟨(t[i], t.set i s[i]), ⟨h0 _ (List.getElem_mem hit), fun c hc => ?_, by simp [h1], fun j hj => ?_⟩, ?_⟩
        · rcases List.mem_or_eq_of_mem_set hc with h | rfl
          · exact h0 c h
          · exact hs _ (List.getElem_mem hi)
        · by_cases e : i = j
          · subst e
            rw [List.getElem?_set_self hit, List.getElem?_eq_getElem hi]
          · rw [List.getElem?_set_ne e]
            exact h2 j (by simp only [List.mem_cons, not_or]; exact ⟨fun h => e h.symm, hj⟩)
        · simp

/-- `a` in some places. -/
def blank {α : Type} (a : α) (R : List Nat) (t : List α) : List α := t.mapIdx (fun i c => if i ∈ R then a else c)

theorem blank_length {α : Type} (a : α) (R : List Nat) (t : List α) : (blank a R t).length = t.length := by simp [blank]

theorem blank_get {α : Type} (a : α) (R : List Nat) (t : List α) (i : Nat) :
    (blank a R t)[i]? = t[i]?.map (fun c => if i ∈ R then a else c) := by simp [blank, List.getElem?_mapIdx]

theorem blank_off {α : Type} (a : α) (R : List Nat) (t : List α) (i : Nat) (h : i ∉ R) : (blank a R t)[i]? = t[i]? := by
  rw [blank_get]; cases t[i]? <;> simp [h]

theorem blank_on {α : Type} (a : α) (R : List Nat) (t : List α) (i : Nat) (h : i ∈ R) (hl : i < t.length) :
    (blank a R t)[i]? = some a := by
  rw [blank_get, List.getElem?_eq_getElem hl]; simp [h]

theorem blank_mem {α : Type} (A : List α) (a : α) (ha : a ∈ A) (R : List Nat) (t : List α) (h : ∀ c ∈ t, c ∈ A) :
    ∀ c ∈ blank a R t, c ∈ A := by
  intro c hc
  obtain ⟨i, hi⟩ := List.mem_iff_getElem?.mp hc
  rw [blank_get] at hi
  cases hti : t[i]? with
  | none => rw [hti] at hi; cases hi
  | some d =>
    rw [hti, Option.map_some, Option.some.injEq] at hi
    subst hi
    split
    · exact ha
    · exact h d (List.mem_of_getElem? hti)

/-- Counting the code words that agree with a given sequence off some places, among them `r` places that the others determine. -/
theorem exactly_separable {α : Type} (A : List α) (hA : A.Nodup) (a : α) (ha : a ∈ A) (V : List α → Prop) (L : Nat)
    (hV : ∀ t, V t → t.length = L ∧ ∀ c ∈ t, c ∈ A) (R K : List Nat) (hc : Exactly (A.length ^ (L - R.length)) V)
    (hd : ∀ t t', V t → V t' → AgreeOff R t t' → t = t') (hn : (R ++ K).Nodup) (hl : ∀ i ∈ R ++ K, i < L) (s : List α)
    (hs : s.length = L) (hsA : ∀ c ∈ s, c ∈ A) : Exactly (A.length ^ K.length) (fun t => AgreeOff (R ++ K) s t ∧ V t) := by
  have hnd := List.nodup_append.mp hn
  have hRL : ∀ i ∈ R, i < L := fun i hi => hl i (by simp [hi])
  -- the other places
  have hcomp : ((List.range L).filter (fun i => decide (i ∉ R))).length = L - R.length := by
    have hn2 : (R ++ (List.range L).filter (fun i => decide (i ∉ R))).Nodup := by
      rw [List.nodup_append]
      refine ⟨hnd.1, List.Pairwise.filter _ List.nodup_range, ?_⟩
      intro x hx y hy e
      subst e
      have := (List.mem_filter.mp hy).2
      simp [hx] at this
    have h1 := nodup_length_le _ (List.range L) hn2 (by
      intro x hx
      rcases List.mem_append.mp hx with hx | hx
      · exact List.mem_range.mpr (hRL x hx)
      · exact (List.mem_filter.mp hx).1)
    have h2 := nodup_length_le (List.range L) (R ++ (List.range L).filter (fun i => decide (i ∉ R))) List.nodup_range (by
      intro x hx
      by_cases h : x ∈ R
      · simp [h]
      · exact List.mem_append.mpr (Or.inr (List.mem_filter.mpr ⟨hx, by simp [h]⟩)))
    rw [List.length_append, List.length_range] at h1 h2
    omega
  have hB := exactly_fill A hA (List.replicate L a) (fun c hc => by rw [(List.mem_replicate.mp hc).2]; exact ha)
    ((List.range L).filter (fun i => decide (i ∉ R))) (List.Pairwise.filter _ List.nodup_range)
    (fun i hi => by rw [List.length_replicate]; exact List.mem_range.mp (List.mem_filter.mp hi).1)
  rw [hcomp] at hB
  have hinj : ∀ t t', V t → V t' → blank a R t = blank a R t' → t = t' := by
    intro t t' h h' e
    refine hd t t' h h' ⟨by rw [(hV t h).1, (hV t' h').1], fun i hi => ?_⟩
    rw [← blank_off a R t' i hi, ← e, blank_off a R t i hi]
  have hinB : ∀ u : List α, u.length = L → (∀ c ∈ u, c ∈ A) → (∀ i ∈ R, u[i]? = some a) →
      (∀ c ∈ u, c ∈ A) ∧ AgreeOff ((List.range L).filter (fun i => decide (i ∉ R))) (List.replicate L a) u := by
    intro u hu huA hR
    refine ⟨huA, by simp [hu], fun i hi => ?_⟩
    by_cases hiL : i < L
    · have hiR : i ∈ R := by
        by_cases h : i ∈ R
        · exact h
        · exact absurd (List.mem_filter.mpr ⟨List.mem_range.mpr hiL, by simp [h]⟩) hi
      rw [hR i hiR, List.getElem?_replicate, if_pos hiL]
    · rw [List.getElem?_eq_none (by omega), List.getElem?_eq_none (by simp; omega)]
  have honto := exactly_onto hc hB (blank a R)
    (fun t h => hinB _ (by rw [blank_length, (hV t h).1]) (blank_mem A a ha R t (hV t h).2)
      (fun i hi => blank_on a R t i hi (by rw [(hV t h).1]; exact hRL i hi))) hinj
  have hP := exactly_fill A hA (blank a R s) (blank_mem A a ha R s hsA) K hnd.2.1
    (fun i hi => by rw [blank_length, hs]; exact hl i (by simp [hi]))
  refine exactly_congr (exactly_choice hP (fun u t => V t ∧ blank a R t = u) ?_ ?_) ?_
  · rintro u ⟨huA, hul, hu⟩
    rw [blank_length, hs] at hul
    obtain ⟨t, h1, h2⟩ := honto u (hinB u hul huA (fun i hi => by
      rw [hu i (fun hk => hnd.2.2 i hi i hk rfl)]
      exact blank_on a R s i hi (by rw [hs]; exact hRL i hi)))
    exact ⟨t, ⟨h1, h2⟩, fun t' ⟨h3, h4⟩ => hinj t' t h3 h1 (by rw [h4, h2])⟩
  · rintro u u' t - - ⟨-, rfl⟩ ⟨-, h⟩
    exact h
  · intro t
    constructor
    · rintro ⟨u, ⟨-, -, hu⟩, h, rfl⟩
      refine ⟨⟨by rw [(hV t h).1, hs], fun i hi => ?_⟩, h⟩
      rw [List.mem_append, not_or] at hi
      have := hu i hi.2
      rwa [blank_off _ _ _ _ hi.1, blank_off _ _ _ _ hi.1] at this
    · rintro ⟨⟨h1, h2⟩, h⟩
      refine ⟨blank a R t, ⟨blank_mem A a ha R t (hV t h).2, by rw [blank_length, blank_length, h1], fun i hi => ?_⟩, h, rfl⟩
      by_cases hiR : i ∈ R
      · rw [blank_on a R t i hiR (by rw [(hV t h).1]; exact hRL i hiR), blank_on a R s i hiR (by rw [hs]; exact hRL i hiR)]
      · rw [blank_off _ _ _ _ hiR, blank_off _ _ _ _ hiR]
        exact h2 i (by rw [List.mem_append, not_or]; exact ⟨hiR, hi⟩)

/-! ## Places and parts -/

theorem take_drop_get {α : Type} (s : List α) (i : Nat) (h : i < s.length) : s = s.take i ++ s[i] :: s.drop (i + 1) := by
  rw [← List.drop_eq_getElem_cons h, List.take_append_drop]

theorem agreeOff_one {α : Type} (s t : List α) (i : Nat) (hi : i < s.length) (h : AgreeOff [i] s t) :
    ∃ p q a c, s = p ++ a :: q ∧ t = p ++ c :: q ∧ p.length = i := by
  have hit : i < t.length := by rw [h.1]; exact hi
  refine ⟨s.take i, s.drop (i + 1), s[i], t[i], take_drop_get s i hi, ?_, by rw [List.length_take]; omega⟩
  have h1 : t.take i = s.take i := by
    apply List.ext_getElem?
    intro j
    rw [List.getElem?_take, List.getElem?_take]
    split
    · exact h.2 j (by simp; omega)
    · rfl
  have h2 : t.drop (i + 1) = s.drop (i + 1) := by
    apply List.ext_getElem?
    intro j
    rw [List.getElem?_drop, List.getElem?_drop]
    exact h.2 _ (by simp; omega)
  rw [← h1, ← h2]
  exact take_drop_get t i hit

theorem agreeOff_two {α : Type} (s t : List α) (i j : Nat) (hij : i < j) (hj : j < s.length) (h : AgreeOff [i, j] s t) :
    ∃ p m q a c a' c', s = p ++ a :: (m ++ c :: q) ∧ t = p ++ a' :: (m ++ c' :: q) := by
  have hjt : j < t.length := by rw [h.1]; exact hj
  have h1 : AgreeOff [i] (s.take j) (t.take j) := by
    refine ⟨by rw [List.length_take, List.length_take, h.1], fun k hk => ?_⟩
    rw [List.getElem?_take, List.getElem?_take]
    split
    · exact h.2 k (by simp only [List.mem_cons, List.not_mem_nil, or_false] at hk ⊢; omega)
    · rfl
  have h2 : t.drop (j + 1) = s.drop (j + 1) := by
    apply List.ext_getElem?
    intro k
    rw [List.getElem?_drop, List.getElem?_drop]
    exact h.2 _ (by simp; omega)
  obtain ⟨p, m, a, a', e1, e2, -⟩ := agreeOff_one _ _ i (by rw [List.length_take]; omega) h1
  refine ⟨p, m, s.drop (j + 1), a, s[j], a', t[j], ?_, ?_⟩
  · have := take_drop_get s j hj
    rw [e1] at this
    simpa using this
  · have := take_drop_get t j hjt
    rw [e2, h2] at this
    simpa using this

end Barcoders
