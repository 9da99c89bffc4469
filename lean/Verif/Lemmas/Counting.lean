import Verif.Spec.Counting

/-! Lemmas about `Spec.Exactly`. -/

set_option autoImplicit false

namespace Barcoders
open Spec

theorem exactly_congr {α : Type} {n : Nat} {P Q : α → Prop} (h : Exactly n P) (hpq : ∀ a, P a ↔ Q a) : Exactly n Q := by
  obtain ⟨l, h1, h2, h3⟩ := h
  exact ⟨l, h1, h2, fun a => (h3 a).trans (hpq a)⟩

theorem nodup_map {α β : Type} (f : α → β) (l : List α) (hl : l.Nodup) (h : ∀ a ∈ l, ∀ a' ∈ l, f a = f a' → a = a') :
    (l.map f).Nodup := by
  induction l with
  | nil => exact List.nodup_nil
  | cons a l ih =>
    rw [List.nodup_cons] at hl
    rw [List.map_cons, List.nodup_cons]
    refine ⟨fun hm => ?_, ih hl.2 (fun x hx y hy => h x (by simp [hx]) y (by simp [hy]))⟩
    obtain ⟨x, hx, e⟩ := List.mem_map.mp hm
    have := h x (by simp [hx]) a (by simp) e
    subst this
    exact hl.1 hx

/-- The image of a property under a map that keeps things apart. -/
theorem exactly_image {α β : Type} {n : Nat} {P : α → Prop} (h : Exactly n P) (f : α → β)
    (hf : ∀ a a', P a → P a' → f a = f a' → a = a') : Exactly n (fun y => ∃ a, P a ∧ f a = y) := by
  obtain ⟨l, h1, h2, h3⟩ := h
  refine ⟨l.map f, nodup_map f l h1 (fun a ha a' ha' => hf a a' ((h3 a).mp ha) ((h3 a').mp ha')), by simp [h2], fun y => ?_⟩
  rw [List.mem_map]
  exact ⟨fun ⟨a, h, e⟩ => ⟨a, (h3 a).mp h, e⟩, fun ⟨a, h, e⟩ => ⟨a, (h3 a).mpr h, e⟩⟩

/-- All lists of length `n` over an alphabet. -/
def listsOver {α : Type} (A : List α) : Nat → List (List α)
  | 0 => [[]]
  | n + 1 => A.flatMap (fun c => (listsOver A n).map (c :: ·))

theorem mem_listsOver {α : Type} (A : List α) (n : Nat) (t : List α) : t ∈ listsOver A n ↔ t.length = n ∧ ∀ c ∈ t, c ∈ A := by
  induction n generalizing t with
  | zero =>
    rw [listsOver, List.mem_singleton]
    constructor
    · rintro rfl; simp
    · rintro ⟨h, -⟩; exact List.length_eq_zero_iff.mp h
  | succ n ih =>
    rw [listsOver, List.mem_flatMap]
    constructor
    · rintro ⟨c, hc, ht⟩
      obtain ⟨u, hu, rfl⟩ := List.mem_map.mp ht
      obtain ⟨h1, h2⟩ := (ih u).mp hu
      refine ⟨by simp [h1], fun d hd => ?_⟩
      rcases List.mem_cons.mp hd with rfl | hd
      · exact hc
      · exact h2 d hd
    · rintro ⟨h1, h2⟩
      cases t with
      | nil => simp at h1
      | cons c u =>
        exact ⟨c, h2 c (by simp), List.mem_map.mpr ⟨u, (ih u).mpr ⟨by simpa using h1, fun d hd => h2 d (by simp [hd])⟩, rfl⟩⟩

theorem listsOver_length {α : Type} (A : List α) (n : Nat) : (listsOver A n).length = A.length ^ n := by
  induction n with
  | zero => rfl
  | succ n ih =>
    rw [listsOver, List.length_flatMap]
    have : ∀ l : List α, (l.map (fun c => ((listsOver A n).map (c :: ·)).length)).sum = l.length * A.length ^ n := by
      intro l
      induction l with
      | nil => simp
      | cons c l ihl => rw [List.map_cons, List.sum_cons, ihl, List.length_map, ih, List.length_cons, Nat.add_mul, Nat.one_mul, Nat.add_comm]
    rw [this, Nat.pow_succ, Nat.mul_comm]

theorem listsOver_nodup {α : Type} (A : List α) (hA : A.Nodup) (n : Nat) : (listsOver A n).Nodup := by
  induction n with
  | zero => simp [listsOver]
  | succ n ih =>
    rw [listsOver]
    have : ∀ l : List α, l.Nodup → (l.flatMap (fun c => (listsOver A n).map (c :: ·))).Nodup := by
      intro l hl
      induction l with
      | nil => exact List.nodup_nil
      | cons c l ihl =>
        rw [List.nodup_cons] at hl
        rw [List.flatMap_cons, List.nodup_append]
        refine ⟨nodup_map _ _ ih (fun a _ a' _ h => (List.cons.inj h).2), ihl hl.2, ?_⟩
        intro x hx y hy e
        subst e
        obtain ⟨u, -, rfl⟩ := List.mem_map.mp hx
        obtain ⟨d, hd, hy⟩ := List.mem_flatMap.mp hy
        obtain ⟨v, -, e⟩ := List.mem_map.mp hy
        have := (List.cons.inj e).1
        subst this
        exact hl.1 hd
    exact this A hA

/-- There are `|A| ^ n` lists of length `n` over `A`. -/
theorem exactly_lists {α : Type} (A : List α) (hA : A.Nodup) (n : Nat) :
    Exactly (A.length ^ n) (fun t : List α => t.length = n ∧ ∀ c ∈ t, c ∈ A) :=
  ⟨listsOver A n, listsOver_nodup A hA n, listsOver_length A n, mem_listsOver A n⟩

theorem exactly_none {α : Type} {P : α → Prop} (h : ∀ a, ¬ P a) : Exactly 0 P :=
  ⟨[], List.nodup_nil, rfl, fun a => ⟨fun h => absurd h List.not_mem_nil, fun h' => absurd h' (h a)⟩⟩

/-- Two properties that exclude each other. -/
theorem exactly_or {α : Type} {m n : Nat} {P Q : α → Prop} (hp : Exactly m P) (hq : Exactly n Q) (h : ∀ a, P a → ¬ Q a) :
    Exactly (m + n) (fun a => P a ∨ Q a) := by
  obtain ⟨l, h1, h2, h3⟩ := hp
  obtain ⟨k, k1, k2, k3⟩ := hq
  refine ⟨l ++ k, ?_, by simp [h2, k2], fun a => by rw [List.mem_append, h3, k3]⟩
  rw [List.nodup_append]
  refine ⟨h1, k1, fun x hx y hy e => ?_⟩
  subst e
  exact h x ((h3 x).mp hx) ((k3 x).mp hy)

/-- A count is no other count. -/
theorem exactly_unique {α : Type} {m n : Nat} {P : α → Prop} (hm : Exactly m P) (hn : Exactly n P) : m = n := by
  have key : ∀ l k : List α, l.Nodup → (∀ a ∈ l, a ∈ k) → l.length ≤ k.length := by
    intro l k hl h
    induction l generalizing k with
    | nil => simp
    | cons a l ih =>
      rw [List.nodup_cons] at hl
      obtain ⟨p, q, rfl⟩ := List.append_of_mem (h a (by simp))
      have := ih (p ++ q) hl.2 (fun x hx => by
        have h1 := h x (by simp [hx])
        have hne : x ≠ a := fun e => hl.1 (e ▸ hx)
        simp only [List.mem_append, List.mem_cons] at h1 ⊢
        rcases h1 with h1 | h1 | h1
        · exact Or.inl h1
        · exact absurd h1 hne
        · exact Or.inr h1)
      simp only [List.length_append, List.length_cons] at this ⊢
      omega
  obtain ⟨l, h1, h2, h3⟩ := hm
  obtain ⟨k, k1, k2, k3⟩ := hn
  have a := key l k h1 (fun x hx => (k3 x).mpr ((h3 x).mp hx))
  have b := key k l k1 (fun x hx => (h3 x).mpr ((k3 x).mp hx))
  omega

/-- The pictures of a property under a relation that keeps things apart. -/
theorem exactly_choice {α β : Type} [Inhabited β] {n : Nat} {P : α → Prop} (h : Exactly n P) (R : α → β → Prop)
    (hR : ∀ a, P a → ∃ y, R a y ∧ ∀ y', R a y' → y' = y) (hi : ∀ a a' y, P a → P a' → R a y → R a' y → a = a') :
    Exactly n (fun y => ∃ a, P a ∧ R a y) := by
  have : ∀ a, ∃ y, P a → R a y ∧ ∀ y', R a y' → y' = y := by
    intro a
    by_cases ha : P a
    · obtain ⟨y, hy⟩ := hR a ha
      exact ⟨y, fun _ => hy⟩
    · exact ⟨default, fun h => absurd h ha⟩
  obtain ⟨f, hf⟩ := Classical.axiomOfChoice this
  refine exactly_congr (exactly_image h f (fun a a' ha ha' e => hi a a' (f a) ha ha' (hf a ha).1 ?_)) (fun y => ?_)
  · rw [e]; exact (hf a' ha').1
  · constructor
    · rintro ⟨a, ha, rfl⟩; exact ⟨a, ha, (hf a ha).1⟩
    · rintro ⟨a, ha, hy⟩; exact ⟨a, ha, ((hf a ha).2 y hy).symm⟩

/-- Pairs. -/
theorem exactly_pairs {α β : Type} {m n : Nat} {P : α → Prop} {Q : β → Prop} (hp : Exactly m P) (hq : Exactly n Q) :
    Exactly (m * n) (fun p : α × β => P p.1 ∧ Q p.2) := by
  obtain ⟨l, h1, rfl, h3⟩ := hp
  have key : ∀ l : List α, l.Nodup → Exactly (l.length * n) (fun p : α × β => p.1 ∈ l ∧ Q p.2) := by
    intro l hl
    induction l with
    | nil => rw [List.length_nil, Nat.zero_mul]; exact exactly_none (fun a h => absurd h.1 List.not_mem_nil)
    | cons a l ih =>
      rw [List.nodup_cons] at hl
      rw [List.length_cons, Nat.add_mul, Nat.one_mul]
      refine exactly_congr (exactly_or (ih hl.2) (exactly_image hq (fun y => (a, y)) (fun y y' _ _ e => (Prod.mk.inj e).2)) ?_) ?_
      · rintro p hp ⟨y, -, rfl⟩
        exact hl.1 hp.1
      · rintro ⟨x, y⟩
        rw [List.mem_cons]
        constructor
        · rintro (⟨h, h'⟩ | ⟨z, hz, e⟩)
          · exact ⟨Or.inr h, h'⟩
          · obtain ⟨rfl, rfl⟩ := Prod.mk.inj e
            exact ⟨Or.inl rfl, hz⟩
        · rintro ⟨rfl | h, h'⟩
          · exact Or.inr ⟨y, h', rfl⟩
          · exact Or.inl ⟨h, h'⟩
  exact exactly_congr (key l h1) (fun p => by rw [h3])

end Barcoders
