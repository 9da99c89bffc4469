import Verif.Spec.Elements

set_option autoImplicit false

namespace Spec

/-- Modules of alternating elements, the first of colour `c`. -/
def paintFrom : Nat → List Nat → List Nat
  | _, [] => []
  | c, w :: ws => List.replicate w c ++ paintFrom (1 - c) ws

/-- Modules of alternating elements, starting with a bar. -/
def paint (ws : List Nat) : List Nat := paintFrom 1 ws

/-- Colours of alternating elements. -/
def colours : Nat → List Nat → List (Nat × Nat)
  | _, [] => []
  | c, w :: ws => (c, w) :: colours (1 - c) ws

theorem colours_snd (c : Nat) (ws : List Nat) : (colours c ws).map Prod.snd = ws := by
  induction ws generalizing c with
  | nil => rfl
  | cons w ws ih => simp [colours, ih]

theorem runs_replicate (c w : Nat) (ms : List Nat) (r : List (Nat × Nat)) (hr : runs ms = r)
    (h : ∀ p ∈ r.head?, p.1 ≠ c) : runs (List.replicate (w + 1) c ++ ms) = (c, w + 1) :: r := by
  induction w with
  | zero =>
    rw [show List.replicate (0 + 1) c ++ ms = c :: ms from rfl, runs, hr]
    cases r with
    | nil => rfl
    | cons p r =>
      have : p.1 ≠ c := h p (by simp)
      obtain ⟨a, n⟩ := p
      simp only [] at this
      simp [this]
  | succ w ih =>
    rw [List.replicate_succ, List.cons_append, runs, ih]
    simp

theorem runs_paintFrom (c : Nat) (hc : c < 2) (ws : List Nat) (h : ∀ w ∈ ws, 0 < w) :
    runs (paintFrom c ws) = colours c ws := by
  induction ws generalizing c with
  | nil => rfl
  | cons w ws ih =>
    have hw : 0 < w := h w (by simp)
    obtain ⟨w, rfl⟩ : ∃ v, w = v + 1 := ⟨w - 1, by omega⟩
    rw [paintFrom, runs_replicate c w _ _ (ih (1 - c) (by omega) (fun v hv => h v (by simp [hv])))]
    · rfl
    · cases ws with
      | nil => simp [colours]
      | cons v vs => simp [colours]; omega

theorem paintFrom_binary (c : Nat) (hc : c < 2) (ws : List Nat) : ∀ m ∈ paintFrom c ws, m = 0 ∨ m = 1 := by
  induction ws generalizing c with
  | nil => simp [paintFrom]
  | cons w ws ih =>
    intro m hm
    rw [paintFrom, List.mem_append] at hm
    rcases hm with hm | hm
    · have := List.eq_of_mem_replicate hm
      omega
    · exact ih (1 - c) (by omega) m hm

theorem elements_paint (ws : List Nat) (h : ∀ w ∈ ws, 0 < w) (hne : ws ≠ []) : elements (paint ws) = some ws := by
  have hb := paintFrom_binary 1 (by omega) ws
  have hh : (paint ws).head? = some 1 := by
    cases ws with
    | nil => exact absurd rfl hne
    | cons w ws =>
      have hw : 0 < w := h w (by simp)
      obtain ⟨w, rfl⟩ : ∃ v, w = v + 1 := ⟨w - 1, by omega⟩
      simp [paint, paintFrom, List.replicate_succ]
  unfold elements
  rw [if_pos]
  · rw [paint, runs_paintFrom 1 (by omega) ws h, colours_snd]
  · rw [hh]
    simp only [Bool.and_eq_true, List.all_eq_true, Bool.or_eq_true, beq_iff_eq]
    exact ⟨hb, trivial⟩

/-- Colour after `n` elements starting from colour `c`. -/
def flip (c n : Nat) : Nat := if n % 2 = 0 then c else 1 - c

theorem paintFrom_append (c : Nat) (hc : c < 2) (ws vs : List Nat) :
    paintFrom c (ws ++ vs) = paintFrom c ws ++ paintFrom (flip c ws.length) vs := by
  induction ws generalizing c with
  | nil => simp [paintFrom, flip]
  | cons w ws ih =>
    rw [List.cons_append, paintFrom, paintFrom, ih (1 - c) (by omega), List.append_assoc]
    congr 3
    simp only [flip, List.length_cons]
    split <;> split <;> omega

theorem paintFrom_append_even (c : Nat) (hc : c < 2) (ws vs : List Nat) (h : ws.length % 2 = 0) :
    paintFrom c (ws ++ vs) = paintFrom c ws ++ paintFrom c vs := by
  rw [paintFrom_append c hc, flip, if_pos h]

theorem paintFrom_append_odd (c : Nat) (hc : c < 2) (ws vs : List Nat) (h : ws.length % 2 = 1) :
    paintFrom c (ws ++ vs) = paintFrom c ws ++ paintFrom (1 - c) vs := by
  rw [paintFrom_append c hc, flip, if_neg (by omega)]

theorem paintFrom_flatMap {α : Type} (c : Nat) (hc : c < 2) (f : α → List Nat) (l : List α)
    (h : ∀ a ∈ l, (f a).length % 2 = 0) : paintFrom c (l.flatMap f) = l.flatMap (fun a => paintFrom c (f a)) := by
  induction l with
  | nil => rfl
  | cons a l ih =>
    rw [List.flatMap_cons, List.flatMap_cons, paintFrom_append_even c hc _ _ (h a (by simp)),
      ih (fun x hx => h x (by simp [hx]))]

theorem paintFrom_length (c : Nat) (ws : List Nat) : (paintFrom c ws).length = ws.sum := by
  induction ws generalizing c with
  | nil => rfl
  | cons w ws ih => simp [paintFrom, ih]

theorem paintFrom_reverse (c : Nat) (hc : c < 2) (ws : List Nat) :
    (paintFrom c ws).reverse = paintFrom (flip c (ws.length + 1)) ws.reverse := by
  induction ws generalizing c with
  | nil => rfl
  | cons w ws ih =>
    have h1 : flip (1 - c) (ws.length + 1) = flip c (ws.length + 1 + 1) := by
      unfold flip; split <;> split <;> omega
    have h2 : flip (flip c (ws.length + 1 + 1)) ws.length = c := by
      unfold flip; split <;> split <;> omega
    have h3 : flip c (ws.length + 1 + 1) < 2 := by unfold flip; split <;> omega
    rw [paintFrom, List.reverse_append, ih (1 - c) (by omega), List.reverse_cons, List.length_cons,
      paintFrom_append _ h3, List.length_reverse, h1, h2]
    simp [paintFrom]

@[simp] theorem expect_append (p es : List Nat) : expect p (p ++ es) = some es := by
  induction p with
  | nil => rfl
  | cons a p ih => simp [expect, ih]

theorem readN_append {α β : Type} (k : Nat) (f : List Nat → Option α) (w : β → List Nat) (v : β → α) (ds : List β)
    (rest : List Nat) (hw : ∀ d ∈ ds, (w d).length = k ∧ f (w d) = some (v d)) :
    readN k f ds.length (ds.flatMap w ++ rest) = some (ds.map v, rest) := by
  induction ds with
  | nil => rfl
  | cons d ds ih =>
    obtain ⟨hk, hf⟩ := hw d (by simp)
    have e : (d :: ds).flatMap w ++ rest = w d ++ (ds.flatMap w ++ rest) := by simp
    rw [List.length_cons, readN, e, if_neg (by simp; omega), List.take_left' hk, List.drop_left' hk, hf,
      ih (fun x hx => hw x (by simp [hx]))]
    rfl

theorem readAllFrom_group {α : Type} (k : Nat) (f : List Nat → Option α) (acc w rest : List Nat)
    (hw : w ≠ []) (hk : acc.length + w.length = k) :
    readAllFrom k f acc (w ++ rest) = (do
      let x ← f (acc ++ w)
      let xs ← readAllFrom k f [] rest
      some (x :: xs)) := by
  induction w generalizing acc with
  | nil => exact absurd rfl hw
  | cons e w ih =>
    rw [List.cons_append, readAllFrom]
    cases w with
    | nil =>
      rw [if_pos (by simpa using hk)]
      rfl
    | cons e' w =>
      rw [if_neg (by simp at hk; omega), ih (acc ++ [e]) (by simp) (by simp at hk ⊢; omega)]
      simp

theorem readAll_append {α β : Type} (k : Nat) (hk0 : 0 < k) (f : List Nat → Option α) (w : β → List Nat) (v : β → α)
    (ds : List β) (rest : List Nat) (hw : ∀ d ∈ ds, (w d).length = k ∧ f (w d) = some (v d)) :
    readAll k f (ds.flatMap w ++ rest) = (readAll k f rest).map (ds.map v ++ ·) := by
  induction ds with
  | nil =>
    show _ = Option.map (fun x => [] ++ x) _
    simp
  | cons d ds ih =>
    obtain ⟨hk, hf⟩ := hw d (by simp)
    have e : (d :: ds).flatMap w ++ rest = w d ++ (ds.flatMap w ++ rest) := by simp
    have hne : w d ≠ [] := by intro h; rw [h] at hk; simp at hk; omega
    have ih := ih (fun x hx => hw x (by simp [hx]))
    rw [e, readAll, readAllFrom_group k f [] (w d) _ hne (by simpa using hk)]
    unfold readAll at ih
    rw [ih, List.nil_append, hf]
    unfold readAll
    cases readAllFrom k f [] rest <;> rfl

theorem readAll_flatMap {α β : Type} (k : Nat) (hk0 : 0 < k) (f : List Nat → Option α) (w : β → List Nat) (v : β → α)
    (ds : List β) (hw : ∀ d ∈ ds, (w d).length = k ∧ f (w d) = some (v d)) :
    readAll k f (ds.flatMap w) = some (ds.map v) := by
  have := readAll_append k hk0 f w v ds [] hw
  rw [List.append_nil] at this
  rw [this]
  simp [readAll, readAllFrom]

theorem flatMap_length_eq {α β : Type} (k : Nat) (f : α → List β) (l : List α) (h : ∀ a ∈ l, (f a).length = k) :
    (l.flatMap f).length = k * l.length := by
  induction l with
  | nil => rfl
  | cons a l ih =>
    rw [List.flatMap_cons, List.length_append, h a (by simp), ih (fun x hx => h x (by simp [hx])), List.length_cons,
      Nat.mul_succ, Nat.add_comm]

end Spec
