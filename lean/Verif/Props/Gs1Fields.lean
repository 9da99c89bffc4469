import Verif.Spec.Gs1Fields
import Verif.Props.Code128Ascii

/-!
# C94: GS1-128 fields
-/

set_option autoImplicit false

namespace Barcoders
open Spec

theorem gs1Fixed_append (f : List Char) (h : 2 ≤ f.length) (r : List Char) : gs1Fixed (f ++ r) = gs1Fixed f := by
  rw [gs1Fixed, gs1Fixed, List.take_append_of_le_length h]

theorem gs1Complete_length (f : List Char) (h : gs1Complete f = true) : 2 < f.length := by
  have hall : ∀ p ∈ gs1Lengths, 2 < p.2 := by decide
  have hlook : ∀ (l : List (List Char × Nat)) k n, l.lookup k = some n → (k, n) ∈ l := by
    intro l k n
    induction l with
    | nil => simp
    | cons p l ih =>
      obtain ⟨a, m⟩ := p
      rw [List.lookup_cons]
      intro h
      by_cases hk : k == a
      · rw [hk] at h
        simp only [Option.some.injEq] at h
        rw [beq_iff_eq] at hk
        subst hk; subst h
        simp
      · rw [Bool.not_eq_true] at hk
        rw [hk] at h
        exact List.mem_cons_of_mem _ (ih h)
  rw [gs1Complete, Bool.and_eq_true] at h
  cases hf : gs1Fixed f with
  | none => rw [hf] at h; simpa using h.2
  | some n =>
    rw [hf] at h
    have h2 : f.length = n := by simpa using h.2
    have := hall _ (hlook _ _ _ hf)
    simp only at this
    omega

/-- Reading goes on inside a field. -/
theorem gs1_inside (f : List Char) (hc : gs1Complete f = true) (hp : ∀ c ∈ f, c ≠ '\u001d') :
    ∀ (b a : List Char), f = a ++ b → ∀ rest, gs1FieldsFrom a (b ++ rest) = gs1FieldsFrom f rest := by
  intro b
  induction b with
  | nil => intro a h rest; rw [h, List.append_nil]; rfl
  | cons c b ih =>
    intro a h rest
    rw [List.cons_append, gs1FieldsFrom, if_neg (hp c (by rw [h]; simp)), if_neg, ih (a ++ [c]) (by rw [h]; simp)]
    intro hfix
    have hlt : a.length < f.length := by rw [h]; simp
    by_cases h2 : 2 ≤ a.length
    · rw [gs1Complete, Bool.and_eq_true] at hc
      have hff : gs1Fixed f = some a.length := by rw [h, gs1Fixed_append a h2, hfix]
      rw [hff] at hc
      have : f.length = a.length := by simpa using hc.2
      omega
    · have : ∀ a : List Char, a.length < 2 → gs1Fixed a = none := by
        intro a ha
        match a, ha with
        | [], _ => decide
        | [x], _ =>
          simp only [gs1Fixed, gs1Lengths, List.take, List.lookup]
          simp
        | _ :: _ :: _, h => simp at h; omega
      rw [this a (by omega)] at hfix
      cases hfix

/-- Joined fields are read back. -/
theorem gs1_join (fs : List (List Char)) (h : ∀ f ∈ fs, gs1Complete f = true ∧ ∀ c ∈ f, c ≠ '\u001d') :
    gs1Fields (gs1Join '\u001d' fs) = some fs := by
  have key : ∀ fs : List (List Char), (∀ f ∈ fs, gs1Complete f = true ∧ ∀ c ∈ f, c ≠ '\u001d') → ∀ f, gs1Complete f = true →
      (∀ c ∈ f, c ≠ '\u001d') → gs1FieldsFrom [] (gs1Join '\u001d' (f :: fs)) = some (f :: fs) := by
    intro fs
    induction fs with
    | nil =>
      intro _ f hc hp
      rw [gs1Join, ← List.append_nil f, gs1_inside f hc hp f [] rfl, gs1FieldsFrom, if_neg, if_pos hc, List.append_nil]
      rintro rfl
      have := gs1Complete_length _ hc
      simp at this
    | cons g fs ih =>
      intro hfs f hc hp
      have hg := hfs g (by simp)
      have ihg := ih (fun f hf => hfs f (by simp [hf])) g hg.1 hg.2
      rw [gs1Join, List.append_assoc, gs1_inside f hc hp f [] rfl]
      · by_cases hfix : gs1Fixed f = none
        · rw [if_pos hfix, List.singleton_append, gs1FieldsFrom, if_pos rfl, if_pos hc, ihg]; rfl
        · rw [if_neg hfix, List.nil_append]
          obtain ⟨c, r, hr⟩ : ∃ c r, gs1Join '\u001d' (g :: fs) = c :: r ∧ c ∈ g := by
            obtain ⟨c, g', rfl⟩ := List.exists_cons_of_ne_nil (l := g) (by
              rintro rfl
              have := gs1Complete_length _ hg.1
              simp at this)
            cases fs with
            | nil => exact ⟨c, g', rfl, by simp⟩
            | cons f fs => exact ⟨c, _, by rw [gs1Join]; · rfl
                                           · simp, by simp⟩
          have hlen : gs1Fixed f = some f.length := by
            cases hf : gs1Fixed f with
            | none => exact absurd hf hfix
            | some n =>
              rw [gs1Complete, Bool.and_eq_true, hf] at hc
              have : f.length = n := by simpa using hc.2
              rw [this]
          have hnot : gs1Fixed ([] : List Char) ≠ some ([] : List Char).length := by decide
          rw [hr.1] at ihg ⊢
          rw [gs1FieldsFrom, if_neg (hg.2 c hr.2), if_neg hnot, List.nil_append] at ihg
          rw [gs1FieldsFrom, if_neg (hg.2 c hr.2), if_pos hlen, if_pos hc, ihg]
          rfl
      · simp
  cases fs with
  | nil => rfl
  | cons f fs =>
    exact key fs (fun f hf => h f (by simp [hf])) f (h f (by simp)).1 (h f (by simp)).2

theorem gs1Join_cons (c : Char) (f g : List Char) (fs : List (List Char)) :
    gs1Join c (f :: g :: fs) = f ++ (if gs1Fixed f = none then [c] else []) ++ gs1Join c (g :: fs) := by
  rw [gs1Join]
  simp

theorem printable_not_gs (c : Char) (h : 32 ≤ c.toNat ∧ c.toNat < 127) : c ≠ '\u001d' := by
  rintro rfl
  revert h
  decide

/-- FNC1 behind the fields is transmitted as GS. -/
theorem gs1_message (fs : List (List Char)) (h : ∀ f ∈ fs, ∀ c ∈ f, c.toNat < 128) :
    plainMessage (gs1Join fnc1 fs) = gs1Join '\u001d' fs := by
  have key : ∀ fs : List (List Char), (∀ f ∈ fs, ∀ c ∈ f, c.toNat < 128) → ∀ f : List Char, (∀ c ∈ f, c.toNat < 128) →
      plainMessage (gs1Join fnc1 (f :: fs)) = gs1Join '\u001d' (f :: fs) := by
    intro fs
    induction fs with
    | nil => intro _ f hf; exact plainMessage_asciis f hf
    | cons g fs ih =>
      intro hfs f hf
      rw [gs1Join_cons, gs1Join_cons, plainMessage_append, plainMessage_append, plainMessage_asciis f hf,
        ih (fun f hf => hfs f (by simp [hf])) g (hfs g (by simp))]
      congr 2
      split
      · decide
      · rfl
  cases fs with
  | nil => rfl
  | cons f fs => exact key fs (fun f hf => h f (by simp [hf])) f (h f (by simp))

/-- C94. Whichever code sets are used to write it: if the message behind the first FNC1 consists of well-formed fields, a
GS1-128 reader gets these fields. -/
theorem C94_gs1 (b : Build) (set : CodeSet) (r : List Char) (fs : List (List Char)) (hf : ∀ f ∈ fs, Gs1Field f)
    (hs : Code128StrictForm (set.char :: fnc1 :: r)) (h1 : shiftChar ∉ r) (h4 : fnc4 ∉ r) (hl : r.length ≤ 6487)
    (hm : plainMessage r = gs1Join '\u001d' fs) :
    ∃ x ms, Code128.new (set.char :: fnc1 :: r) = .ok x ∧ Code128.encode b x = .ok ms ∧ scanGs1 ms = some fs := by
  obtain ⟨x, ms, e1, e2, e3⟩ := C28_code128_scan_partial b _ hs (by simp; omega)
  have hset : set.char ≠ shiftChar ∧ set.char ≠ fnc4 := by cases set <;> decide
  obtain ⟨ms', e4, e5⟩ := C55_code128_plain b _ x e1 (by simp; omega) hs
    (by
      intro h
      rcases List.mem_cons.mp h with h | h
      · exact hset.1 h.symm
      · rcases List.mem_cons.mp h with h | h
        · exact absurd h (by decide)
        · exact h1 h)
    (by
      intro h
      rcases List.mem_cons.mp h with h | h
      · exact hset.2 h.symm
      · rcases List.mem_cons.mp h with h | h
        · exact absurd h (by decide)
        · exact h4 h)
  rw [e2, Outcome.ok.injEq] at e4
  subst e4
  refine ⟨x, ms, e1, e2, ?_⟩
  rw [List.tail_cons, List.head?_cons, if_pos rfl, List.tail_cons, hm] at e5
  rw [scanGs1, e3]
  simp only
  rw [if_pos trivial, e5, Option.bind_some, gs1_join fs (fun f h => ⟨(hf f h).1, fun c hc => printable_not_gs c ((hf f h).2 c hc)⟩)]

-- an expiry date in set C, then a lot number that goes on in set B
example : ∃ x ms, Code128.new ('Ć' :: fnc1 :: "1726010110Ɓa".toList) = .ok x ∧ Code128.encode .debug x = .ok ms ∧
    scanGs1 ms = some ["17260101".toList, "10a".toList] := ⟨_, _, rfl, rfl, by decide +kernel⟩

theorem gs1Join_members (fs : List (List Char)) : ∀ c ∈ gs1Join fnc1 fs, c = fnc1 ∨ ∃ f ∈ fs, c ∈ f := by
  have key : ∀ (fs : List (List Char)) (f : List Char), ∀ c ∈ gs1Join fnc1 (f :: fs), c = fnc1 ∨ ∃ g ∈ f :: fs, c ∈ g := by
    intro fs
    induction fs with
    | nil => intro f c hc; exact Or.inr ⟨f, by simp, hc⟩
    | cons g fs ih =>
      intro f c hc
      rw [gs1Join_cons, List.mem_append, List.mem_append] at hc
      rcases hc with (hc | hc) | hc
      · exact Or.inr ⟨f, by simp, hc⟩
      · split at hc
        · exact Or.inl (by simpa using hc)
        · cases hc
      · rcases ih g c hc with h | ⟨k, hk, hc⟩
        · exact Or.inl h
        · exact Or.inr ⟨k, List.mem_cons_of_mem _ hk, hc⟩
  cases fs with
  | nil => intro c hc; cases hc
  | cons f fs => exact key fs f

/-- The characters of fields and separators are neither SHIFT nor FNC4. -/
theorem gs1_no_specials (fs : List (List Char)) (h : ∀ f ∈ fs, ∀ c ∈ f, c.toNat < 128) :
    shiftChar ∉ gs1Join fnc1 fs ∧ fnc4 ∉ gs1Join fnc1 fs := by
  constructor
  · intro hm
    rcases gs1Join_members fs _ hm with h' | ⟨f, hf, hc⟩
    · exact absurd h' (by decide)
    · have := h f hf _ hc; exact absurd this (by decide)
  · intro hm
    rcases gs1Join_members fs _ hm with h' | ⟨f, hf, hc⟩
    · exact absurd h' (by decide)
    · have := h f hf _ hc; exact absurd this (by decide)

/-- C94. Fields of printable ASCII characters, written after `Ɓ` and `Ź`, with `Ź` as the separator. -/
theorem C94_gs1_text (b : Build) (fs : List (List Char)) (hf : ∀ f ∈ fs, Gs1Field f) (hl : (gs1Join fnc1 fs).length ≤ 6487) :
    ∃ x ms, Code128.new ('Ɓ' :: fnc1 :: gs1Join fnc1 fs) = .ok x ∧ Code128.encode b x = .ok ms ∧ scanGs1 ms = some fs := by
  have ha : ∀ f ∈ fs, ∀ c ∈ f, c.toNat < 128 := fun f h c hc => by have := (hf f h).2 c hc; omega
  have strict : ∀ t : List Char, (∀ c ∈ t, code128Single .B c) → Code128Strict .B t := by
    intro t hs
    induction t with
    | nil => exact .nil _
    | cons c t ih => exact .single .B c t (hs c (by simp)) (ih (fun c hc => hs c (by simp [hc])))
  obtain ⟨n1, n4⟩ := gs1_no_specials fs ha
  refine C94_gs1 b .B _ fs hf ⟨.B, _, rfl, strict _ (fun c hc => ?_)⟩ n1 n4 hl (gs1_message fs ha)
  rcases List.mem_cons.mp hc with rfl | hc
  · exact Or.inr (Or.inr (Or.inl rfl))
  · rcases gs1Join_members fs c hc with rfl | ⟨f, h, hcf⟩
    · exact Or.inr (Or.inr (Or.inl rfl))
    · exact Or.inl ((hf f h).2 c hcf)

example : ∃ x ms, Code128.new ('Ɓ' :: fnc1 :: gs1Join fnc1 ["10AB1".toList, "21X".toList]) = .ok x ∧
    Code128.encode .debug x = .ok ms ∧ scanGs1 ms = some ["10AB1".toList, "21X".toList] := ⟨_, _, rfl, rfl, by decide +kernel⟩

/-- C94. Fields of digits, of even length, written after `Ć` and `Ź`: two digits per symbol. -/
theorem C94_gs1_digits (b : Build) (fs : List (List Char)) (hf : ∀ f ∈ fs, Gs1Field f)
    (hd : ∀ f ∈ fs, AllDigits f ∧ f.length % 2 = 0) (hl : (gs1Join fnc1 fs).length ≤ 6487) :
    ∃ x ms, Code128.new ('Ć' :: fnc1 :: gs1Join fnc1 fs) = .ok x ∧ Code128.encode b x = .ok ms ∧ scanGs1 ms = some fs := by
  have ha : ∀ f ∈ fs, ∀ c ∈ f, c.toNat < 128 := fun f h c hc => by have := (hf f h).2 c hc; omega
  have app : ∀ (n : Nat) (f t : List Char), f.length = 2 * n → AllDigits f → Code128Strict .C t → Code128Strict .C (f ++ t) := by
    intro n
    induction n with
    | zero =>
      intro f t h _ ht
      obtain rfl : f = [] := List.length_eq_zero_iff.mp (by omega)
      exact ht
    | succ n ih =>
      intro f t h hd ht
      match f, h with
      | d :: e :: f, h =>
        exact .pair d e (f ++ t) (hd d (by simp)) (hd e (by simp))
          (ih f t (by simp at h; omega) (fun c hc => hd c (by simp [hc])) ht)
  have strict : ∀ fs : List (List Char), (∀ f ∈ fs, AllDigits f ∧ f.length % 2 = 0) → ∀ f : List Char,
      AllDigits f ∧ f.length % 2 = 0 → Code128Strict .C (gs1Join fnc1 (f :: fs)) := by
    intro fs
    induction fs with
    | nil =>
      intro _ f hf
      have := app (f.length / 2) f [] (by omega) hf.1 (.nil _)
      rwa [List.append_nil] at this
    | cons g fs ih =>
      intro hfs f hf
      rw [gs1Join_cons, List.append_assoc]
      refine app (f.length / 2) f _ (by omega) hf.1 ?_
      have := ih (fun f hf => hfs f (by simp [hf])) g (hfs g (by simp))
      split
      · exact .single .C fnc1 _ rfl this
      · exact this
  obtain ⟨n1, n4⟩ := gs1_no_specials fs ha
  refine C94_gs1 b .C _ fs hf ⟨.C, _, rfl, .single .C fnc1 _ rfl ?_⟩ n1 n4 hl (gs1_message fs ha)
  cases fs with
  | nil => exact .nil _
  | cons f fs => exact strict fs (fun f hf => hd f (by simp [hf])) f (hd f (by simp))

example : ∃ x ms, Code128.new ('Ć' :: fnc1 :: gs1Join fnc1 ["1012".toList, "2134".toList]) = .ok x ∧
    Code128.encode .debug x = .ok ms ∧ scanGs1 ms = some ["1012".toList, "2134".toList] := ⟨_, _, rfl, rfl, by decide +kernel⟩

/-- C94. With a field of odd length in front of a separator this goes wrong unnoticed: the text is accepted, but the library
draws the separator before the digit it should follow. Lot `123` and identifier 710 with `55` become lot `12` and identifier
37 with `1055`. -/
theorem C94_odd_field : ∃ x ms, Gs1Field "10123".toList ∧ Gs1Field "71055".toList ∧
    Code128.new ('Ć' :: fnc1 :: gs1Join fnc1 ["10123".toList, "71055".toList]) = .ok x ∧ Code128.encode .debug x = .ok ms ∧
    scanGs1 ms = some ["1012".toList, "371055".toList] := by
  refine ⟨_, _, ⟨by decide, by decide⟩, ⟨by decide, by decide⟩, rfl, rfl, by decide +kernel⟩

/-- An article number, a lot and a date. -/
example : ∃ x ms, Code128.new "ƁŹ010931234567890710ABCŹ17261231".toList = .ok x ∧ Code128.encode .debug x = .ok ms ∧
    scanGs1 ms = some ["0109312345678907".toList, "10ABC".toList, "17261231".toList] :=
  ⟨_, _, rfl, rfl, by decide +kernel⟩

/-- The same without the leading FNC1 is no GS1-128 symbol. -/
example : ∃ x ms, Code128.new "Ɓ010931234567890710ABCŹ17261231".toList = .ok x ∧ Code128.encode .debug x = .ok ms ∧
    scanGs1 ms = none := ⟨_, _, rfl, rfl, by decide +kernel⟩

end Barcoders
