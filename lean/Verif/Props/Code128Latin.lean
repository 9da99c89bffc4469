import Verif.Spec.Code128Extended
import Verif.Props.Code128Ascii

/-!
# C80: Latin-1 text in Code 128
-/

set_option autoImplicit false

namespace Barcoders
open Spec

theorem extended_text : ∀ set shift first once latch, ∀ v < 103, (shift = true → set ≠ .C) →
    (code128Text set v = none) ∨
    (∃ c, code128Text set v = some [c] ∧
      extendedSymbol ⟨⟨set, shift, first⟩, once, latch⟩ v = extendedNote ⟨⟨set, shift, first⟩, once, latch⟩ c) ∨
    (∃ c d, code128Text set v = some [c, d] ∧ extendedSymbol ⟨⟨set, shift, first⟩, once, latch⟩ v =
      (extendedNote ⟨⟨set, shift, first⟩, once, latch⟩ c).bind fun p => (extendedNote p.2 d).map (fun q => (p.1 ++ q.1, q.2))) := by
  have key : ∀ set shift first once latch, ∀ v < 103, (shift = true → set ≠ .C) →
      (match code128Text set v with
      | none => true
      | some [c] => decide (extendedSymbol ⟨⟨set, shift, first⟩, once, latch⟩ v =
          extendedNote ⟨⟨set, shift, first⟩, once, latch⟩ c)
      | some [c, d] => decide (extendedSymbol ⟨⟨set, shift, first⟩, once, latch⟩ v =
          (extendedNote ⟨⟨set, shift, first⟩, once, latch⟩ c).bind fun p =>
            (extendedNote p.2 d).map (fun q => (p.1 ++ q.1, q.2)))
      | _ => false) = true := by
    intro set shift first once latch
    cases set <;> cases shift <;> cases first <;> cases once <;> cases latch <;> decide +kernel
  intro set shift first once latch v hv hs
  have := key set shift first once latch v hv hs
  split at this
  · rename_i h; exact Or.inl h
  · rename_i c h; exact Or.inr (Or.inl ⟨c, h, of_decide_eq_true this⟩)
  · rename_i c d h; exact Or.inr (Or.inr ⟨c, d, h, of_decide_eq_true this⟩)
  · cases this

theorem extended_next : ∀ set shift first once latch, ∀ v < 103, (shift = true → set ≠ .C) → ∀ p,
    extendedSymbol ⟨⟨set, shift, first⟩, once, latch⟩ v = some p → code128Text set v ≠ none →
    p.2.reader.set = code128Next set v ∧ (p.2.reader.shift = true → p.2.reader.set ≠ .C) := by
  have key : ∀ set shift first once latch, ∀ v < 103, (shift = true → set ≠ .C) →
      (match extendedSymbol ⟨⟨set, shift, first⟩, once, latch⟩ v with
      | none => true
      | some p => decide (code128Text set v ≠ none →
          p.2.reader.set = code128Next set v ∧ (p.2.reader.shift = true → p.2.reader.set ≠ .C))) = true := by
    intro set shift first once latch
    cases set <;> cases shift <;> cases first <;> cases once <;> cases latch <;> decide +kernel
  intro set shift first once latch v hv hs p hp ht
  have := key set shift first once latch v hv hs
  rw [hp] at this
  exact of_decide_eq_true this ht

theorem extended_decode (vs : List Nat) (st : ExtendedState) (r : List Char) (hv : ∀ v ∈ vs, v < 103)
    (hs : st.reader.shift = true → st.reader.set ≠ .C) (h : code128Decode st.reader.set vs = some r) :
    extendedAll extendedSymbol st vs = extendedAll extendedNote st r := by
  induction vs generalizing st r with
  | nil =>
    simp only [code128Decode, Option.some.injEq] at h
    subst h
    rfl
  | cons v vs ih =>
    obtain ⟨⟨set, shift, first⟩, once, latch⟩ := st
    simp only [code128Decode, Option.bind_eq_bind, Option.bind_eq_some_iff, Option.some.injEq] at h
    obtain ⟨t, ht, a, ha, rfl⟩ := h
    have hv' := fun x hx => hv x (List.mem_cons_of_mem _ hx)
    have hn := extended_next set shift first once latch v (hv v (by simp)) hs
    rcases extended_text set shift first once latch v (hv v (by simp)) hs with h0 | ⟨c, h1, h2⟩ | ⟨c, d, h1, h2⟩
    · rw [h0] at ht; cases ht
    · rw [h1, Option.some.injEq] at ht
      subst ht
      rw [List.singleton_append, extendedAll, extendedAll, ← h2]
      cases hm : extendedSymbol ⟨⟨set, shift, first⟩, once, latch⟩ v with
      | none => rfl
      | some p =>
        obtain ⟨n1, n2⟩ := hn _ hm (by rw [h1]; simp)
        rw [Option.bind_some, Option.bind_some, ih p.2 a hv' n2 (by rw [n1]; exact ha)]
    · rw [h1, Option.some.injEq] at ht
      subst ht
      rw [List.cons_append, List.singleton_append, extendedAll, extendedAll]
      cases hm : extendedSymbol ⟨⟨set, shift, first⟩, once, latch⟩ v with
      | none =>
        rw [hm] at h2
        cases hc : extendedNote ⟨⟨set, shift, first⟩, once, latch⟩ c with
        | none => rfl
        | some p =>
          rw [hc, Option.bind_some] at h2
          rw [Option.bind_none, Option.bind_some, extendedAll]
          cases hd : extendedNote p.2 d with
          | none => rfl
          | some q => rw [hd] at h2; cases h2
      | some q =>
        obtain ⟨n1, n2⟩ := hn _ hm (by rw [h1]; simp)
        rw [Option.bind_some, ih q.2 a hv' n2 (by rw [n1]; exact ha)]
        rw [hm] at h2
        cases hc : extendedNote ⟨⟨set, shift, first⟩, once, latch⟩ c with
        | none => rw [hc] at h2; cases h2
        | some p =>
          rw [hc, Option.bind_some] at h2
          rw [Option.bind_some, extendedAll]
          cases hd : extendedNote p.2 d with
          | none => rw [hd] at h2; cases h2
          | some q' =>
            rw [hd, Option.map_some, Option.some.injEq] at h2
            subst h2
            rw [Option.bind_some]
            cases extendedAll extendedNote q'.2 a <;> simp

/-- What is received of a string in strict form. -/
theorem extended_received (b : Build) (set : CodeSet) (r : List Char) (hs : Code128Strict set r) (hl : r.length ≤ 6488) :
    ∃ x ms, Code128.new (set.char :: r) = .ok x ∧ Code128.encode b x = .ok ms ∧
      receiveExtended ms = extendedAll extendedNote ⟨⟨set, false, true⟩, false, false⟩ r := by
  have hf : Code128StrictForm (set.char :: r) := ⟨set, r, rfl, hs⟩
  obtain ⟨x, ms, h, he, hscan⟩ := C28_code128_scan_partial b _ hf (by simp; omega)
  refine ⟨x, ms, h, he, ?_⟩
  simp only [scanCode128, Option.bind_eq_bind, Option.bind_eq_some_iff, Option.some.injEq] at hscan
  obtain ⟨vs, h1, ⟨start, data⟩, h2, set', h3, t, h4, h5⟩ := hscan
  simp only [List.cons.injEq] at h5
  obtain ⟨h5, rfl⟩ := h5
  have : set' = set := by revert h5; cases set <;> cases set' <;> decide
  subst this
  have hr : receiveExtended ms = extendedAll extendedSymbol ⟨⟨set', false, true⟩, false, false⟩ data := by
    simp only [receiveExtended, h1, Option.bind_eq_bind, Option.bind_some, h2, h3]
  rw [hr]
  exact extended_decode data _ t (decode_lt _ _ _ h4) (by simp) h4

/-- C55 with FNC4: a scanner that knows FNC4 transmits the message the (regrouped) string stands for, with 128 added to the
characters FNC4 extends. -/
theorem C55_code128_extended (b : Build) (s : List Char) (x : Code128.Code128) (h : Code128.new s = .ok x)
    (hl : s.length ≤ 6489) :
    ∃ ms, Code128.encode b x = .ok ms ∧ receiveExtended ms = extendedMessage (code128Regroup s) := by
  obtain ⟨ms, he, hscan⟩ := C28_code128_scan_regrouped_partial b s x h hl
  refine ⟨ms, he, ?_⟩
  simp only [scanCode128, Option.bind_eq_bind, Option.bind_eq_some_iff, Option.some.injEq] at hscan
  obtain ⟨vs, h1, ⟨start, data⟩, h2, set, h3, t, h4, h5⟩ := hscan
  have hr : receiveExtended ms = extendedAll extendedSymbol ⟨⟨set, false, true⟩, false, false⟩ data := by
    simp only [receiveExtended, h1, Option.bind_eq_bind, Option.bind_some, h2, h3]
  rw [hr, ← h5, extended_decode data _ t (decode_lt _ _ _ h4) (by simp) h4]
  cases set <;> rfl

example : ∃ x ms, Code128.new ['Ɓ', 'c', 'a', 'f', fnc4, 'i', fnc4, fnc4, 'i', fnc4, '!'] = .ok x ∧
    Code128.encode .debug x = .ok ms ∧ receiveExtended ms = some "caféé!".toList ∧ receiveCode128 ms = none :=
  ⟨_, _, rfl, rfl, by decide +kernel, by decide +kernel⟩

/-- Characters of the notation that are data of sets A and B. -/
theorem extendedNote_ascii (set : CodeSet) (hset : set ≠ .C) (first once latch : Bool) (c : Char) (h : c.toNat < 128) :
    extendedNote ⟨⟨set, false, first⟩, once, latch⟩ c =
      some ([if once ≠ latch then extendChar c else c], ⟨⟨set, false, false⟩, false, latch⟩) := by
  obtain ⟨h1, h2, h3, h4, h5, h6, h7, h8, h9⟩ := ascii_not_special c h
  have hm : messageChar ⟨set, false, first⟩ c = some ([c], ⟨set, false, false⟩) := by
    unfold messageChar
    simp [h1, h2, h3, h4, h5, h6, h7, h8, h9]
  unfold extendedNote
  rw [if_neg (by simp [h7]), hm]
  simp only [Bool.false_eq_true, if_false]
  rw [if_neg (by simp [h1, h2, h3, h4, h5, h6]), if_pos hset]
  cases once <;> cases latch <;> simp

/-- Readers differ by `first` only in the treatment of FNC1. -/
theorem extendedAll_first (st : ExtendedState) (r : List Char) (h : r.head? ≠ some fnc1) :
    extendedAll extendedNote ⟨⟨st.reader.set, st.reader.shift, true⟩, st.once, st.latch⟩ r =
      extendedAll extendedNote ⟨⟨st.reader.set, st.reader.shift, false⟩, st.once, st.latch⟩ r := by
  cases r with
  | nil => rfl
  | cons c r =>
    have hc : c ≠ fnc1 := fun e => h (by simp [e])
    have : messageChar ⟨st.reader.set, st.reader.shift, true⟩ c = messageChar ⟨st.reader.set, st.reader.shift, false⟩ c := by
      unfold messageChar
      simp [hc]
    rw [extendedAll, extendedAll, extendedNote, extendedNote, this]

/-- A step that leaves the reader ready in set B. -/
theorem extended_inB (c : Char) (h : c.toNat < 256) (r : List Char) :
    extendedAll extendedNote ⟨⟨.B, false, false⟩, false, false⟩ (latinInB c ++ r) =
      (extendedAll extendedNote ⟨⟨.B, false, false⟩, false, false⟩ r).map (c :: ·) := by
  have toA : ∀ r, extendedAll extendedNote ⟨⟨.B, false, false⟩, false, false⟩ ('À' :: r) =
      extendedAll extendedNote ⟨⟨.A, false, false⟩, false, false⟩ r := by
    intro r
    rw [extendedAll, show extendedNote ⟨⟨.B, false, false⟩, false, false⟩ 'À' = some ([], ⟨⟨.A, false, false⟩, false, false⟩)
      by decide]
    simp
  have toB : ∀ r, extendedAll extendedNote ⟨⟨.A, false, false⟩, false, false⟩ ('Ɓ' :: r) =
      extendedAll extendedNote ⟨⟨.B, false, false⟩, false, false⟩ r := by
    intro r
    rw [extendedAll, show extendedNote ⟨⟨.A, false, false⟩, false, false⟩ 'Ɓ' = some ([], ⟨⟨.B, false, false⟩, false, false⟩)
      by decide]
    simp
  have four : ∀ set r, set ≠ CodeSet.C → extendedAll extendedNote ⟨⟨set, false, false⟩, false, false⟩ (fnc4 :: r) =
      extendedAll extendedNote ⟨⟨set, false, false⟩, true, false⟩ r := by
    intro set r hset
    rw [extendedAll, show extendedNote ⟨⟨set, false, false⟩, false, false⟩ fnc4 =
      some ([], ⟨⟨set, false, false⟩, true, false⟩) by cases set <;> first | decide | exact absurd rfl hset]
    simp
  have data : ∀ set once r (c : Char), set ≠ CodeSet.C → c.toNat < 128 →
      extendedAll extendedNote ⟨⟨set, false, false⟩, once, false⟩ (c :: r) =
      (extendedAll extendedNote ⟨⟨set, false, false⟩, false, false⟩ r).map ((if once then extendChar c else c) :: ·) := by
    intro set once r c hset hc
    rw [extendedAll, extendedNote_ascii set hset false once false c hc]
    cases once <;> simp
  have del : ∀ once r, extendedAll extendedNote ⟨⟨.B, false, false⟩, once, false⟩ (delChar :: r) =
      (extendedAll extendedNote ⟨⟨.B, false, false⟩, false, false⟩ r).map
        ((if once then Char.ofNat 255 else Char.ofNat 127) :: ·) := by
    intro once r
    have : extendedNote ⟨⟨.B, false, false⟩, once, false⟩ delChar =
        some ([if once then Char.ofNat 255 else Char.ofNat 127], ⟨⟨.B, false, false⟩, false, false⟩) := by
      cases once <;> decide
    rw [extendedAll, this]
    simp
  have low : ∀ n, n < 128 → (Char.ofNat n).toNat = n := by decide
  have back : 128 ≤ c.toNat → extendChar (Char.ofNat (c.toNat - 128)) = c := by
    intro hc
    rw [extendChar, low _ (by omega)]
    exact toNat_eq c _ (by omega)
  unfold latinInB asciiInB
  split
  · split
    · simp only [List.cons_append, List.nil_append]
      rw [toA, data .A false _ c (by decide) (by omega), toB]
      simp
    · split
      · next h =>
        rw [show ['÷'] ++ r = delChar :: r from rfl, del, toNat_eq c 127 h]
        simp
      · simp only [List.cons_append, List.nil_append]
        rw [data .B false _ c (by decide) (by omega)]
        simp
  · split
    · simp only [List.cons_append, List.nil_append]
      rw [toA, four .A _ (by decide), data .A true _ _ (by decide) (by rw [low _ (by omega)]; omega), toB]
      simp [back (by omega)]
    · split
      · next h =>
        simp only [List.cons_append, List.nil_append]
        rw [four .B _ (by decide), del, if_pos rfl, toNat_eq c 255 h]
      · simp only [List.cons_append, List.nil_append]
        rw [four .B _ (by decide), data .B true _ _ (by decide) (by rw [low _ (by omega)]; omega)]
        simp [back (by omega)]

theorem strict_latin (t : List Char) (h : ∀ c ∈ t, c.toNat < 256) : Code128Strict .B (t.flatMap latinInB) := by
  have low : ∀ n, n < 128 → (Char.ofNat n).toNat = n := by decide
  induction t with
  | nil => exact .nil _
  | cons c t ih =>
    have hc := h c (by simp)
    have ih := ih (fun c hc => h c (by simp [hc]))
    rw [List.flatMap_cons]
    unfold latinInB asciiInB
    split
    · split
      · exact .switch .B .A _ (by decide) (.single .A c _ (Or.inl (by omega)) (.switch .A .B _ (by decide) ih))
      · split
        · exact .single .B '÷' _ (Or.inr (Or.inl rfl)) ih
        · exact .single .B c _ (Or.inl (by omega)) ih
    · split
      · exact .switch .B .A _ (by decide) (.single .A fnc4 _ (by decide)
          (.single .A _ _ (Or.inl (by rw [low _ (by omega)]; omega)) (.switch .A .B _ (by decide) ih)))
      · split
        · exact .single .B fnc4 _ (by decide) (.single .B delChar _ (by decide) ih)
        · exact .single .B fnc4 _ (by decide) (.single .B _ _ (Or.inl (by rw [low _ (by omega)]; omega)) ih)

/-- C80. Every text of up to 1622 characters below 256 can be put in a Code 128 symbol; a scanner that knows FNC4 transmits
exactly the text. -/
theorem C80_latin (b : Build) (t : List Char) (h : ∀ c ∈ t, c.toNat < 256) (hl : t.length ≤ 1622) :
    ∃ x ms, Code128.new (latinAsCode128 t) = .ok x ∧ Code128.encode b x = .ok ms ∧ receiveExtended ms = some t := by
  have hlen : (t.flatMap latinInB).length ≤ 4 * t.length := by
    clear hl h
    induction t with
    | nil => simp
    | cons c t ih =>
      rw [List.flatMap_cons, List.length_append, List.length_cons]
      have : (latinInB c).length ≤ 4 := by
        unfold latinInB asciiInB
        repeat' split
        all_goals simp
      omega
  obtain ⟨x, ms, h1, h2, h3⟩ := extended_received b .B _ (strict_latin t h) (by omega)
  refine ⟨x, ms, h1, h2, ?_⟩
  rw [h3, extendedAll_first ⟨⟨.B, false, false⟩, false, false⟩]
  · clear h1 h2 h3 hl hlen x ms
    induction t with
    | nil => rfl
    | cons c t ih =>
      rw [List.flatMap_cons, extended_inB c (h c (by simp))]
      have := ih (fun c hc => h c (by simp [hc]))
      simp only [] at this ⊢
      rw [this]
      rfl
  · cases t with
    | nil => simp
    | cons c t =>
      rw [List.flatMap_cons]
      unfold latinInB asciiInB
      repeat' split
      all_goals simp
      all_goals first
        | decide
        | (rintro rfl; revert h; intro h; have := h fnc1 (by simp); revert this; decide)

example : ∃ x ms, Code128.new (latinAsCode128 "né".toList) = .ok x ∧ Code128.encode .debug x = .ok ms ∧
    receiveExtended ms = some "né".toList := ⟨_, _, rfl, rfl, by decide +kernel⟩

/-- C80. A text of characters from U+00A0 to U+00FE takes one symbol per character after two FNC4. -/
theorem C80_latched (b : Build) (t : List Char) (h : ∀ c ∈ t, 160 ≤ c.toNat ∧ c.toNat < 255) (hl : t.length ≤ 6486) :
    ∃ x ms, Code128.new (['Ɓ', fnc4, fnc4] ++ t.map (fun c => Char.ofNat (c.toNat - 128))) = .ok x ∧
      Code128.encode b x = .ok ms ∧ receiveExtended ms = some t ∧ ms.length = 11 * t.length + 57 := by
  have low : ∀ n, n < 128 → (Char.ofNat n).toNat = n := by decide
  have hstrict : Code128Strict .B (t.map (fun c => Char.ofNat (c.toNat - 128))) := by
    clear hl
    induction t with
    | nil => exact .nil _
    | cons c t ih =>
      have hc := h c (by simp)
      exact .single .B _ _ (Or.inl (by rw [low _ (by omega)]; omega)) (ih (fun c hc => h c (by simp [hc])))
  have hs : Code128Strict .B (fnc4 :: fnc4 :: t.map (fun c => Char.ofNat (c.toNat - 128))) :=
    .single .B fnc4 _ (by decide) (.single .B fnc4 _ (by decide) hstrict)
  obtain ⟨x, ms, h1, h2, h3⟩ := extended_received b .B _ hs (by simp; omega)
  refine ⟨x, ms, h1, h2, ?_, ?_⟩
  · have e1 : ∀ r, extendedAll extendedNote ⟨⟨.B, false, true⟩, false, false⟩ (fnc4 :: fnc4 :: r) =
        extendedAll extendedNote ⟨⟨.B, false, false⟩, false, true⟩ r := by
      intro r
      rw [extendedAll, show extendedNote ⟨⟨.B, false, true⟩, false, false⟩ fnc4 =
          some ([], ⟨⟨.B, false, false⟩, true, false⟩) by decide, Option.bind_some, extendedAll,
        show extendedNote ⟨⟨.B, false, false⟩, true, false⟩ fnc4 = some ([], ⟨⟨.B, false, false⟩, false, true⟩) by decide]
      simp
    rw [h3, e1]
    clear h1 h2 h3 hl hs hstrict x ms
    induction t with
    | nil => rfl
    | cons c t ih =>
      have hc := h c (by simp)
      rw [List.map_cons, extendedAll, extendedNote_ascii .B (by decide) false false true _ (by rw [low _ (by omega)]; omega),
        Option.bind_some, ih (fun c hc => h c (by simp [hc]))]
      have : extendChar (Char.ofNat (c.toNat - 128)) = c := by
        rw [extendChar, low _ (by omega)]
        exact toNat_eq c _ (by omega)
      simp [this]
  · obtain ⟨n, vs, q1, -, -, q2⟩ := C32_code128_row b _ x ms h1 h2
    have h0 : setCDigits .A (CodeSet.char .B :: (fnc4 :: fnc4 :: t.map (fun c => Char.ofNat (c.toNat - 128)))) = 0 := by
      have : ∀ r, setCDigits .A (CodeSet.char .B :: (fnc4 :: fnc4 :: r)) = setCDigits .B r := by intro r; rfl
      rw [this]
      exact setCDigits_of .B (by decide) _ (by
        intro c hc
        obtain ⟨d, hd, rfl⟩ := List.mem_map.mp hc
        have := h d hd
        rw [low _ (by omega)]; omega)
    rw [h0] at q1
    have := q2.length
    simp only [List.length_cons, List.length_map] at q1
    omega

example : ∃ x ms, Code128.new ['Ɓ', fnc4, fnc4, 'i', 'h', 'j'] = .ok x ∧ Code128.encode .debug x = .ok ms ∧
    receiveExtended ms = some "éèê".toList ∧ ms.length = 90 := ⟨_, _, rfl, rfl, by decide +kernel, by decide +kernel⟩

/-- C80. A scanner that knows FNC4 agrees with the plain one wherever that one transmits anything. -/
theorem C80_agrees (ms : List Nat) (t : List Char) (h : receiveCode128 ms = some t) : receiveExtended ms = some t := by
  have step : ∀ st : ReaderState, ∀ v o st', transmitSymbol st v = some (o, st') →
      extendedSymbol ⟨st, false, false⟩ v = some (o, ⟨st', false, false⟩) := by
    intro st v o st' h
    unfold extendedSymbol
    rw [if_neg, h]
    · cases hs : st'.shift <;> simp
    · rintro ⟨h1, h2⟩
      obtain ⟨set, shift, first⟩ := st
      simp only [] at h1 h2
      subst h1
      rcases h2 with ⟨rfl, rfl⟩ | ⟨rfl, rfl⟩ <;> cases h
  have all : ∀ vs (st : ReaderState) t, transmitAll transmitSymbol st vs = some t →
      extendedAll extendedSymbol ⟨st, false, false⟩ vs = some t := by
    intro vs
    induction vs with
    | nil =>
      intro st t h
      rw [transmitAll] at h
      rw [extendedAll]
      cases hs : st.shift <;> rw [hs] at h <;> simp_all
    | cons v vs ih =>
      intro st t h
      rw [transmitAll_append] at h
      simp only [Option.bind_eq_some_iff, Option.map_eq_some_iff] at h
      obtain ⟨⟨o, st'⟩, h1, r, h2, rfl⟩ := h
      rw [extendedAll, step st v o st' h1, Option.bind_some, ih st' r h2]
      rfl
  simp only [receiveCode128, Option.bind_eq_bind, Option.bind_eq_some_iff] at h
  obtain ⟨vs, h1, ⟨start, data⟩, h2, set, h3, h4⟩ := h
  simp only [receiveExtended, h1, Option.bind_eq_bind, Option.bind_some, h2, h3]
  exact all data _ t h4

example : latinAsCode128 "Aé\n\u0085".toList = ['Ɓ', 'A', fnc4, 'i', 'À', '\n', 'Ɓ', 'À', fnc4, '\u0005', 'Ɓ'] := by decide
example : ∃ x ms, Code128.new (latinAsCode128 "Aé\n\u0085ÿ".toList) = .ok x ∧ Code128.encode .debug x = .ok ms ∧
    receiveExtended ms = some "Aé\n\u0085ÿ".toList ∧ receiveCode128 ms = none := ⟨_, _, rfl, rfl, by decide +kernel, by decide +kernel⟩
/-- Latched: two FNC4 before `äöü`, and one to exempt the `x`. -/
example : ∃ x ms, Code128.new (['Ɓ', fnc4, fnc4] ++ "dv|".toList ++ [fnc4, 'x']) = .ok x ∧ Code128.encode .debug x = .ok ms ∧
    receiveExtended ms = some "äöüx".toList := ⟨_, _, rfl, rfl, by decide +kernel⟩

end Barcoders
