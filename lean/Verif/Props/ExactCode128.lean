import Verif.Lemmas.Symbols
import Verif.Spec.Code128Message

/-!
# Code 128, exactly as it is (C52, C53, C55)
-/

set_option autoImplicit false

namespace Barcoders
open Spec

/-! ## C52: the length at which the check sum overflows -/

/-- C52: up to 6489 characters `encode` never panics, and the scanner accepts the symbol. -/
theorem C52_code128_short (b : Build) (s : List Char) (x : Code128.Code128) (h : Code128.new s = .ok x)
    (hl : s.length ≤ 6489) : ∃ ms t, Code128.encode b x = .ok ms ∧ scanCode128 ms = some t := by
  obtain ⟨ms, h1, h2⟩ := C28_code128_scan_regrouped_partial b s x h hl
  exact ⟨ms, _, h1, h2⟩

example : ∃ x ms, Code128.new ['Ć', '1', fnc1, '2'] = .ok x ∧ Code128.encode .debug x = .ok ms ∧
    scanCode128 ms = some ['Ć', fnc1, '1', '2'] := ⟨_, _, rfl, rfl, by decide +kernel⟩

/-- C52: the bound is sharp. For every larger length there is an accepted string on which debug builds panic. -/
theorem C52_code128_sharp (n : Nat) (h1 : 6490 ≤ n) (h2 : n < 2 ^ 30) :
    ∃ s x, s.length = n ∧ Code128.new s = .ok x ∧ Code128.encode .debug x = .panic .overflow := by
  obtain ⟨x, h, hp, _⟩ := code128_fnc1 (n - 1) (by omega)
  refine ⟨_, x, by simp; omega, h, hp ?_⟩
  have : 6489 * 6488 ≤ (n - 1) * (n - 1 - 1) := Nat.mul_le_mul (by omega) (by omega)
  omega

/-- C52: in debug builds a symbol that is returned is right, whatever its length: it is never one that scanners reject or
misread. -/
theorem C52_code128_debug_never_wrong (s : List Char) (x : Code128.Code128) (ms : List Nat) (h : Code128.new s = .ok x)
    (hl : s.length < 2 ^ 31) (he : Code128.encode .debug x = .ok ms) : scanCode128 ms = some (code128Regroup s) := by
  obtain ⟨set, data, h1, h2, hp, ho⟩ := C29_code128_debug s x h hl
  have hlt : code128Sum set.start data < 2 ^ 31 := by
    rcases Nat.lt_or_ge (code128Sum set.start data) (2 ^ 31) with h | h
    · exact h
    · rw [hp h] at he; cases he
  obtain ⟨ms', he', hr⟩ := ho hlt
  rw [he, Outcome.ok.injEq] at he'
  subst he'
  have hlist : code128Regroup s = set.char :: (code128Regroup s).tail := by
    cases hR : code128Regroup s with
    | nil => rw [hR] at h2; cases h2
    | cons a r => rw [hR] at h2; simp at h2; simp [h2]
  simp only [scanCode128, hr, Option.bind_eq_bind, Option.bind_some, verifyCode128_ok _ _ _ rfl, code128Start_start, h1]
  rw [← hlist]

example : ∃ x ms, Code128.new ['Ć', '1', fnc1, '2'] = .ok x ∧ Code128.encode .debug x = .ok ms ∧
    scanCode128 ms = some ['Ć', fnc1, '1', '2'] := ⟨_, _, rfl, rfl, by decide +kernel⟩

/-- C52: in release builds, whatever the length, the symbols before the check symbol are right. -/
theorem C52_code128_release_symbols (s : List Char) (x : Code128.Code128) (ms : List Nat) (h : Code128.new s = .ok x)
    (he : Code128.encode .release x = .ok ms) :
    ∃ set data c, readCode128 ms = some (CodeSet.start set :: data ++ [c]) ∧
      (code128Decode set data).map (set.char :: ·) = some (code128Regroup s) := by
  obtain ⟨set, data, c, h1, h2, h3, rfl⟩ := code128_symbol .release s x ms h he
  refine ⟨set, data, c, readCode128_paint _ h3, ?_⟩
  rw [h1]
  cases hR : code128Regroup s with
  | nil => rw [hR] at h2; cases h2
  | cons a r => rw [hR] at h2; simp at h2; simp [h2]

example : ∃ s x, s.length = 7000 ∧ Code128.new s = .ok x ∧ Code128.encode .debug x = .panic .overflow :=
  C52_code128_sharp 7000 (by omega) (by omega)

/-! ## C53: which strings share a symbol -/

theorem code128Text_prefix_free : ∀ set, ∀ v < 103, ∀ w < 103, ∀ t u, code128Text set v = some t →
    code128Text set w = some u → (t <+: u ∨ u <+: t) → v = w := by
  have key : ∀ set, ∀ v < 103, ∀ w < 103, v ≠ w →
      ((code128Text set v).bind fun t => (code128Text set w).map fun u => t.isPrefixOf u || u.isPrefixOf t) ≠ some true := by
    intro set
    cases set <;> decide +kernel
  intro set v hv w hw t u ht hu hp
  by_cases hvw : v = w
  · exact hvw
  · have := key set v hv w hw hvw
    rw [ht, hu] at this
    simp only [Option.bind_some, Option.map_some, ne_eq, Option.some.injEq, Bool.or_eq_true, List.isPrefixOf_iff_prefix] at this
    exact absurd hp this

theorem prefix_of_append_eq {α : Type} (t u a b : List α) (h : t ++ a = u ++ b) : t <+: u ∨ u <+: t := by
  rcases List.append_eq_append_iff.mp h with ⟨c, h1, h2⟩ | ⟨c, h1, h2⟩
  · exact Or.inl ⟨c, h1.symm⟩
  · exact Or.inr ⟨c, h1.symm⟩

theorem code128Text_ne_nil (set : CodeSet) (v : Nat) (t : List Char) (h : code128Text set v = some t) : t ≠ [] := by
  rintro rfl
  unfold code128Text at h
  cases set <;> simp only [] at h <;> repeat (first | (split at h) | cases h)

theorem code128Text_lt (set : CodeSet) (v : Nat) (t : List Char) (h : code128Text set v = some t) : v < 103 := by
  refine Decidable.byContradiction fun hge => ?_
  have : code128Text set v = none := by
    cases set <;> simp only [code128Text] <;> repeat rw [if_neg (by omega)]
  rw [this] at h
  cases h

theorem decode_lt (set : CodeSet) (d : List Nat) (r : List Char) (h : code128Decode set d = some r) : ∀ v ∈ d, v < 103 := by
  induction d generalizing set r with
  | nil => simp
  | cons v d ih =>
    intro w hw
    simp only [code128Decode, Option.bind_eq_bind, Option.bind_eq_some_iff] at h
    obtain ⟨t, ht, a, ha, _⟩ := h
    rcases List.mem_cons.mp hw with rfl | hw
    · exact code128Text_lt set w t ht
    · exact ih _ a ha w hw

theorem code128Decode_inj (vs ws : List Nat) (set : CodeSet) (r : List Char) (hv : ∀ v ∈ vs, v < 103) (hw : ∀ v ∈ ws, v < 103)
    (h1 : code128Decode set vs = some r) (h2 : code128Decode set ws = some r) : vs = ws := by
  induction vs generalizing set ws r with
  | nil =>
    simp only [code128Decode, Option.some.injEq] at h1
    subst h1
    cases ws with
    | nil => rfl
    | cons w ws =>
      simp only [code128Decode, Option.bind_eq_bind, Option.bind_eq_some_iff, Option.some.injEq] at h2
      obtain ⟨t, ht, a, _, h⟩ := h2
      exact absurd (List.append_eq_nil_iff.mp h).1 (code128Text_ne_nil _ _ _ ht)
  | cons v vs ih =>
    simp only [code128Decode, Option.bind_eq_bind, Option.bind_eq_some_iff, Option.some.injEq] at h1
    obtain ⟨t, ht, a, ha, h⟩ := h1
    cases ws with
    | nil =>
      simp only [code128Decode, Option.some.injEq] at h2
      subst h2
      exact absurd (List.append_eq_nil_iff.mp h).1 (code128Text_ne_nil _ _ _ ht)
    | cons w ws =>
      simp only [code128Decode, Option.bind_eq_bind, Option.bind_eq_some_iff, Option.some.injEq] at h2
      obtain ⟨u, hu, c, hc, h'⟩ := h2
      have hvw := code128Text_prefix_free set v (hv v (by simp)) w (hw w (by simp)) t u ht hu
        (prefix_of_append_eq t u a c (h.trans h'.symm))
      subst hvw
      rw [ht, Option.some.injEq] at hu
      subst hu
      have hac := List.append_cancel_left (h.trans h'.symm)
      subst hac
      rw [ih ws _ a (fun x hx => hv x (by simp [hx])) (fun x hx => hw x (by simp [hx])) ha hc]

/-- C53: two accepted strings of at most 6489 characters have the same symbol exactly when they agree after moving the FNC1
characters inside digit pairs of set C in front of the pair. -/
theorem C53_code128_same_symbol_iff (b : Build) (s t : List Char) (x y : Code128.Code128) (hx : Code128.new s = .ok x)
    (hy : Code128.new t = .ok y) (hs : s.length ≤ 6489) (ht : t.length ≤ 6489) :
    Code128.encode b x = Code128.encode b y ↔ code128Regroup s = code128Regroup t := by
  obtain ⟨set, data, h1, h2, h3, h4, h5⟩ := code128_symbols s x hx
  obtain ⟨set', data', g1, g2, g3, g4, g5⟩ := code128_symbols t y hy
  obtain ⟨ms, e1, r1⟩ := C28_code128_scan_regrouped_partial b s x hx hs
  obtain ⟨ms', e2, r2⟩ := C28_code128_scan_regrouped_partial b t y hy ht
  rw [e1, e2, Outcome.ok.injEq]
  constructor
  · rintro rfl
    rw [r1, Option.some.injEq] at r2
    exact r2
  · intro hR
    obtain ⟨m1, st1, d1, k1, k2⟩ := code128_check_symbol b s x hx hs
    obtain ⟨m2, st2, d2, l1, l2⟩ := code128_check_symbol b t y hy ht
    rw [e1, Outcome.ok.injEq] at k1
    rw [e2, Outcome.ok.injEq] at l1
    subst k1 l1
    obtain ⟨set, data, c, p1, p2, p3, q⟩ := code128_symbol b s x ms hx e1
    obtain ⟨set', data', c', p1', p2', p3', q'⟩ := code128_symbol b t y ms' hy e2
    rw [← hR] at p1' p2'
    rw [p2, Option.some.injEq] at p2'
    have hset : set = set' := by cases set <;> cases set' <;> first | rfl | exact absurd p2' (by decide)
    subst hset
    have hdata := code128Decode_inj data data' set _ (decode_lt _ _ _ p1) (decode_lt _ _ _ p1') p1 p1'
    subst hdata
    rw [q, readCode128_paint _ p3, Option.some.injEq] at k2
    rw [q', readCode128_paint _ p3', Option.some.injEq] at l2
    have sp : ∀ (a : Nat) (u : List Nat) (c st : Nat) (d : List Nat), a :: u ++ [c] = st :: d ++ [code128Sum st d % 103] →
        c = code128Sum a u % 103 := by
      intro a u c st d h
      simp only [List.cons_append, List.cons.injEq] at h
      obtain ⟨rfl, h⟩ := h
      have hu := List.append_inj' h rfl
      obtain ⟨rfl, hc⟩ := hu
      simpa using hc
    have hc := sp _ _ _ _ _ k2
    have hc' := sp _ _ _ _ _ l2
    rw [q, q', hc, hc']

example : ∃ x y ms, Code128.new ['Ć', '1', fnc1, fnc1, '2'] = .ok x ∧ Code128.new ['Ć', fnc1, fnc1, '1', '2'] = .ok y ∧
    Code128.encode .debug x = .ok ms ∧ Code128.encode .debug y = .ok ms := ⟨_, _, _, rfl, rfl, rfl, rfl⟩

/-! ## C55: what a scanner transmits -/

theorem transmitAll_append {α : Type} (step : ReaderState → α → Option (List Char × ReaderState)) (st : ReaderState)
    (c : α) (s : List α) :
    transmitAll step st (c :: s) = (step st c).bind fun p => (transmitAll step p.2 s).map (p.1 ++ ·) := by
  rw [transmitAll]
  cases step st c with
  | none => rfl
  | some p =>
    obtain ⟨o, st'⟩ := p
    show (transmitAll step st' s).bind (fun r => some (o ++ r)) = (transmitAll step st' s).map (o ++ ·)
    cases transmitAll step st' s <;> rfl

/-- The characters of one symbol mean what the symbol means. -/
theorem transmit_text : ∀ set shift first, ∀ v < 103, (shift = true → set ≠ .C) →
    (code128Text set v = none) ∨
    (∃ c, code128Text set v = some [c] ∧ transmitSymbol ⟨set, shift, first⟩ v = messageChar ⟨set, shift, first⟩ c) ∨
    (∃ c d, code128Text set v = some [c, d] ∧ shift = false ∧
      transmitSymbol ⟨set, shift, first⟩ v = some ([c, d], ⟨set, false, false⟩) ∧
      messageChar ⟨set, shift, first⟩ c = some ([c], ⟨set, false, false⟩) ∧
      messageChar ⟨set, false, false⟩ d = some ([d], ⟨set, false, false⟩)) := by
  have key : ∀ set shift first, ∀ v < 103, (shift = true → set ≠ .C) →
      (match code128Text set v with
      | none => true
      | some [c] => decide (transmitSymbol ⟨set, shift, first⟩ v = messageChar ⟨set, shift, first⟩ c)
      | some [c, d] => decide (shift = false ∧
        transmitSymbol ⟨set, shift, first⟩ v = some ([c, d], ⟨set, false, false⟩) ∧
        messageChar ⟨set, shift, first⟩ c = some ([c], ⟨set, false, false⟩) ∧
        messageChar ⟨set, false, false⟩ d = some ([d], ⟨set, false, false⟩))
      | _ => false) = true := by
    intro set shift first
    cases set <;> cases shift <;> cases first <;> decide +kernel
  intro set shift first v hv hs
  have := key set shift first v hv hs
  split at this
  · rename_i h; exact Or.inl h
  · rename_i c h; exact Or.inr (Or.inl ⟨c, h, of_decide_eq_true this⟩)
  · rename_i c d h; exact Or.inr (Or.inr ⟨c, d, h, of_decide_eq_true this⟩)
  · cases this

/-- After a symbol the reader is in the set the decoder is in, and never in set C after SHIFT. -/
theorem transmit_next : ∀ set shift first, ∀ v < 103, (shift = true → set ≠ .C) → ∀ p,
    transmitSymbol ⟨set, shift, first⟩ v = some p → code128Text set v ≠ none →
    (shift = false → p.2.set = code128Next set v) ∧ (shift = true → p.2.set = set ∧ code128Next set v = set) ∧
    (p.2.shift = true → p.2.set ≠ .C) := by
  have key : ∀ set shift first, ∀ v < 103, (shift = true → set ≠ .C) →
      (match transmitSymbol ⟨set, shift, first⟩ v with
      | none => true
      | some p => decide (code128Text set v ≠ none →
        (shift = false → p.2.set = code128Next set v) ∧ (shift = true → p.2.set = set ∧ code128Next set v = set) ∧
        (p.2.shift = true → p.2.set ≠ .C))) = true := by
    intro set shift first
    cases set <;> cases shift <;> cases first <;> decide +kernel
  intro set shift first v hv hs p hp ht
  have := key set shift first v hv hs
  rw [hp] at this
  exact of_decide_eq_true this ht

theorem transmit_decode (vs : List Nat) (set : CodeSet) (shift first : Bool) (r : List Char) (hv : ∀ v ∈ vs, v < 103)
    (hs : shift = true → set ≠ .C) (h : code128Decode set vs = some r) :
    transmitAll transmitSymbol ⟨set, shift, first⟩ vs = transmitAll messageChar ⟨set, shift, first⟩ r := by
  induction vs generalizing set shift first r with
  | nil =>
    simp only [code128Decode, Option.some.injEq] at h
    subst h
    rfl
  | cons v vs ih =>
    simp only [code128Decode, Option.bind_eq_bind, Option.bind_eq_some_iff, Option.some.injEq] at h
    obtain ⟨t, ht, a, ha, rfl⟩ := h
    have hv' := fun x hx => hv x (List.mem_cons_of_mem _ hx)
    have hn := transmit_next set shift first v (hv v (by simp)) hs
    rcases transmit_text set shift first v (hv v (by simp)) hs with h0 | ⟨c, h1, h2⟩ | ⟨c, d, h1, h2, h3, h4, h5⟩
    · rw [h0] at ht; cases ht
    · rw [h1, Option.some.injEq] at ht
      subst ht
      rw [List.singleton_append, transmitAll_append, transmitAll_append, h2]
      cases hm : messageChar ⟨set, shift, first⟩ c with
      | none => rfl
      | some p =>
        obtain ⟨o, set', shift', first'⟩ := p
        obtain ⟨n1, n2, n3⟩ := hn _ (h2.trans hm) (by rw [h1]; simp)
        simp only [] at n1 n2 n3
        simp only [Option.bind_some]
        have hset : set' = code128Next set v := by
          cases shift with
          | false => exact n1 rfl
          | true => rw [(n2 rfl).1, (n2 rfl).2]
        rw [← hset] at ha
        rw [ih set' shift' first' a hv' n3 ha]
    · rw [h1, Option.some.injEq] at ht
      subst ht
      obtain ⟨n1, -, -⟩ := hn _ h3 (by rw [h1]; simp)
      have hset := n1 h2
      simp only [] at hset
      rw [← hset] at ha
      rw [transmitAll_append, h3, List.cons_append, transmitAll_append, h4]
      simp only [Option.bind_some, List.singleton_append]
      rw [transmitAll_append, h5]
      simp only [Option.bind_some]
      rw [ih set false false a hv' (by simp) ha]
      cases transmitAll messageChar ⟨set, false, false⟩ a <;> rfl

/-- C55: a scanner transmits the message the (regrouped) string stands for; in particular SHIFT acts on the symbol, not on the
character the user wrote. If the message is undefined, the scanner's is too. -/
theorem C55_code128_transmitted (b : Build) (s : List Char) (x : Code128.Code128) (h : Code128.new s = .ok x)
    (hl : s.length ≤ 6489) :
    ∃ ms, Code128.encode b x = .ok ms ∧ receiveCode128 ms = code128Message (code128Regroup s) := by
  obtain ⟨ms, st, d, he, hr⟩ := code128_check_symbol b s x h hl
  obtain ⟨set, data, c, p1, p2, p3, q⟩ := code128_symbol b s x ms h he
  refine ⟨ms, he, ?_⟩
  rw [q, readCode128_paint _ p3, Option.some.injEq] at hr
  simp only [List.cons_append, List.cons.injEq] at hr
  obtain ⟨rfl, hr⟩ := hr
  obtain ⟨rfl, hc⟩ := List.append_inj' hr rfl
  simp only [List.cons.injEq, and_true] at hc
  have hlist : code128Regroup s = set.char :: (code128Regroup s).tail := by
    cases hR : code128Regroup s with
    | nil => rw [hR] at p2; cases p2
    | cons a r => rw [hR] at p2; simp at p2; simp [p2]
  have hread := readCode128_paint _ p3
  rw [← q] at hread
  have htr : receiveCode128 ms = transmit set data := by
    simp only [receiveCode128, hread, Option.bind_eq_bind, Option.bind_some, verifyCode128_ok _ _ _ hc, code128Start_start]
  rw [htr, transmit, transmit_decode data set false true _ (decode_lt _ _ _ p1) (by simp) p1]
  conv => rhs; rw [hlist]
  cases set <;> rfl

example : ∃ x ms, Code128.new ['Ɓ', 'a', fnc1, 'b', delChar] = .ok x ∧ Code128.encode .debug x = .ok ms ∧
    receiveCode128 ms = some ['a', '\u001d', 'b', '\u007f'] := ⟨_, _, rfl, rfl, by decide +kernel⟩

theorem messageChar_plain (set : CodeSet) (c : Char) (h1 : c ≠ shiftChar) (h4 : c ≠ fnc4) :
    ∃ set', messageChar ⟨set, false, false⟩ c = some (plainMessage [c], ⟨set', false, false⟩) := by
  have e1 : plainMessage ['À'] = [] := by decide
  have e2 : plainMessage ['Ɓ'] = [] := by decide
  have e3 : plainMessage ['Ć'] = [] := by decide
  have e4 : plainMessage [fnc1] = ['\u001d'] := by decide
  have e5 : plainMessage [fnc2] = [] := by decide
  have e6 : plainMessage [fnc3] = [] := by decide
  have e7 : plainMessage [delChar] = [Char.ofNat 127] := by decide
  unfold messageChar
  simp only [Bool.false_eq_true, if_false]
  by_cases a1 : c = 'À'
  · subst a1; exact ⟨.A, by rw [e1]; rfl⟩
  rw [if_neg a1]
  by_cases a2 : c = 'Ɓ'
  · subst a2; exact ⟨.B, by rw [e2]; rfl⟩
  rw [if_neg a2]
  by_cases a3 : c = 'Ć'
  · subst a3; exact ⟨.C, by rw [e3]; rfl⟩
  rw [if_neg a3]
  by_cases a4 : c = fnc1
  · subst a4; exact ⟨set, by rw [e4]; rfl⟩
  rw [if_neg a4]
  by_cases a5 : c = fnc2
  · subst a5; exact ⟨set, by rw [e5]; rfl⟩
  by_cases a6 : c = fnc3
  · subst a6; exact ⟨set, by rw [e6]; rfl⟩
  rw [if_neg (by simp [a5, a6]), if_neg h4, if_neg h1]
  by_cases a7 : c = delChar
  · subst a7; exact ⟨set, by rw [e7]; rfl⟩
  rw [if_neg a7]
  refine ⟨set, ?_⟩
  have : plainMessage [c] = [c] := by
    simp [plainMessage, a1, a2, a3, a4, a5, a6, a7]
  rw [this]

theorem plainMessage_cons (c : Char) (s : List Char) : plainMessage (c :: s) = plainMessage [c] ++ plainMessage s := by
  rw [plainMessage, plainMessage, plainMessage, ← List.map_append, ← List.filter_append]
  rfl

theorem transmitAll_plain (r : List Char) (set : CodeSet) (h1 : shiftChar ∉ r) (h4 : fnc4 ∉ r) :
    transmitAll messageChar ⟨set, false, false⟩ r = some (plainMessage r) := by
  induction r generalizing set with
  | nil => rfl
  | cons c r ih =>
    simp only [List.mem_cons, not_or] at h1 h4
    obtain ⟨set', h⟩ := messageChar_plain set c (fun e => h1.1 e.symm) (fun e => h4.1 e.symm)
    rw [transmitAll_append, h, Option.bind_some, ih set' h1.2 h4.2, plainMessage_cons c r]
    rfl

/-- The first character makes no difference unless it is FNC1. -/
theorem messageChar_first (set : CodeSet) (c : Char) (h : c ≠ fnc1) :
    messageChar ⟨set, false, true⟩ c = messageChar ⟨set, false, false⟩ c := by
  unfold messageChar
  simp [h]

theorem transmitAll_plain_first (r : List Char) (set : CodeSet) (h1 : shiftChar ∉ r) (h4 : fnc4 ∉ r) :
    transmitAll messageChar ⟨set, false, true⟩ r =
      some (plainMessage (if r.head? = some fnc1 then r.tail else r)) := by
  cases r with
  | nil => rfl
  | cons c r =>
    by_cases hc : c = fnc1
    · subst hc
      simp only [List.mem_cons, not_or] at h1 h4
      have : messageChar ⟨set, false, true⟩ fnc1 = some ([], ⟨set, false, false⟩) := by cases set <;> rfl
      rw [transmitAll_append, this, Option.bind_some, transmitAll_plain r set h1.2 h4.2]
      simp
    · rw [transmitAll_append, messageChar_first set c hc, ← transmitAll_append, transmitAll_plain _ set h1 h4]
      simp [hc]

/-- C55 for strings without SHIFT and FNC4 (and without split digit pairs): the scanner transmits the characters of the
string, without the code-set characters, FNC2 and FNC3, with FNC1 as GS (omitted in first position) and `÷` as DEL. -/
theorem C55_code128_plain (b : Build) (s : List Char) (x : Code128.Code128) (h : Code128.new s = .ok x)
    (hl : s.length ≤ 6489) (hs : Code128StrictForm s) (h1 : shiftChar ∉ s) (h4 : fnc4 ∉ s) :
    ∃ ms, Code128.encode b x = .ok ms ∧
      receiveCode128 ms = some (plainMessage (if s.tail.head? = some fnc1 then s.tail.tail else s.tail)) := by
  have hw := (C27_code128_new s).2.1.mp ⟨x, h⟩
  obtain ⟨ms, e, r⟩ := C55_code128_transmitted b s x h hl
  refine ⟨ms, e, ?_⟩
  rw [r, (regroup_eq_iff s hw).mpr hs]
  obtain ⟨set, t, rfl, -⟩ := hw
  simp only [List.mem_cons, not_or] at h1 h4
  have : code128Message (set.char :: t) = transmitAll messageChar ⟨set, false, true⟩ t := by cases set <;> rfl
  rw [this, transmitAll_plain_first t set h1.2 h4.2, List.tail_cons]

example : ∃ x ms, Code128.new "ƁHe1234ÀA*Ć1234".toList = .ok x ∧ Code128.encode .debug x = .ok ms ∧
    receiveCode128 ms = some "He1234A*1234".toList := ⟨_, _, rfl, rfl, by decide +kernel⟩
/-- A GS1-128 symbol: FNC1 in first position is a flag, the second one separates fields. -/
example : ∃ x ms, Code128.new (['Ć', fnc1] ++ "10".toList ++ "ƁAB1".toList ++ [fnc1] ++ "21X".toList) = .ok x ∧
    Code128.encode .debug x = .ok ms ∧ receiveCode128 ms = some "10AB1\u001d21X".toList := ⟨_, _, rfl, rfl, by decide +kernel⟩

/-- C55, SHIFT: the character after SHIFT must be written in the set in force, and a scanner then reads another one. In set A,
SHIFT and the control character SOH are transmitted as `a`; SHIFT and `a` itself are rejected. -/
theorem C55_code128_shift :
    (∃ x ms, Code128.new ['À', shiftChar, '\u0001', 'B'] = .ok x ∧ Code128.encode .debug x = .ok ms ∧
      receiveCode128 ms = some ['a', 'B']) ∧
    Code128.new ['À', shiftChar, 'a', 'B'] = .err .character :=
  ⟨⟨_, _, rfl, rfl, by decide +kernel⟩, by decide +kernel⟩

end Barcoders
