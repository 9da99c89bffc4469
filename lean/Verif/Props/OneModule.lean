import Verif.Lemmas.OneOff
import Verif.Props.Exact
import Verif.Props.ExactCodabar

/-!
# C83: one wrong module

A speck of ink in a space or a void in a bar, one module wide, changes one module of the row. No symbol of the library can be
turned into another one of the same symbology by such a change: the scanner reads nothing. The exceptions are the add-ons of two
digits.
-/

set_option autoImplicit false

namespace Barcoders
open Spec

/-! ## Groups of equal size -/

theorem readAll_groups {α : Type} (k : Nat) (hk : 0 < k) (f : List Nat → Option α) (es : List Nat) (l : List α)
    (h : readAll k f es = some l) :
    ∃ ws : List (List Nat), es = ws.flatten ∧ (∀ w ∈ ws, w.length = k) ∧ ws.map f = l.map some := by
  obtain ⟨ws, h1, h2, h3⟩ := readAllFrom_inv k f [] es l hk h
  exact ⟨ws, by simpa using h1, h2, h3⟩

theorem groups_length (k : Nat) (ws : List (List Nat)) (h : ∀ w ∈ ws, w.length = k) : ws.flatten.length = k * ws.length := by
  have := flatMap_length_eq k id ws h
  simpa [List.flatMap_id] using this

theorem not_nudged_self (w : List Nat) : ¬ Nudged w w := by
  rintro ⟨p, a, b, a', b', q, h1, h2, h3, h4⟩
  rw [h1] at h2
  have := List.append_cancel_left h2
  simp only [List.cons.injEq] at this
  omega

theorem near_groups (k : Nat) (hk : 3 ≤ k) (ws ws' : List (List Nat)) (h : ∀ w ∈ ws, w.length = k)
    (h' : ∀ w ∈ ws', w.length = k) (n : Nat) (r r' : List Nat) (hr : r.length = ws.flatten.length + n)
    (hr' : r'.length = ws'.flatten.length + n) : ¬ NearLength r r' := by
  rintro ⟨h1, h2, h3⟩
  rw [groups_length k ws h] at hr
  rw [groups_length k ws' h'] at hr'
  rcases Nat.lt_trichotomy ws.length ws'.length with hl | hl | hl
  · have := Nat.mul_le_mul_left k (Nat.succ_le_of_lt hl)
    rw [Nat.mul_succ] at this
    omega
  · rw [hl] at hr; omega
  · have := Nat.mul_le_mul_left k (Nat.succ_le_of_lt hl)
    rw [Nat.mul_succ] at this
    omega

/-- Two rows of groups, followed by the same elements: if they differ in one module, they differ in one group, in which an
edge has moved. -/
theorem groups_one_off {α : Type} (k : Nat) (hk : 3 ≤ k) (f : List Nat → Option α)
    (hf : ∀ b c x y, f b = some x → f c = some y → b.sum = c.sum ∨ b.getLast? = c.getLast?)
    (body body' t : List Nat) (l l' : List α) (h : readAll k f body = some l) (h' : readAll k f body' = some l')
    (hn : Nudged (body ++ t) (body' ++ t) ∨ NearLength (body ++ t) (body' ++ t)) :
    ∃ u x y v b c, l = u ++ x :: v ∧ l' = u ++ y :: v ∧ f b = some x ∧ f c = some y ∧ Nudged b c := by
  obtain ⟨ws, rfl, a2, a3⟩ := readAll_groups k (by omega) f body l h
  obtain ⟨ws', rfl, b2, b3⟩ := readAll_groups k (by omega) f body' l' h'
  have read : ∀ (ws : List (List Nat)) (l : List α), ws.map f = l.map some → ∀ w ∈ ws, ∃ x, f w = some x := by
    intro ws l he w hw
    have : f w ∈ l.map some := by rw [← he]; exact List.mem_map_of_mem hw
    obtain ⟨x, -, hx⟩ := List.mem_map.mp this
    exact ⟨x, hx.symm⟩
  rcases hn with hn | hn
  · have hlen : ws.length = ws'.length := by
      obtain ⟨p, a, b, a', b', q, e1, e2, -, -⟩ := hn
      have := congrArg List.length e1
      have h2 := congrArg List.length e2
      simp only [List.length_append, List.length_cons, groups_length k ws a2, groups_length k ws' b2] at this h2
      have h3 : k * ws.length = k * ws'.length := by omega
      exact Nat.eq_of_mul_eq_mul_left (by omega) h3
    have hal : Alike ws ws' := alike_of k (fun b c => b.sum = c.sum ∨ b.getLast? = c.getLast?) (fun _ _ h => h) ws ws' hlen
      a2 b2 (fun b hb c hc => by
        obtain ⟨x, hx⟩ := read ws l a3 b hb
        obtain ⟨y, hy⟩ := read ws' l' b3 c hc
        exact hf b c x y hx hy)
    have hal' : Alike (ws ++ [t]) (ws' ++ [t]) := hal.append ⟨rfl, Or.inl rfl, trivial⟩
    obtain ⟨P, b, c, Q, e1, e2, e3⟩ := one_group _ _ hal' (by simpa using hn)
    rcases List.eq_nil_or_concat Q with rfl | ⟨Q, z, rfl⟩
    · have e4 := (List.append_inj' e1 rfl).2
      have e5 := (List.append_inj' e2 rfl).2
      simp only [List.cons.injEq, and_true] at e4 e5
      rw [← e4, ← e5] at e3
      exact absurd e3 (not_nudged_self t)
    · have e4 : ws = P ++ b :: Q := by
        have : ws ++ [t] = (P ++ b :: Q) ++ [z] := by rw [e1]; simp
        exact (List.append_inj' this rfl).1
      have e5 : ws' = P ++ c :: Q := by
        have : ws' ++ [t] = (P ++ c :: Q) ++ [z] := by rw [e2]; simp
        exact (List.append_inj' this rfl).1
      rw [e4] at a3
      rw [e5] at b3
      obtain ⟨u, x, y, v, h1, h2, h3, h4⟩ := one_reading f P Q b c l l' a3 b3
      exact ⟨u, x, y, v, b, c, h1, h2, h3, h4, e3⟩
  · exact absurd hn (near_groups k hk ws ws' a2 b2 t.length _ _ (by simp) (by simp))

theorem near_append (a b t : List Nat) (h : NearLength a b) : NearLength (a ++ t) (b ++ t) :=
  ⟨by simpa using h.1, by simpa using (by have := h.2.1; omega : a.length + t.length ≤ b.length + t.length + 2),
    by simpa using (by have := h.2.2; omega : b.length + t.length ≤ a.length + t.length + 2)⟩

/-! ## Codes with a gap between the characters -/

/-- No pattern of the chart, with its gap, becomes another one by moving one edge. -/
def Firm (chart : List (Char × List Nat)) : Prop :=
  ∀ p ∈ chart, ∀ q ∈ chart, nudged (p.2 ++ [1]) (q.2 ++ [1]) = false

instance (chart : List (Char × List Nat)) : Decidable (Firm chart) := by unfold Firm; infer_instance

theorem gap_read (chart : List (Char × List Nat)) (n : Nat) (f : List Nat → Option Char)
    (hf : ∀ w, f w = if w.drop n = [1] then (chart.find? (fun p => p.2 == w.take n)).map Prod.fst else none)
    (w : List Nat) (c : Char) (h : f w = some c) : ∃ p ∈ chart, p.1 = c ∧ w = p.2 ++ [1] := by
  rw [hf] at h
  split at h
  · next hd =>
    rw [Option.map_eq_some_iff] at h
    obtain ⟨p, hp, rfl⟩ := h
    refine ⟨p, List.mem_of_find?_eq_some hp, rfl, ?_⟩
    have := List.find?_some hp
    simp only [beq_iff_eq] at this
    rw [this, ← hd, List.take_append_drop]
  · cases h

theorem gap_last (chart : List (Char × List Nat)) (n : Nat) (f : List Nat → Option Char)
    (hf : ∀ w, f w = if w.drop n = [1] then (chart.find? (fun p => p.2 == w.take n)).map Prod.fst else none)
    (b c : List Nat) (x y : Char) (hb : f b = some x) (hc : f c = some y) :
    b.sum = c.sum ∨ b.getLast? = c.getLast? := by
  obtain ⟨p, -, -, rfl⟩ := gap_read chart n f hf b x hb
  obtain ⟨q, -, -, rfl⟩ := gap_read chart n f hf c y hc
  exact Or.inr (by simp)

/-- The readings of two rows that differ in one module differ in one character. -/
theorem gap_one_off (chart : List (Char × List Nat)) (hc : ∀ p ∈ chart, ∀ q ∈ chart, p.1 = q.1 → p.2 = q.2) (n : Nat)
    (hn : 2 ≤ n) (f : List Nat → Option Char)
    (hf : ∀ w, f w = if w.drop n = [1] then (chart.find? (fun p => p.2 == w.take n)).map Prod.fst else none)
    (ms : List Nat) (i : Nat) (hi : i < ms.length) (es es' : List Nat) (l l' : List Char) (h : elements ms = some es)
    (h' : elements (speck i ms) = some es') (hl : readAll (n + 1) f (es ++ [1]) = some l)
    (hl' : readAll (n + 1) f (es' ++ [1]) = some l') :
    ∃ u x y v, l = u ++ x :: v ∧ l' = u ++ y :: v ∧ x ≠ y ∧ ¬ Firm chart := by
  have hn' : Nudged (es ++ [1] ++ []) (es' ++ [1] ++ []) ∨ NearLength (es ++ [1] ++ []) (es' ++ [1] ++ []) := by
    simp only [List.append_nil]
    rcases one_off ms i hi es es' h h' with h | h
    · exact Or.inl (h.append [1])
    · exact Or.inr (near_append _ _ _ h.near)
  obtain ⟨u, x, y, v, b, c, h1, h2, h3, h4, h5⟩ := groups_one_off (n + 1) (by omega) f
    (fun b c x y hb hy => gap_last chart n f hf b c x y hb hy) _ _ [] l l' hl hl' hn'
  refine ⟨u, x, y, v, h1, h2, ?_, fun hF => ?_⟩
  · rintro rfl
    have := gap_eq chart hc n f hf b c x h3 h4
    subst this
    exact not_nudged_self b h5
  · obtain ⟨p, hp, -, rfl⟩ := gap_read chart n f hf b x h3
    obtain ⟨q, hq, -, rfl⟩ := gap_read chart n f hf c y h4
    have := nudged_of _ _ h5
    rw [hF p hp q hq] at this
    cases this

theorem code39_firm : Firm code39Chart := by decide +kernel
theorem codabar_firm : Firm codabarChart := by decide +kernel
theorem codabarOwn_firm : Firm (codabarAlphabet.zip (codabarOwnPatterns.map codabarWidths)) := by decide +kernel

theorem codabarOwn_keys : ∀ p ∈ codabarAlphabet.zip (codabarOwnPatterns.map codabarWidths),
    ∀ q ∈ codabarAlphabet.zip (codabarOwnPatterns.map codabarWidths), p.1 = q.1 → p.2 = q.2 := by decide +kernel

theorem code39_speck (ms : List Nat) (t : List Char) (h : scanCode39 ms = some t) (i : Nat) (hi : i < ms.length) :
    scanCode39 (speck i ms) = none := by
  cases h' : scanCode39 (speck i ms) with
  | none => rfl
  | some t' =>
    obtain ⟨es, a1, a2, -⟩ := scanCode39_inv ms t h
    obtain ⟨es', b1, b2, -⟩ := scanCode39_inv _ t' h'
    obtain ⟨-, -, -, -, -, -, -, h3⟩ := gap_one_off _ code39_keys 9 (by omega) readCode39Char (fun _ => rfl) ms i hi es es' _ _
      a1 b1 a2 b2
    exact absurd code39_firm h3

/-- C83. Changing one module of a Code 39 symbol leaves nothing to read, with or without check character. -/
theorem C83_code39 (s : List Char) (x : Code39.Code39) (hx : Code39.new s = .ok x ∨ Code39.withChecksum s = .ok x)
    (ms : List Nat) (he : Code39.encode x = .ok ms) (i : Nat) (hi : i < ms.length) :
    scanCode39 (speck i ms) = none ∧ scanCode39Checked (speck i ms) = none := by
  have key : scanCode39 (speck i ms) = none := by
    rcases hx with hx | hx
    · obtain ⟨ms', h1, h2⟩ := C14_code39_scan s x hx
      rw [he, Outcome.ok.injEq] at h1
      subst h1
      exact code39_speck ms s h2 i hi
    · obtain ⟨ms', h1, h2, -⟩ := C14_code39_checksum_scan s x hx
      rw [he, Outcome.ok.injEq] at h1
      subst h1
      exact code39_speck ms _ h2 i hi
  exact ⟨key, by rw [scanCode39Checked, key]; rfl⟩

example : ∃ x ms, Code39.new "A".toList = .ok x ∧ Code39.encode x = .ok ms ∧ ms.length = 38 ∧ scanCode39 ms = some "A".toList ∧
    ∀ i < 38, scanCode39 (speck i ms) = none := ⟨_, _, rfl, rfl, by decide, by decide, by decide +kernel⟩

theorem codabar_speck (ms : List Nat) (t : List Char) (h : scanCodabar ms = some t) (i : Nat) (hi : i < ms.length) :
    scanCodabar (speck i ms) = none := by
  cases h' : scanCodabar (speck i ms) with
  | none => rfl
  | some t' =>
    unfold scanCodabar at h h'
    simp only [Option.bind_eq_bind, Option.bind_eq_some_iff] at h h'
    obtain ⟨es, a1, a2⟩ := h
    obtain ⟨es', b1, b2⟩ := h'
    obtain ⟨-, -, -, -, -, -, -, h3⟩ := gap_one_off _ codabar_keys 7 (by omega) readCodabarChar (fun _ => rfl) ms i hi es es' _ _
      a1 b1 a2 b2
    exact absurd codabar_firm h3

theorem codabarOwn_speck (ms : List Nat) (t : List Char) (h : scanOwnCodabar ms = some t) (i : Nat) (hi : i < ms.length) :
    scanOwnCodabar (speck i ms) = none := by
  cases h' : scanOwnCodabar (speck i ms) with
  | none => rfl
  | some t' =>
    unfold scanOwnCodabar at h h'
    simp only [Option.bind_eq_bind, Option.bind_eq_some_iff] at h h'
    obtain ⟨es, a1, a2⟩ := h
    obtain ⟨es', b1, b2⟩ := h'
    obtain ⟨-, -, -, -, -, -, -, h3⟩ := gap_one_off _ codabarOwn_keys 7 (by omega) readOwnCodabarChar (fun _ => rfl) ms i hi
      es es' _ _ a1 b1 a2 b2
    exact absurd codabarOwn_firm h3

/-- Framed texts that differ in one character differ inside the frame. -/
theorem framed_one_off (t t' u v : List Char) (x y : Char) (h : '*' :: t ++ ['*'] = u ++ x :: v)
    (h' : '*' :: t' ++ ['*'] = u ++ y :: v) (hxy : x ≠ y) : ∃ u' v', t = u' ++ x :: v' ∧ t' = u' ++ y :: v' := by
  cases u with
  | nil =>
    simp only [List.nil_append, List.cons_append, List.cons.injEq] at h h'
    exact absurd (h.1.symm.trans h'.1) hxy
  | cons a u =>
    simp only [List.cons_append, List.cons.injEq] at h h'
    rcases List.eq_nil_or_concat v with rfl | ⟨v, z, rfl⟩
    · have e1 := (List.append_inj' h.2 rfl).2
      have e2 := (List.append_inj' h'.2 rfl).2
      simp only [List.cons.injEq, and_true] at e1 e2
      exact absurd (e1.symm.trans e2) hxy
    · have e1 : t ++ ['*'] = (u ++ x :: v) ++ [z] := by rw [h.2]; simp
      have e2 : t' ++ ['*'] = (u ++ y :: v) ++ [z] := by rw [h'.2]; simp
      exact ⟨u, v, (List.append_inj' e1 rfl).1, (List.append_inj' e2 rfl).1⟩

theorem code11Text_eq (t : List Char) :
    t ++ code11Check 10 t :: (if t.length > 10 then [code11Check 9 (t ++ [code11Check 10 t])] else []) = code11Text t := by
  unfold code11Text
  split <;> rfl

theorem code11_speck (ms : List Nat) (t : List Char) (h : scanCode11 ms = some t) (i : Nat) (hi : i < ms.length) :
    scanCode11 (speck i ms) = none := by
  cases h' : scanCode11 (speck i ms) with
  | none => rfl
  | some t' =>
    obtain ⟨es, a1, a2, -⟩ := scanCode11_inv ms t h
    obtain ⟨es', b1, b2, -⟩ := scanCode11_inv _ t' h'
    rw [code11Text_eq] at a2 b2
    obtain ⟨u, x, y, v, h1, h2, h3, -⟩ := gap_one_off _ code11_keys 5 (by omega) readCode11Char (fun _ => rfl) ms i hi es es' _ _
      a1 b1 a2 b2
    obtain ⟨u', v', h4, h5⟩ := framed_one_off _ _ u v x y h1 h2 h3
    have hA' := code11_text_mem t' (scanCode11_chars _ t' h')
    exact absurd (code11_replace t t' u' v' x y (scanCode11_chars ms t h) h4 h5 (hA' y (by rw [h5]; simp))).symm h3

/-- C83. Changing one module of a Code 11 symbol leaves nothing to read. -/
theorem C83_code11 (s : List Char) (x : Code11.Code11) (hx : Code11.new s = .ok x) (ms : List Nat)
    (he : Code11.encode x = .ok ms) (i : Nat) (hi : i < ms.length) : scanCode11 (speck i ms) = none := by
  obtain ⟨ms', h1, h2⟩ := C20_code11_scan s x hx
  rw [he, Outcome.ok.injEq] at h1
  subst h1
  exact code11_speck ms s h2 i hi

example : ∃ x ms, Code11.new "1-2".toList = .ok x ∧ Code11.encode x = .ok ms ∧ scanCode11 ms = some "1-2".toList ∧
    ∀ i < ms.length, scanCode11 (speck i ms) = none := ⟨_, _, rfl, rfl, by decide +kernel, by decide +kernel⟩

/-- The patterns of the standard and the one of `+` in the library, here read as `#`. -/
def codabarJoint : List (Char × List Nat) := codabarChart ++ [('#', codabarWidths 0x1F)]

/-- Read seven elements of either chart and the gap that follows them. -/
def readJointChar (w : List Nat) : Option Char :=
  if w.drop 7 = [1] then (codabarJoint.find? (fun p => p.2 == w.take 7)).map Prod.fst else none

theorem codabarJoint_firm : Firm codabarJoint := by decide +kernel

theorem codabarJoint_keys : ∀ p ∈ codabarJoint, ∀ q ∈ codabarJoint, p.1 = q.1 → p.2 = q.2 := by decide +kernel

theorem joint_of_standard (w : List Nat) (c : Char) (h : readCodabarChar w = some c) : (readJointChar w).isSome := by
  obtain ⟨p, hp, -, rfl⟩ := gap_read codabarChart 7 readCodabarChar (fun _ => rfl) w c h
  clear h
  revert p
  decide +kernel

theorem joint_of_own (w : List Nat) (c : Char) (h : readOwnCodabarChar w = some c) : (readJointChar w).isSome := by
  obtain ⟨p, hp, -, rfl⟩ := gap_read _ 7 readOwnCodabarChar (fun _ => rfl) w c h
  clear h
  revert p
  decide +kernel

theorem readAllFrom_mono {α β : Type} (k : Nat) (f : List Nat → Option α) (g : List Nat → Option β)
    (hfg : ∀ w x, f w = some x → (g w).isSome) (acc es : List Nat) (l : List α) (h : readAllFrom k f acc es = some l) :
    ∃ l', readAllFrom k g acc es = some l' := by
  induction es generalizing acc l with
  | nil =>
    unfold readAllFrom at h ⊢
    by_cases ha : acc = []
    · exact ⟨[], if_pos ha⟩
    · rw [if_neg ha] at h; cases h
  | cons e es ih =>
    unfold readAllFrom at h ⊢
    by_cases ha : acc.length + 1 = k
    · rw [if_pos ha] at h ⊢
      simp only [Option.bind_eq_bind, Option.bind_eq_some_iff] at h
      obtain ⟨x, h1, xs, h2, -⟩ := h
      obtain ⟨y, h3⟩ := Option.isSome_iff_exists.mp (hfg _ x h1)
      obtain ⟨ys, h4⟩ := ih _ _ h2
      exact ⟨y :: ys, by rw [h3, h4]; rfl⟩
    · rw [if_neg ha] at h ⊢
      exact ih _ _ h

/-- C83. Changing one module of a Codabar symbol leaves nothing to read, whether by the standard's table or by the library's
own (see C54). -/
theorem C83_codabar (s : List Char) (x : Codabar.Codabar) (hx : Codabar.new s = .ok x) (i : Nat)
    (hi : i < (Codabar.encode x).length) :
    scanOwnCodabar (speck i (Codabar.encode x)) = none ∧ scanCodabar (speck i (Codabar.encode x)) = none := by
  have h := C54_codabar_own_scan s x hx
  refine ⟨codabarOwn_speck _ s h i hi, ?_⟩
  cases h' : scanCodabar (speck i (Codabar.encode x)) with
  | none => rfl
  | some t' =>
    unfold scanOwnCodabar at h
    unfold scanCodabar at h'
    simp only [Option.bind_eq_bind, Option.bind_eq_some_iff] at h h'
    obtain ⟨es, a1, a2⟩ := h
    obtain ⟨es', b1, b2⟩ := h'
    obtain ⟨l, a3⟩ := readAllFrom_mono 8 _ readJointChar joint_of_own [] _ _ a2
    obtain ⟨l', b3⟩ := readAllFrom_mono 8 _ readJointChar joint_of_standard [] _ _ b2
    obtain ⟨-, -, -, -, -, -, -, h3⟩ := gap_one_off _ codabarJoint_keys 7 (by omega) readJointChar (fun _ => rfl) _ i hi
      es es' l l' a1 b1 a3 b3
    exact absurd codabarJoint_firm h3

example : ∃ x, Codabar.new "A1+2B".toList = .ok x ∧ scanOwnCodabar (Codabar.encode x) = some "A1+2B".toList ∧
    ∀ i < (Codabar.encode x).length,
      scanOwnCodabar (speck i (Codabar.encode x)) = none ∧ scanCodabar (speck i (Codabar.encode x)) = none :=
  ⟨_, rfl, by decide +kernel, by decide +kernel⟩

/-! ## Code 93 and Code 128 -/

theorem code93_chart_sum : ∀ p ∈ code93Chart, p.2.sum = 9 := by decide +kernel

theorem code93_read_sum (w : List Nat) (c : Char) (h : readCode93Char w = some c) : w.sum = 9 := by
  unfold readCode93Char at h
  rw [Option.map_eq_some_iff] at h
  obtain ⟨p, hp, rfl⟩ := h
  have h1 := List.find?_some hp
  simp only [beq_iff_eq] at h1
  rw [← h1]
  exact code93_chart_sum p (List.mem_of_find?_eq_some hp)

theorem code93_speck (ms : List Nat) (t : List Char) (h : scanCode93 ms = some t) (i : Nat) (hi : i < ms.length) :
    scanCode93 (speck i ms) = none := by
  cases h' : scanCode93 (speck i ms) with
  | none => rfl
  | some t' =>
    obtain ⟨es, a1, a2, -⟩ := scanCode93_inv ms t h
    obtain ⟨es', b1, b2, -⟩ := scanCode93_inv _ t' h'
    obtain ⟨u, x, y, v, b, c, h1, h2, h3, h4, h5⟩ := groups_one_off 6 (by omega) readCode93Char
      (fun b c x y hb hc => Or.inl (by rw [code93_read_sum b x hb, code93_read_sum c y hc])) es es' [1] _ _ a2 b2
      ((one_off ms i hi _ _ a1 b1).imp_right Recount.near)
    have hxy : x ≠ y := by
      rintro rfl
      have := chart_inj _ code93_keys b c x h3 h4
      subst this
      exact not_nudged_self b h5
    obtain ⟨u', v', h6, h7⟩ := framed_one_off (code93Text t) (code93Text t') u v x y h1 h2 hxy
    have hA' := code93_text_mem t' (scanCode93_chars _ t' h')
    exact absurd (code93_replace t t' u' v' x y (scanCode93_chars ms t h) h6 h7 (hA' y (by rw [h7]; simp))).symm hxy

/-- C83. Changing one module of a Code 93 symbol leaves nothing to read. -/
theorem C83_code93 (s : List Char) (x : Code93.Code93) (hx : Code93.new s = .ok x) (ms : List Nat)
    (he : Code93.encode x = .ok ms) (i : Nat) (hi : i < ms.length) : scanCode93 (speck i ms) = none := by
  obtain ⟨ms', h1, h2⟩ := C17_code93_scan s x hx
  rw [he, Outcome.ok.injEq] at h1
  subst h1
  exact code93_speck ms s h2 i hi

example : ∃ x ms, Code93.new "A1".toList = .ok x ∧ Code93.encode x = .ok ms ∧ scanCode93 ms = some "A1".toList ∧
    ∀ i < ms.length, scanCode93 (speck i ms) = none := ⟨_, _, rfl, rfl, by decide +kernel, by decide +kernel⟩

theorem code128_chart_firm : ∀ w ∈ code128Chart, w.sum = 11 ∧ ∀ v ∈ code128Chart, nudged w v = false := by decide +kernel

theorem idxOf_mem (t : List (List Nat)) (w : List Nat) (v : Nat) (h : t.idxOf? w = some v) : w ∈ t := by
  unfold List.idxOf? at h
  obtain ⟨h1, h2, -⟩ := List.findIdx?_eq_some_iff_getElem.mp h
  simp only [beq_iff_eq] at h2
  rw [← h2]
  exact List.getElem_mem h1

theorem code128_speck (ms : List Nat) (t : List Char) (h : scanCode128 ms = some t) (i : Nat) (hi : i < ms.length) :
    scanCode128 (speck i ms) = none := by
  cases h' : scanCode128 (speck i ms) with
  | none => rfl
  | some t' =>
    obtain ⟨es, _, _, _, a1, a2, -⟩ := scanCode128_inv ms t h
    obtain ⟨es', _, _, _, b1, b2, -⟩ := scanCode128_inv _ t' h'
    obtain ⟨-, x, y, -, b, c, -, -, h3, h4, h5⟩ := groups_one_off 6 (by omega) code128Chart.idxOf?
      (fun b c x y hb hc => Or.inl (by
        rw [(code128_chart_firm b (idxOf_mem _ b x hb)).1, (code128_chart_firm c (idxOf_mem _ c y hc)).1]))
      es es' code128Stop _ _ a2 b2 ((one_off ms i hi _ _ a1 b1).imp_right Recount.near)
    have := nudged_of _ _ h5
    rw [(code128_chart_firm b (idxOf_mem _ b x h3)).2 c (idxOf_mem _ c y h4)] at this
    cases this

/-- C83. Changing one module of a Code 128 symbol leaves nothing to read. -/
theorem C83_code128 (b : Build) (s : List Char) (x : Code128.Code128) (hx : Code128.new s = .ok x) (hl : s.length ≤ 6489)
    (ms : List Nat) (he : Code128.encode b x = .ok ms) (i : Nat) (hi : i < ms.length) : scanCode128 (speck i ms) = none := by
  obtain ⟨ms', h1, h2⟩ := C28_code128_scan_regrouped_partial b s x hx hl
  rw [he, Outcome.ok.injEq] at h1
  subst h1
  exact code128_speck ms _ h2 i hi

example : ∃ x ms, Code128.new "ÀA1".toList = .ok x ∧ Code128.encode .debug x = .ok ms ∧ scanCode128 ms = some "ÀA1".toList ∧
    ∀ i < ms.length, scanCode128 (speck i ms) = none := ⟨_, _, rfl, rfl, by decide +kernel, by decide +kernel⟩

/-! ## EAN and UPC -/

theorem readAB_widths (w : List Nat) (p : Bool × Nat) (h : readAB w = some p) : w = wAB p ∧ p.2 < 10 := by
  unfold readAB at h
  split at h
  · next d e =>
    cases h
    have h1 := position_lt w d e
    have h2 := position_inv _ _ _ e
    refine ⟨?_, h1⟩
    rw [wAB, if_neg (by simp), wA, List.getD_eq_getElem?_getD, h2, Option.getD_some]
  · rw [Option.map_eq_some_iff] at h
    obtain ⟨d, hd, rfl⟩ := h
    have h1 := position_lt _ d hd
    have h2 := position_inv _ _ _ hd
    refine ⟨?_, h1⟩
    rw [wAB, if_pos rfl, wA, List.getD_eq_getElem?_getD, h2, Option.getD_some, List.reverse_reverse]

theorem readAB_of_readA (w : List Nat) (d : Nat) (h : readA w = some d) : readAB w = some (false, d) := by
  unfold readA at h
  unfold readAB
  rw [h]

/-- Moving an edge inside a digit changes its set. -/
theorem wAB_nudged : ∀ d < 10, ∀ e < 10, ∀ s t, nudged (wAB (s, d)) (wAB (t, e)) = true → s ≠ t := by decide +kernel

/-- A digit of set B. -/
def isB (w : List Nat) : Bool := (readAB w).map Prod.fst == some true

/-- A digit, or the guard or separator of its length. -/
def Piece (G : Nat → List Nat) (w : List Nat) : Prop := (∃ p, readAB w = some p) ∨ (w = G w.length ∧ w.length ≠ 4)

theorem piece_length (w : List Nat) (p : Bool × Nat) (h : readAB w = some p) : w.length = 4 ∧ w.sum = 7 := by
  obtain ⟨rfl, h2⟩ := readAB_widths w p h
  exact ⟨(wAB_spec p.2 h2 p.1).1, wAB_sum p.2 h2 p.1⟩

theorem pieces_alike (G : Nat → List Nat) (bs cs : List (List Nat)) (hl : bs.map List.length = cs.map List.length)
    (hb : ∀ b ∈ bs, Piece G b) (hc : ∀ c ∈ cs, Piece G c) : Alike bs cs := by
  induction bs generalizing cs with
  | nil =>
    cases cs with
    | nil => trivial
    | cons c cs => simp at hl
  | cons b bs ih =>
    cases cs with
    | nil => simp at hl
    | cons c cs =>
      simp only [List.map_cons, List.cons.injEq] at hl
      refine ⟨hl.1, Or.inl ?_, ih cs hl.2 (fun x hx => hb x (by simp [hx])) (fun x hx => hc x (by simp [hx]))⟩
      rcases hb b (by simp) with ⟨p, hp⟩ | ⟨h1, h2⟩
      · rcases hc c (by simp) with ⟨q, hq⟩ | ⟨h3, h4⟩
        · rw [(piece_length b p hp).2, (piece_length c q hq).2]
        · rw [← hl.1, (piece_length b p hp).1] at h4; exact absurd rfl h4
      · rcases hc c (by simp) with ⟨q, hq⟩ | ⟨h3, h4⟩
        · rw [hl.1, (piece_length c q hq).1] at h2; exact absurd rfl h2
        · rw [h1, h3, hl.1]

/-- If an edge moves in a row of digits and guards, the number of digits of set B changes by one. -/
theorem pieces_one_off (G : Nat → List Nat) (bs cs : List (List Nat)) (hl : bs.map List.length = cs.map List.length)
    (hb : ∀ b ∈ bs, Piece G b) (hc : ∀ c ∈ cs, Piece G c) (hn : Nudged bs.flatten cs.flatten) :
    bs.countP isB = cs.countP isB + 1 ∨ cs.countP isB = bs.countP isB + 1 := by
  obtain ⟨P, b, c, Q, rfl, rfl, h3⟩ := one_group bs cs (pieces_alike G bs cs hl hb hc) hn
  have hlen : b.length = c.length := by
    obtain ⟨p, a, a2, a', a2', q, rfl, rfl, -⟩ := h3
    simp
  have h4 : isB b ≠ isB c := by
    rcases hb b (by simp) with ⟨p, hp⟩ | ⟨h1, h2⟩
    · rcases hc c (by simp) with ⟨q, hq⟩ | ⟨h5, h6⟩
      · obtain ⟨e1, e2⟩ := readAB_widths b p hp
        obtain ⟨e3, e4⟩ := readAB_widths c q hq
        have h5 := nudged_of _ _ h3
        rw [e1, e3] at h5
        have h6 := wAB_nudged p.2 e2 q.2 e4 p.1 q.1 h5
        unfold isB
        rw [hp, hq]
        simpa using h6
      · rw [← hlen, (piece_length b p hp).1] at h6; exact absurd rfl h6
    · rcases hc c (by simp) with ⟨q, hq⟩ | ⟨h5, h6⟩
      · rw [hlen, (piece_length c q hq).1] at h2; exact absurd rfl h2
      · rw [h1, h5, hlen] at h3
        exact absurd h3 (not_nudged_self _)
  rw [List.countP_append, List.countP_cons, List.countP_append, List.countP_cons]
  revert h4
  cases isB b <;> cases isB c <;> intro h4
  · exact absurd rfl h4
  · right; simp; omega
  · left; simp; omega
  · exact absurd rfl h4

theorem countP_sets (ws : List (List Nat)) (ps : List (Bool × Nat)) (h : ws.map readAB = ps.map some) :
    ws.countP isB = (ps.map Prod.fst).count true := by
  induction ws generalizing ps with
  | nil =>
    cases ps with
    | nil => rfl
    | cons p ps => simp at h
  | cons w ws ih =>
    cases ps with
    | nil => simp at h
    | cons p ps =>
      simp only [List.map_cons, List.cons.injEq] at h
      rw [List.countP_cons, ih ps h.2, List.map_cons, List.count_cons]
      congr 1
      unfold isB
      rw [h.1]
      obtain ⟨s, d⟩ := p
      cases s <;> rfl

theorem countP_A (ws : List (List Nat)) (ds : List Nat) (h : ws.map readA = ds.map some) :
    ws.countP isB = 0 ∧ ∀ w ∈ ws, ∃ p, readAB w = some p := by
  have key : ∀ w ∈ ws, ∃ d, readAB w = some (false, d) := by
    intro w hw
    have : readA w ∈ ds.map some := by rw [← h]; exact List.mem_map_of_mem hw
    obtain ⟨d, -, hd⟩ := List.mem_map.mp this
    exact ⟨d, readAB_of_readA w d hd.symm⟩
  constructor
  · rw [List.countP_eq_zero]
    intro w hw
    obtain ⟨d, hd⟩ := key w hw
    unfold isB
    rw [hd]
    simp
  · intro w hw
    obtain ⟨d, hd⟩ := key w hw
    exact ⟨_, hd⟩

/-- The guards of the symbols with two halves. -/
def halfGuards (n : Nat) : List Nat := if n = 3 then [1, 1, 1] else [1, 1, 1, 1, 1]

theorem halves_pieces (L R : List (List Nat)) (hL : ∀ w ∈ L, ∃ p, readAB w = some p) (hR : ∀ w ∈ R, ∃ p, readAB w = some p) :
    ∀ w ∈ [1, 1, 1] :: (L ++ [1, 1, 1, 1, 1] :: (R ++ [[1, 1, 1]])), Piece halfGuards w := by
  intro w hw
  simp only [List.mem_cons, List.mem_append, List.not_mem_nil, or_false] at hw
  rcases hw with rfl | hw | rfl | hw | rfl
  · exact Or.inr ⟨rfl, by decide⟩
  · exact Or.inl (hL w hw)
  · exact Or.inr ⟨rfl, by decide⟩
  · exact Or.inl (hR w hw)
  · exact Or.inr ⟨rfl, by decide⟩

theorem halves_count (L R : List (List Nat)) (hR : R.countP isB = 0) :
    ([1, 1, 1] :: (L ++ [1, 1, 1, 1, 1] :: (R ++ [[1, 1, 1]]))).countP isB = L.countP isB := by
  have h1 : isB [1, 1, 1] = false := by decide
  have h2 : isB [1, 1, 1, 1, 1] = false := by decide
  simp [List.countP_append, h1, h2, hR]

theorem replicate_map_length (n k : Nat) (L : List (List Nat)) (hl : L.length = n) (h : ∀ w ∈ L, w.length = k) :
    L.map List.length = List.replicate n k := by
  rw [List.eq_replicate_iff]
  exact ⟨by simp [hl], by intro x hx; obtain ⟨w, hw, rfl⟩ := List.mem_map.mp hx; exact h w hw⟩

/-- Two symbols with two halves that differ in one module: the number of digits of set B on the left changes by one. -/
theorem halves_one_off (n : Nat) (L R L' R' : List (List Nat)) (ds ds' : List Nat)
    (lL : L.length = n) (lL' : L'.length = n) (lR : R.length = n) (lR' : R'.length = n)
    (hL : ∀ w ∈ L, ∃ p, readAB w = some p) (hL' : ∀ w ∈ L', ∃ p, readAB w = some p)
    (hR : R.map readA = ds.map some) (hR' : R'.map readA = ds'.map some) (es es' : List Nat)
    (he : es = [1, 1, 1] ++ (L.flatten ++ ([1, 1, 1, 1, 1] ++ (R.flatten ++ [1, 1, 1]))))
    (he' : es' = [1, 1, 1] ++ (L'.flatten ++ ([1, 1, 1, 1, 1] ++ (R'.flatten ++ [1, 1, 1]))))
    (hn : Nudged es es' ∨ Recount es es') : L.countP isB = L'.countP isB + 1 ∨ L'.countP isB = L.countP isB + 1 := by
  obtain ⟨c1, hR⟩ := countP_A R ds hR
  obtain ⟨c2, hR'⟩ := countP_A R' ds' hR'
  have four : ∀ L : List (List Nat), (∀ w ∈ L, ∃ p, readAB w = some p) → ∀ w ∈ L, w.length = 4 := by
    intro L h w hw
    obtain ⟨p, hp⟩ := h w hw
    exact (piece_length w p hp).1
  rcases hn with hn | hn
  · rw [← halves_count L R c1, ← halves_count L' R' c2]
    refine pieces_one_off halfGuards _ _ ?_ (halves_pieces L R hL hR) (halves_pieces L' R' hL' hR') ?_
    · simp only [List.map_cons, List.map_append]
      rw [replicate_map_length n 4 L lL (four L hL), replicate_map_length n 4 L' lL' (four L' hL'),
        replicate_map_length n 4 R lR (four R hR), replicate_map_length n 4 R' lR' (four R' hR')]
    · rw [he, he'] at hn
      simpa using hn
  · have h1 := groups_length 4 L (four L hL)
    have h2 := groups_length 4 L' (four L' hL')
    have h3 := groups_length 4 R (four R hR)
    have h4 := groups_length 4 R' (four R' hR')
    have := hn.near.1
    rw [he, he'] at this
    simp only [List.length_append, h1, h2, h3, h4, lL, lL', lR, lR'] at this
    exact absurd rfl this

theorem halves_speck (n : Nat) (ms ds : List Nat) (h : (elements ms).bind (readHalves n) = some ds) (i : Nat)
    (hi : i < ms.length) : (elements (speck i ms)).bind (readHalves n) = none := by
  cases h' : (elements (speck i ms)).bind (readHalves n) with
  | none => rfl
  | some ds' =>
    rw [Option.bind_eq_some_iff] at h h'
    obtain ⟨es, a1, a2⟩ := h
    obtain ⟨es', b1, b2⟩ := h'
    obtain ⟨l, r, e1, e2, e3, -, -⟩ := readHalves_inv n es ds a2
    obtain ⟨l', r', e1', e2', e3', -, -⟩ := readHalves_inv n es' ds' b2
    obtain ⟨L, rfl, k2, k3, k4⟩ := readN_inv _ _ _ _ _ _ e2
    obtain ⟨L', rfl, k2', k3', k4'⟩ := readN_inv _ _ _ _ _ _ e2'
    obtain ⟨R, rfl, q2, q3, q4⟩ := readN_inv _ _ _ _ _ _ e3
    obtain ⟨R', rfl, q2', q3', q4'⟩ := readN_inv _ _ _ _ _ _ e3'
    have len : ∀ (ws : List (List Nat)) (f : List Nat → Option Nat) (l : List Nat), ws.map f = l.map some → l.length = n →
        ws.length = n := by
      intro ws f l h hl
      have := congrArg List.length h
      simpa [hl] using this
    obtain ⟨c1, c2⟩ := countP_A L _ k3
    obtain ⟨c1', c2'⟩ := countP_A L' _ k3'
    have := halves_one_off n L R L' R' _ _ (len L _ _ k3 k4) (len L' _ _ k3' k4') (len R _ _ q3 q4) (len R' _ _ q3' q4')
      c2 c2' q3 q3' es es' e1 e1' (one_off ms i hi es es' a1 b1)
    omega

/-- C83. Changing one module of an EAN-8 symbol leaves nothing to read. -/
theorem C83_ean8 (b : Build) (s : List Char) (x : Ean8.EAN8) (hx : Ean8.new b s = .ok x) (ms : List Nat)
    (he : Ean8.encode b x = .ok ms) (i : Nat) (hi : i < ms.length) : scanEan8 (speck i ms) = none := by
  obtain ⟨ms', h1, h2⟩ := C07_ean8_scan b s x hx
  rw [he, Outcome.ok.injEq] at h1
  subst h1
  exact halves_speck 4 ms _ h2 i hi

example : ∃ x ms, Ean8.new .debug "5512345".toList = .ok x ∧ Ean8.encode .debug x = .ok ms ∧ ms.length = 67 ∧
    ∀ i < 67, scanEan8 (speck i ms) = none := ⟨_, _, rfl, rfl, by decide, by decide +kernel⟩

/-- C83. Changing one module of a UPC-A symbol leaves nothing to read. -/
theorem C83_upca (b : Build) (s : List Char) (x : Upca.UPCA) (hx : Upca.new b s = .ok x) (ms : List Nat)
    (he : Upca.encode b x = .ok ms) (i : Nat) (hi : i < ms.length) : scanUpca (speck i ms) = none := by
  obtain ⟨ms', h1, h2⟩ := C09_upca_scan b s x hx
  rw [he, Outcome.ok.injEq] at h1
  subst h1
  exact halves_speck 6 ms _ h2 i hi

example : ∃ x ms, Upca.new .debug "61234567890".toList = .ok x ∧ Upca.encode .debug x = .ok ms ∧ ms.length = 95 ∧
    ∀ i < 95, scanUpca (speck i ms) = none := ⟨_, _, rfl, rfl, by decide, by decide +kernel⟩

theorem ean13_sets_count : ∀ s ∈ ean13Sets, s.count true = 0 ∨ s.count true = 3 := by decide

theorem ean5_sets_count : ∀ s ∈ ean5Sets, s.count true = 2 := by decide

theorem reads_of {α : Type} (f : List Nat → Option α) (ws : List (List Nat)) (l : List α) (h : ws.map f = l.map some) :
    (∀ w ∈ ws, ∃ x, f w = some x) ∧ ws.length = l.length := by
  constructor
  · intro w hw
    have : f w ∈ l.map some := by rw [← h]; exact List.mem_map_of_mem hw
    obtain ⟨x, -, hx⟩ := List.mem_map.mp this
    exact ⟨x, hx.symm⟩
  · have := congrArg List.length h
    simpa using this

theorem ean13_speck (ms ds : List Nat) (h : scanEan13 ms = some ds) (i : Nat) (hi : i < ms.length) :
    scanEan13 (speck i ms) = none := by
  cases h' : scanEan13 (speck i ms) with
  | none => rfl
  | some ds' =>
    unfold scanEan13 at h h'
    rw [Option.bind_eq_some_iff] at h h'
    obtain ⟨es, a1, a2⟩ := h
    obtain ⟨es', b1, b2⟩ := h'
    obtain ⟨l, r, ps, e1, e2, e3, e4, -⟩ := readEan13_inv es ds a2
    obtain ⟨l', r', ps', e1', e2', e3', e4', -⟩ := readEan13_inv es' ds' b2
    obtain ⟨L, rfl, k2, k3, k4⟩ := readN_inv _ _ _ _ _ _ e2
    obtain ⟨L', rfl, k2', k3', k4'⟩ := readN_inv _ _ _ _ _ _ e2'
    obtain ⟨R, rfl, q2, q3, q4⟩ := readN_inv _ _ _ _ _ _ e3
    obtain ⟨R', rfl, q2', q3', q4'⟩ := readN_inv _ _ _ _ _ _ e3'
    have := halves_one_off 6 L R L' R' _ _ ((reads_of _ L _ k3).2.trans k4) ((reads_of _ L' _ k3').2.trans k4')
      ((reads_of _ R _ q3).2.trans q4) ((reads_of _ R' _ q3').2.trans q4')
      (reads_of _ L _ k3).1 (reads_of _ L' _ k3').1 q3 q3' es es' e1 e1' (one_off ms i hi es es' a1 b1)
    rw [countP_sets L ps k3, countP_sets L' ps' k3'] at this
    have c1 := ean13_sets_count _ (List.mem_of_getElem? e4)
    have c2 := ean13_sets_count _ (List.mem_of_getElem? e4')
    omega

/-- C83. Changing one module of an EAN-13 symbol leaves nothing to read. -/
theorem C83_ean13 (b : Build) (s : List Char) (x : Ean13.EAN13) (hx : Ean13.new b s = .ok x) (ms : List Nat)
    (he : Ean13.encode b x = .ok ms) (i : Nat) (hi : i < ms.length) : scanEan13 (speck i ms) = none := by
  obtain ⟨ms', h1, h2⟩ := C02_ean13_scan b s x hx
  rw [he, Outcome.ok.injEq] at h1
  subst h1
  exact ean13_speck ms _ h2 i hi

example : ∃ x ms, Ean13.new .debug "750103131130".toList = .ok x ∧ Ean13.encode .debug x = .ok ms ∧ ms.length = 95 ∧
    ∀ i < 95, scanEan13 (speck i ms) = none := ⟨_, _, rfl, rfl, by decide, by decide +kernel⟩

/-- The guard and the separators of the add-ons. -/
def addOnGuards (n : Nat) : List Nat := if n = 3 then [1, 1, 2] else [1, 1]

/-- The groups of an add-on. -/
def addOnPieces (w : List Nat) (ws : List (List Nat)) : List (List Nat) := [1, 1, 2] :: w :: ws.flatMap (fun v => [[1, 1], v])

theorem addOn_inv (es ds : List Nat) (h : readAddOn es = some ds) :
    ∃ (w : List Nat) (ws : List (List Nat)) (ps : List (Bool × Nat)), es = (addOnPieces w ws).flatten ∧ (w :: ws).map readAB = ps.map some ∧ ds = ps.map Prod.snd ∧
      addOnOk (ps.map Prod.fst) ds = true := by
  obtain ⟨l, f, e, m, h1, h2, h3, h4, h5⟩ := readAddOn_inv es ds h
  obtain ⟨F, rfl, k2, k3, k4⟩ := readN_inv _ _ _ _ _ _ h2
  obtain ⟨M, rfl, m2, m3⟩ := readAll_groups 6 (by omega) _ _ _ h3
  obtain ⟨w, rfl⟩ : ∃ w, F = [w] := by
    have := (reads_of _ F _ k3).2.trans k4
    exact List.length_eq_one_iff.mp this
  have key : ∀ (M : List (List Nat)) (m : List (Bool × Nat)), M.map readAddOnDigit = m.map some →
      ∃ ws : List (List Nat), M = ws.map (fun v => [1, 1] ++ v) ∧ ws.map readAB = m.map some := by
    intro M
    induction M with
    | nil => intro m hm; exact ⟨[], rfl, by simpa using hm⟩
    | cons v M ih =>
      intro m hm
      cases m with
      | nil => simp at hm
      | cons y m =>
        simp only [List.map_cons, List.cons.injEq] at hm
        obtain ⟨ws, e1, e2⟩ := ih m hm.2
        have hv := hm.1
        unfold readAddOnDigit at hv
        rw [Option.bind_eq_some_iff] at hv
        obtain ⟨r, hr, hv⟩ := hv
        exact ⟨r :: ws, by rw [expect_inv _ _ _ hr, e1]; rfl, by rw [List.map_cons, hv, e2]; rfl⟩
  obtain ⟨ws, rfl, e2⟩ := key M m m3
  refine ⟨w, ws, f ++ m, ?_, ?_, h4, h5⟩
  · rw [h1, addOnPieces]
    have : ∀ ws : List (List Nat), (ws.map (fun v => [1, 1] ++ v)).flatten = (ws.flatMap (fun v => [[1, 1], v])).flatten := by
      intro ws
      induction ws with
      | nil => rfl
      | cons v ws ih => simp only [List.map_cons, List.flatten_cons, List.flatMap_cons, List.flatten_append, ih]; simp
    rw [this]
    simp
  · rw [List.map_cons, e2, List.map_append, ← k3]
    rfl

theorem addOn_pieces (w : List Nat) (ws : List (List Nat)) (h : ∀ v ∈ w :: ws, ∃ p, readAB v = some p) :
    ∀ v ∈ addOnPieces w ws, Piece addOnGuards v := by
  intro v hv
  simp only [addOnPieces, List.mem_cons, List.mem_flatMap, List.not_mem_nil, or_false] at hv
  rcases hv with rfl | rfl | ⟨u, hu, rfl | rfl⟩
  · exact Or.inr ⟨rfl, by decide⟩
  · exact Or.inl (h v (by simp))
  · exact Or.inr ⟨rfl, by decide⟩
  · exact Or.inl (h v (by simp [hu]))

theorem addOn_count (w : List Nat) (ws : List (List Nat)) : (addOnPieces w ws).countP isB = (w :: ws).countP isB := by
  have h1 : isB [1, 1, 2] = false := by decide
  have h2 : isB [1, 1] = false := by decide
  have : ∀ ws : List (List Nat), (ws.flatMap (fun v => [[1, 1], v])).countP isB = ws.countP isB := by
    intro ws
    induction ws with
    | nil => rfl
    | cons v ws ih => rw [List.flatMap_cons, List.countP_append, ih]; simp [List.countP_cons, h2]; omega
  rw [addOnPieces, List.countP_cons, List.countP_cons, this, List.countP_cons, h1]
  simp

theorem addOn_shape (w : List Nat) (ws : List (List Nat)) (h : ∀ v ∈ w :: ws, ∃ p, readAB v = some p) :
    (addOnPieces w ws).map List.length = 3 :: 4 :: (List.replicate ws.length [2, 4]).flatten ∧
      (addOnPieces w ws).flatten.length = 7 + 6 * ws.length := by
  have four : ∀ v ∈ w :: ws, v.length = 4 := by
    intro v hv
    obtain ⟨p, hp⟩ := h v hv
    exact (piece_length v p hp).1
  have h1 : ∀ ws : List (List Nat), (∀ v ∈ ws, v.length = 4) →
      (ws.flatMap (fun v => [[1, 1], v])).map List.length = (List.replicate ws.length [2, 4]).flatten ∧
      (ws.flatMap (fun v => [[1, 1], v])).flatten.length = 6 * ws.length := by
    intro ws
    induction ws with
    | nil => intro _; exact ⟨rfl, rfl⟩
    | cons v ws ih =>
      intro hf
      obtain ⟨i1, i2⟩ := ih (fun x hx => hf x (by simp [hx]))
      have hv := hf v (by simp)
      refine ⟨?_, ?_⟩
      · rw [List.flatMap_cons, List.map_append, i1, List.length_cons, List.replicate_succ, List.flatten_cons]
        simp [hv]
      · rw [List.flatMap_cons, List.flatten_append, List.length_append, i2, List.length_cons]
        simp [hv]; omega
  obtain ⟨i1, i2⟩ := h1 ws (fun v hv => four v (by simp [hv]))
  have hw := four w (by simp)
  refine ⟨?_, ?_⟩
  · rw [addOnPieces, List.map_cons, List.map_cons, i1, hw]; rfl
  · rw [addOnPieces, List.flatten_cons, List.flatten_cons, List.length_append, List.length_append, i2, hw]; simp; omega

/-- C83. Changing one module of a five-digit add-on leaves nothing to read. -/
theorem C83_ean5 (b : Build) (s : List Char) (h5 : s.length = 5) (x : EanSupp.EANSUPP) (hx : EanSupp.new s = .ok x)
    (ms : List Nat) (he : EanSupp.encode b x = .ok ms) (i : Nat) (hi : i < ms.length) : scanAddOn (speck i ms) = none := by
  obtain ⟨ms', h1, h2⟩ := C12_eansupp_scan b s x hx
  rw [he, Outcome.ok.injEq] at h1
  subst h1
  cases h' : scanAddOn (speck i ms) with
  | none => rfl
  | some ds' =>
    unfold scanAddOn at h2 h'
    rw [Option.bind_eq_some_iff] at h2 h'
    obtain ⟨es, a1, a2⟩ := h2
    obtain ⟨es', b1, b2⟩ := h'
    obtain ⟨w, ws, ps, rfl, e2, e3, e4⟩ := addOn_inv es _ a2
    obtain ⟨w', ws', ps', rfl, e2', e3', e4'⟩ := addOn_inv es' _ b2
    obtain ⟨p1, p2⟩ := reads_of _ _ _ e2
    obtain ⟨p1', p2'⟩ := reads_of _ _ _ e2'
    have l1 : ps.length = 5 := by
      have := congrArg List.length e3
      simpa [digitsOf, h5] using this.symm
    obtain ⟨s1, s2⟩ := addOn_shape w ws p1
    obtain ⟨s1', s2'⟩ := addOn_shape w' ws' p1'
    have hn := one_off ms i hi _ _ a1 b1
    have hlen : ws.length = ws'.length := by
      rcases hn with hn | hn
      · obtain ⟨p, a, a2, a', a2', q, c1, c2, -⟩ := hn
        have c3 := congrArg List.length c1
        have c4 := congrArg List.length c2
        rw [s2] at c3
        rw [s2'] at c4
        simp only [List.length_append, List.length_cons] at c3 c4
        omega
      · have := hn.near
        unfold NearLength at this
        rw [s2, s2'] at this
        omega
    rcases hn with hn | hn
    · have := pieces_one_off addOnGuards _ _ (by rw [s1, s1', hlen]) (addOn_pieces w ws p1) (addOn_pieces w' ws' p1') hn
      rw [addOn_count, addOn_count, countP_sets _ ps e2, countP_sets _ ps' e2'] at this
      have l2 : ps'.length = 5 := by
        rw [← p2', List.length_cons, ← hlen]
        rw [← p2, List.length_cons] at l1
        exact l1
      have five : ∀ (ps : List (Bool × Nat)) (ds : List Nat), ps.length = 5 → ds = ps.map Prod.snd →
          addOnOk (ps.map Prod.fst) ds = true → (ps.map Prod.fst).count true = 2 := by
        intro ps ds hl hd ho
        have hdl : ds.length = 5 := by rw [hd]; simpa using hl
        unfold addOnOk at ho
        split at ho
        · simp at hdl
        · rw [beq_iff_eq] at ho
          exact ean5_sets_count _ (List.mem_of_getElem? ho)
        · cases ho
      rw [five ps _ l1 e3 e4, five ps' _ l2 e3' e4'] at this
      omega
    · have := hn.near.1
      rw [s2, s2', hlen] at this
      exact absurd rfl this

/-! ## Examples -/

example : ∃ x ms, Ean8.new .release "5512345".toList = .ok x ∧ Ean8.encode .release x = .ok ms ∧
    scanEan8 ms = some [5, 5, 1, 2, 3, 4, 5, 7] ∧ ∀ i < 67, scanEan8 (speck i ms) = none :=
  ⟨_, _, rfl, rfl, by decide +kernel, by decide +kernel⟩

example : ∃ x ms, Code39.new "A1".toList = .ok x ∧ Code39.encode x = .ok ms ∧
    scanCode39 ms = some "A1".toList ∧ ∀ i < ms.length, scanCode39 (speck i ms) = none :=
  ⟨_, _, rfl, rfl, by decide +kernel, by decide +kernel⟩

example : ∃ x ms, EanSupp.new "51234".toList = .ok x ∧ EanSupp.encode .release x = .ok ms ∧
    scanAddOn ms = some [5, 1, 2, 3, 4] ∧ ∀ i < ms.length, scanAddOn (speck i ms) = none :=
  ⟨_, _, rfl, rfl, by decide +kernel, by decide +kernel⟩

end Barcoders
