import Verif.Spec.DebugSets
import Verif.Props.DebugSettings

/-! More of C127 and C129: the code sets that `{:?}` shows of a Code 128 barcode, and the first word of each generator's text. -/

set_option autoImplicit false

namespace Barcoders
open Spec

/-- The units of a sequence of values read from code set `set` on. -/
def unitsOf (set : CodeSet) : List Nat → List Code128.Unit
  | [] => []
  | v :: vs => unit128 set v :: unitsOf (code128Next set v) vs

theorem pair_next (d e : Char) (v : Nat) (h : val .C [d, e] = some v) : code128Next .C v = .C := by
  have ht := (val_iff .C [d, e] (by simp) v).mp h
  have key : ∀ v < 103, ∀ t ∈ (code128Text .C v).toList, t.length = 2 → code128Next .C v = .C := by decide +kernel
  exact key v (text_lt .C v _ ht) [d, e] (by simp [ht]) rfl

/-- Each unit that the library's loop adds is of the code set in force. -/
theorem parse_sets (s : List Char) (us : List Code128.Unit) (set : CodeSet) (carry : Option Char) (hu : us ≠ [])
    (hc : carry.isSome → set = .C) (us' : List Code128.Unit)
    (h : (foldO Code128.parseStep ⟨us, conv set, carry⟩ s >>= finish128) = .ok us') :
    ∃ vs, us' = us ++ unitsOf set vs := by
  induction s generalizing us set carry with
  | nil =>
    cases carry with
    | none =>
      have h : Outcome.ok us = Outcome.ok us' := h
      cases h
      exact ⟨[], by simp [unitsOf]⟩
    | some d => cases h
  | cons c s ih =>
    have push : ∀ set' carry' v, code128Next set v = set' → (carry'.isSome → set' = .C) →
        (foldO Code128.parseStep ⟨us ++ [unit128 set v], conv set', carry'⟩ s >>= finish128) = .ok us' →
        ∃ vs, us' = us ++ unitsOf set vs := by
      intro set' carry' v hn hc' h
      obtain ⟨vs, hv⟩ := ih (us ++ [unit128 set v]) set' carry' (by simp) hc' h
      refine ⟨v :: vs, ?_⟩
      rw [hv, unitsOf, hn]
      simp
    rw [foldO, step128 us set carry c hu hc] at h
    cases hs : setOf c with
    | some set' =>
      rw [hs] at h
      cases carry with
      | some d => cases h
      | none =>
        simp only [] at h
        cases hv : val set [c] with
        | none => rw [hv] at h; cases h
        | some v =>
          rw [hv] at h
          have e := (setOf_iff c set').mp hs
          rw [e] at hv
          exact push set' none v (switch_val set set' v hv).2 (by simp) h
    | none =>
      rw [hs] at h
      simp only [] at h
      by_cases hd : c.isDigit = true ∧ set = .C
      · rw [if_pos hd] at h
        obtain ⟨-, rfl⟩ := hd
        cases carry with
        | none => exact ih us .C (some c) hu (fun _ => rfl) h
        | some d =>
          simp only [] at h
          cases hv : val .C [d, c] with
          | none => rw [hv] at h; cases h
          | some v =>
            rw [hv] at h
            exact push .C none v (pair_next d c v hv) (by simp) h
      · rw [if_neg hd] at h
        cases hv : val set [c] with
        | none => rw [hv] at h; cases h
        | some v =>
          rw [hv] at h
          exact push set carry v (not_switch_val set c v hv hs).2 hc h

theorem unitsOf_index (set : CodeSet) (vs : List Nat) : (unitsOf set vs).map Code128.Unit.index = vs := by
  induction vs generalizing set with
  | nil => rfl
  | cons v vs ih => rw [unitsOf, List.map_cons, ih, unit128_index]

/-- The words of one unit, then those of the rest. -/
theorem words_unit (u : Code128.Unit) (c : Char) (rest : List Char) :
    wordsIn [] (Debug.code128Unit u ++ c :: rest) =
      ["Unit".toList, "kind".toList, [Debug.unitKind u.kind], "index".toList] ++ wordsIn [] (c :: rest) := by
  have hk : (Debug.unitKind u.kind).isAlpha = true := by cases u.kind <;> rfl
  have h1 : "Unit { kind: ".toList = "Unit".toList ++ (" { ".toList ++ ("kind".toList ++ ": ".toList)) := by decide
  have h2 : ", index: ".toList = ", ".toList ++ ("index".toList ++ ": ".toList) := by decide
  have e : Debug.code128Unit u ++ c :: rest = "Unit".toList ++ (" { ".toList ++ ("kind".toList ++ (": ".toList ++
      ([Debug.unitKind u.kind] ++ (", ".toList ++ ("index".toList ++ ((": ".toList ++ showNat u.index ++ " }".toList) ++ c :: rest))))))) := by
    unfold Debug.code128Unit
    rw [h1, h2]
    generalize "Unit".toList = t1
    generalize " { ".toList = t2
    generalize "kind".toList = t3
    generalize ": ".toList = t4
    generalize ", ".toList = t5
    generalize "index".toList = t6
    generalize " }".toList = t7
    simp only [List.append_assoc]
  have hsep : ": ".toList ++ showNat u.index ++ " }".toList ≠ [] ∧
      ∀ d ∈ ": ".toList ++ showNat u.index ++ " }".toList, d.isAlpha = false := by
    refine ⟨by simp, fun d hd => ?_⟩
    rcases List.mem_append.mp hd with hd | hd
    · rcases List.mem_append.mp hd with hd | hd
      · exact (by decide : ∀ d ∈ ": ".toList, d.isAlpha = false) d hd
      · exact showNat_not_alpha _ d hd
    · exact (by decide : ∀ d ∈ " }".toList, d.isAlpha = false) d hd
  rw [e, wordsIn_next _ _ _ (by decide) (by decide) (by decide) (by decide),
    wordsIn_next _ _ _ (by decide) (by decide) (by decide) (by decide),
    wordsIn_next _ _ _ (by simp) (by simpa using hk) (by decide) (by decide),
    wordsIn_next _ _ _ (by decide) (by decide) hsep.1 hsep.2]
  rfl

theorem wordsListed_code128 (us : List Code128.Unit) : wordsListed (Debug.code128 ⟨us⟩) =
    us.flatMap (fun u => ["Unit".toList, "kind".toList, [Debug.unitKind u.kind], "index".toList]) := by
  have hend : wordsIn [] [']', ')'] = [] := by decide
  have ht : ∀ us : List Code128.Unit,
      wordsIn [] (us.flatMap (fun x => ", ".toList ++ Debug.code128Unit x) ++ [']', ')']) =
        us.flatMap (fun u => ["Unit".toList, "kind".toList, [Debug.unitKind u.kind], "index".toList]) := by
    intro us
    induction us with
    | nil => exact hend
    | cons u us ih =>
      rw [List.flatMap_cons, List.append_assoc, List.append_assoc, wordsIn_skip _ _ (by decide), List.flatMap_cons, ← ih]
      cases us with
      | nil => exact words_unit u ']' _
      | cons v us => exact words_unit u ',' _
  cases us with
  | nil => decide
  | cons u us =>
    have e : Debug.code128 ⟨u :: us⟩ = "Code128(".toList ++
        '[' :: (Debug.code128Unit u ++ (us.flatMap (fun x => ", ".toList ++ Debug.code128Unit x) ++ [']', ')'])) := by
      show Debug.tuple "Code128".toList (Debug.vec Debug.code128Unit (u :: us)) = _
      rw [Debug.tuple, Debug.vec]
      have h1 : "Code128(".toList = "Code128".toList ++ ['('] := rfl
      rw [h1]
      generalize "Code128".toList = p
      generalize us.flatMap (fun x => ", ".toList ++ Debug.code128Unit x) = q
      simp
    have hs : ∀ X, wordsIn [] ('[' :: X) = wordsIn [] X := fun X => wordsIn_skip ['['] X (by decide)
    rw [wordsListed, e, dropWhile_bracket _ _ (by decide), hs, List.flatMap_cons, ← ht us]
    cases us with
    | nil => exact words_unit u ']' _
    | cons v us => exact words_unit u ',' _

theorem words_units (set : CodeSet) (vs : List Nat) :
    (unitsOf set vs).flatMap (fun u => ["Unit".toList, "kind".toList, [Debug.unitKind u.kind], "index".toList]) =
      (code128Sets set vs).flatMap codeSetWords := by
  induction vs generalizing set with
  | nil => rfl
  | cons v vs ih =>
    rw [unitsOf, List.flatMap_cons, ih, code128Sets, List.flatMap_cons]
    cases set <;> rfl

/-- C127. Beside each value of a Code 128 barcode `{:?}` lists the code set in which a reader takes it: that of the start character
for the start character and the next one, and then the one that the values before have left in force. -/
theorem C127_code128_sets (s : List Char) (x : Code128.Code128) (h : Code128.new s = .ok x) :
    ∃ set data, s.head? = some (CodeSet.char set) ∧ numbersListed (Debug.code128 x) = CodeSet.start set :: data ∧
      wordsListed (Debug.code128 x) = (set :: code128Sets set data).flatMap codeSetWords := by
  unfold Code128.new at h
  split at h
  · cases h
  rename_i hl
  cases s with
  | nil => exact absurd (by decide) hl
  | cons c r =>
    have hp := parseUnits_eq (c :: r)
    simp only [] at hp
    cases hs : setOf c with
    | none => simp only [hs] at hp; rw [hp] at h; cases h
    | some set =>
      have hc := (setOf_iff c set).mp hs
      subst hc
      have h0 : Code128.parseStep ⟨[], .none, none⟩ set.char = .ok ⟨[unit128 set set.start], conv set, none⟩ := by
        cases set <;> decide +kernel
      have e : Code128.parseUnits (set.char :: r) =
          (foldO Code128.parseStep ⟨[unit128 set set.start], conv set, none⟩ r >>= finish128) := by
        unfold Code128.parseUnits
        rw [foldO, h0]
        rfl
      cases hr : (foldO Code128.parseStep ⟨[unit128 set set.start], conv set, none⟩ r >>= finish128) with
      | err e' => rw [e, hr] at h; cases h
      | panic e' => rw [e, hr] at h; cases h
      | ok us =>
        rw [e, hr] at h
        cases h
        obtain ⟨vs, rfl⟩ := parse_sets r _ set none (by simp) (by simp) us hr
        refine ⟨set, vs, rfl, ?_, ?_⟩
        · unfold Debug.code128
          rw [numbersListed_tuple _ Debug.code128Unit Code128.Unit.index writesOne_unit _ (by decide)]
          rw [List.map_append, unitsOf_index, List.map_singleton, unit128_index]
          rfl
        · rw [wordsListed_code128, List.flatMap_append, words_units, List.flatMap_cons]
          cases set <;> rfl

example : ∃ x, Code128.new "ÀHĆ2345".toList = .ok x ∧ Debug.code128 x =
    ("Code128([Unit { kind: A, index: 103 }, Unit { kind: A, index: 40 }, Unit { kind: A, index: 99 }, " ++
      "Unit { kind: C, index: 23 }, Unit { kind: C, index: 45 }])").toList ∧
    (CodeSet.A :: code128Sets .A [40, 99, 23, 45]) = [.A, .A, .A, .C, .C] :=
  ⟨_, rfl, by decide +kernel, by decide⟩

/-- C129. The first word that `{:?}` shows of a generator tells which it is. -/
theorem C129_kinds (g : Ascii.ASCII) (j : Json.JSON) (s : Svg.SVG) :
    (wordsIn [] (Debug.ascii g)).head? = some "ASCII".toList ∧ (wordsIn [] (Debug.json j)).head? = some "JSON".toList ∧
    (wordsIn [] (Debug.svg s)).head? = some "SVG".toList := by
  have key : ∀ v r : List Char, v ≠ [] → (∀ d ∈ v, d.isAlpha = true) → (wordsIn [] (v ++ ' ' :: r)).head? = some v := by
    intro v r h1 h2
    rw [wordsIn_word [] v ' ' r h2 rfl (by simpa using h1)]
    rfl
  have h1 : "ASCII { height: ".toList = "ASCII".toList ++ ' ' :: "{ height: ".toList := by decide
  have h2 : "JSON { height: ".toList = "JSON".toList ++ ' ' :: "{ height: ".toList := by decide
  have h3 : "SVG { height: ".toList = "SVG".toList ++ ' ' :: "{ height: ".toList := by decide
  refine ⟨?_, ?_, ?_⟩
  · unfold Debug.ascii
    rw [h1]
    simp only [List.append_assoc, List.cons_append]
    exact key _ _ (by decide) (by decide)
  · unfold Debug.json
    rw [h2]
    simp only [List.append_assoc, List.cons_append]
    exact key _ _ (by decide) (by decide)
  · unfold Debug.svg
    rw [h3]
    simp only [List.append_assoc, List.cons_append]
    exact key _ _ (by decide) (by decide)

example : wordsIn [] (Debug.json ⟨40, 2⟩) = ["JSON".toList, "height".toList, "xdim".toList] := by decide +kernel

end Barcoders
