import Verif.Lemmas.TF
import Verif.Model.Code128
import Verif.Spec.Code128

set_option autoImplicit false

namespace Barcoders
open Spec

/-! ## Tables -/

/-- The model's name of a code set. -/
def conv : CodeSet → Code128.CharacterSet
  | .A => .A
  | .B => .B
  | .C => .C

/-- The column of the library's table for a code set. -/
def cols (set : CodeSet) : List (List Char) :=
  match set with
  | .A => Code128.CHARS.map (fun c => c.1.1)
  | .B => Code128.CHARS.map (fun c => c.1.2.1)
  | .C => Code128.CHARS.map (fun c => c.1.2.2)

/-- Index of an entry in a column. -/
def val (set : CodeSet) (t : List Char) : Option Nat := (cols set).idxOf? t

/-- The unit of an index. -/
def unit128 (set : CodeSet) (v : Nat) : Code128.Unit :=
  match set with
  | .A => ⟨.A, v⟩
  | .B => ⟨.B, v⟩
  | .C => ⟨.C, v⟩

theorem lookup_eq (set : CodeSet) (t : List Char) :
    (conv set).lookup t = match val set t with
      | some v => .ok (unit128 set v)
      | none => .err .character := by
  cases set <;>
  · simp only [Code128.CharacterSet.lookup, conv, Code128.CharacterSet.column, Outcome.ok_bind, val, cols, List.idxOf?,
      List.findIdx?_map, Function.comp_def]
    split <;> rename_i h <;> simp only [h] <;> rfl

theorem cols_spec : ∀ v < 103, ∀ set : CodeSet, ∀ t ∈ code128Text set v,
    val set t = some v := by
  intro v hv set
  have : ∀ s ∈ [CodeSet.A, .B, .C], ∀ v < 103, ∀ t ∈ (code128Text s v).toList, val s t = some v := by decide +kernel
  intro t ht
  exact this set (by cases set <;> simp) v hv t (by simpa using ht)

theorem cols_table : ∀ set : CodeSet, ∀ v < 106,
    (v < 103 → code128Text set v = (cols set)[v]?) ∧ (103 ≤ v → ((cols set)[v]?.map List.length) = some 7) := by
  have : ∀ s ∈ [CodeSet.A, .B, .C], ∀ v < 106,
    (v < 103 → code128Text s v = (cols s)[v]?) ∧ (103 ≤ v → ((cols s)[v]?.map List.length) = some 7) := by decide +kernel
  intro set
  exact this set (by cases set <;> simp)

theorem cols_length (set : CodeSet) : (cols set).length = 106 := by
  cases set <;> simp only [cols, List.length_map] <;> rfl

theorem val_some (set : CodeSet) (t : List Char) (v : Nat) (h : val set t = some v) (ht : t.length ≠ 7) :
    v < 103 ∧ code128Text set v = some t := by
  rw [val, List.idxOf?, List.findIdx?_eq_some_iff_getElem] at h
  obtain ⟨hv, h1, _⟩ := h
  have h1 : (cols set)[v] = t := by simpa using h1
  have h2 : (cols set)[v]? = some t := by rw [List.getElem?_eq_getElem hv, h1]
  rw [cols_length] at hv
  have h3 := cols_table set v hv
  rw [h2] at h3
  by_cases h4 : v < 103
  · exact ⟨h4, h3.1 h4⟩
  · have := h3.2 (by omega)
    simp at this
    exact absurd this ht

theorem text_lt (set : CodeSet) (v : Nat) (t : List Char) (h : code128Text set v = some t) : v < 103 := by
  cases set <;> simp only [code128Text] at h
  all_goals
    repeat' split at h
    all_goals first | omega | simp at h

theorem val_iff (set : CodeSet) (t : List Char) (ht : t.length ≠ 7) (v : Nat) :
    val set t = some v ↔ code128Text set v = some t :=
  ⟨fun h => (val_some set t v h ht).2, fun h => cols_spec v (text_lt set v t h) set t h⟩

set_option synthInstance.maxSize 2000 in
set_option synthInstance.maxHeartbeats 200000 in
/-- What a one-character symbol can be. -/
theorem text_single (set : CodeSet) (v : Nat) (c : Char) (h : code128Text set v = some [c]) :
    (code128Single set c ∧ code128Next set v = set ∧ c ≠ 'À' ∧ c ≠ 'Ɓ' ∧ c ≠ 'Ć' ∧ (set = .C → c.isDigit = false)) ∨
    (∃ set' : CodeSet, set ≠ set' ∧ c = set'.char ∧ code128Next set v = set') := by
  have key : ∀ s ∈ [CodeSet.A, .B, .C], ∀ v < 103, ∀ t ∈ (code128Text s v).toList, ∀ c ∈ t, t.length = 1 →
    (code128Single s c ∧ code128Next s v = s ∧ c ≠ 'À' ∧ c ≠ 'Ɓ' ∧ c ≠ 'Ć' ∧ (s ≠ .C ∨ c.isDigit = false)) ∨
    (s ≠ .A ∧ c = 'À' ∧ code128Next s v = .A) ∨ (s ≠ .B ∧ c = 'Ɓ' ∧ code128Next s v = .B) ∨
    (s ≠ .C ∧ c = 'Ć' ∧ code128Next s v = .C) := by decide +kernel
  rcases key set (by cases set <;> simp) v (text_lt set v _ h) [c] (by simp [h]) c (by simp) rfl with
    ⟨h1, h2, h3, h4, h5, h6⟩ | h | h | h
  · exact Or.inl ⟨h1, h2, h3, h4, h5, fun h => h6.resolve_left (fun h' => h' h)⟩
  · exact Or.inr ⟨_, h⟩
  · exact Or.inr ⟨_, h⟩
  · exact Or.inr ⟨_, h⟩

theorem single_text (set : CodeSet) (c : Char) (h : code128Single set c) : ∃ v, code128Text set v = some [c] := by
  have hn : ∀ n, n < 128 → ∀ c : Char, c.toNat = n → c = Char.ofNat n := by
    intro n _ c hc
    rw [← hc, Char.ofNat_toNat]
  cases set with
  | A =>
    rcases h with h | rfl | rfl | rfl | rfl | rfl
    · by_cases h32 : c.toNat < 32
      · refine ⟨c.toNat + 64, ?_⟩
        simp only [code128Text]
        rw [if_neg (by omega), if_pos (by omega), Nat.add_sub_cancel, Char.ofNat_toNat]
      · refine ⟨c.toNat - 32, ?_⟩
        simp only [code128Text]
        rw [if_pos (by omega), Nat.sub_add_cancel (by omega), Char.ofNat_toNat]
    · exact ⟨102, rfl⟩
    · exact ⟨97, rfl⟩
    · exact ⟨96, rfl⟩
    · exact ⟨101, rfl⟩
    · exact ⟨98, rfl⟩
  | B =>
    rcases h with h | rfl | rfl | rfl | rfl | rfl | rfl
    · refine ⟨c.toNat - 32, ?_⟩
      simp only [code128Text]
      rw [if_pos (by omega), Nat.sub_add_cancel (by omega), Char.ofNat_toNat]
    · exact ⟨95, rfl⟩
    · exact ⟨102, rfl⟩
    · exact ⟨97, rfl⟩
    · exact ⟨96, rfl⟩
    · exact ⟨100, rfl⟩
    · exact ⟨98, rfl⟩
  | C =>
    cases h
    exact ⟨102, rfl⟩

theorem switch_text (set set' : CodeSet) (h : set ≠ set') :
    ∃ v, code128Text set v = some [set'.char] ∧ code128Next set v = set' := by
  cases set <;> cases set' <;> first
    | exact absurd rfl h
    | exact ⟨99, rfl, rfl⟩
    | exact ⟨100, rfl, rfl⟩
    | exact ⟨101, rfl, rfl⟩

theorem self_switch (set : CodeSet) : val set [set.char] = none := by
  cases set <;> decide +kernel

theorem digit_pair_text (d e : Char) (hd : d.isDigit) (he : e.isDigit) :
    code128Text .C (10 * digitValue d + digitValue e) = some [d, e] := by
  rw [toNat_isDigit] at hd he
  have h0 : '0'.toNat = 48 := rfl
  simp only [code128Text, digitValue, h0]
  rw [if_pos (by omega)]
  have h1 : 48 + (10 * (d.toNat - 48) + (e.toNat - 48)) / 10 = d.toNat := by omega
  have h2 : 48 + (10 * (d.toNat - 48) + (e.toNat - 48)) % 10 = e.toNat := by omega
  rw [h1, h2, Char.ofNat_toNat, Char.ofNat_toNat]

theorem digit_pair_next (d e : Char) (hd : d.isDigit) (he : e.isDigit) :
    code128Next .C (10 * digitValue d + digitValue e) = .C := by
  rw [toNat_isDigit] at hd he
  have h0 : '0'.toNat = 48 := rfl
  simp only [code128Next, digitValue, h0]
  have h1 : 10 * (d.toNat - 48) + (e.toNat - 48) ≠ 100 := by omega
  have h2 : 10 * (d.toNat - 48) + (e.toNat - 48) ≠ 101 := by omega
  simp [h1, h2]

/-! ## Parsing -/

/-- Code set of a switch character. -/
def setOf (c : Char) : Option CodeSet :=
  if c = 'À' then some .A else if c = 'Ɓ' then some .B else if c = 'Ć' then some .C else none

/-- The symbols of the data. -/
def run128 (set : CodeSet) (carry : Option Char) : List Char → Option (List Nat)
  | [] => match carry with
    | none => some []
    | some _ => none
  | c :: s =>
    match setOf c with
    | some set' =>
      match carry with
      | some _ => none
      | none => (val set [c]).bind (fun v => (run128 set' none s).map (v :: ·))
    | none =>
      if c.isDigit ∧ set = .C then
        match carry with
        | none => run128 .C (some c) s
        | some d => (val .C [d, c]).bind (fun v => (run128 .C none s).map (v :: ·))
      else (val set [c]).bind (fun v => (run128 set carry s).map (v :: ·))

theorem run128_cons (set : CodeSet) (carry : Option Char) (c : Char) (s : List Char) :
    run128 set carry (c :: s) =
      match setOf c with
      | some set' =>
        match carry with
        | some _ => none
        | none => (val set [c]).bind (fun v => (run128 set' none s).map (v :: ·))
      | none =>
        if c.isDigit ∧ set = .C then
          match carry with
          | none => run128 .C (some c) s
          | some d => (val .C [d, c]).bind (fun v => (run128 .C none s).map (v :: ·))
        else (val set [c]).bind (fun v => (run128 set carry s).map (v :: ·)) := by
  cases carry <;> rfl

/-- The end of `parseUnits`. -/
def finish128 (st : Code128.PState) : Outcome (List Code128.Unit) :=
  match st.carry with
  | some _ => .err .character
  | Option.none => .ok st.units

theorem isAsciiDigit_eq (c : Char) : isAsciiDigit c = c.isDigit := by
  rw [Bool.eq_iff_iff, toNat_isDigit]
  simp [isAsciiDigit]

theorem setOf_iff (c : Char) (set : CodeSet) : setOf c = some set ↔ c = set.char := by
  unfold setOf
  cases set <;> simp only [CodeSet.char] <;> (repeat' split) <;> simp_all

theorem setOf_none (c : Char) : setOf c = none ↔ ¬ (c = 'À' ∨ c = 'Ɓ' ∨ c = 'Ć') := by
  unfold setOf
  (repeat' split) <;> simp_all

theorem fromChar_conv (set : CodeSet) : Code128.CharacterSet.fromChar set.char = .ok (conv set) := by
  cases set <;> rfl

theorem char_is_switch (set : CodeSet) : set.char = 'À' ∨ set.char = 'Ɓ' ∨ set.char = 'Ć' := by
  cases set <;> simp [CodeSet.char]

theorem conv_C (set : CodeSet) : conv set = .C ↔ set = .C := by cases set <;> simp [conv]

/-- One step of the library's loop, after the start character. -/
theorem step128 (us : List Code128.Unit) (set : CodeSet) (carry : Option Char) (c : Char) (hu : us ≠ [])
    (hc : carry.isSome → set = .C) :
    Code128.parseStep ⟨us, conv set, carry⟩ c =
      match setOf c with
      | some set' =>
        match carry with
        | some _ => .err .character
        | none => match val set [c] with
          | some v => .ok ⟨us ++ [unit128 set v], conv set', none⟩
          | none => .err .character
      | none =>
        if c.isDigit ∧ set = .C then
          match carry with
          | none => .ok ⟨us, .C, some c⟩
          | some d => match val .C [d, c] with
            | some v => .ok ⟨us ++ [unit128 .C v], .C, none⟩
            | none => .err .character
        else match val set [c] with
          | some v => .ok ⟨us ++ [unit128 set v], conv set, carry⟩
          | none => .err .character := by
  have hu' : us.isEmpty = false := by simpa using hu
  unfold Code128.parseStep
  cases hs : setOf c with
  | some set' =>
    rw [setOf_iff] at hs
    subst hs
    simp only [hu', char_is_switch, Bool.false_eq_true, and_false, if_false, if_true]
    cases carry with
    | some d => simp [hc rfl, conv]
    | none =>
      simp only [Option.isSome_none, Bool.false_eq_true, and_false, if_false, lookup_eq, fromChar_conv]
      cases val set [set'.char] <;> rfl
  | none =>
    rw [setOf_none] at hs
    simp only [hu', hs, Bool.false_eq_true, and_false, if_false, isAsciiDigit_eq, conv_C]
    by_cases hd : c.isDigit = true ∧ set = .C
    · obtain ⟨hd1, rfl⟩ := hd
      simp only [hd1, true_and, if_true]
      cases carry with
      | none => rfl
      | some d =>
        simp only [show conv .C = .C from rfl]
        have := lookup_eq .C [d, c]
        simp only [show conv .C = .C from rfl] at this
        rw [this]
        cases val .C [d, c] <;> rfl
    · rw [if_neg hd, if_neg hd, lookup_eq]
      cases val set [c] <;> rfl

theorem unit128_index (set : CodeSet) (v : Nat) : (unit128 set v).index = v := by cases set <;> rfl

/-- The library's loop computes `run128`. -/
theorem parse_run (s : List Char) (us : List Code128.Unit) (set : CodeSet) (carry : Option Char) (hu : us ≠ [])
    (hc : carry.isSome → set = .C) :
    match run128 set carry s with
    | some vs => ∃ us', (foldO Code128.parseStep ⟨us, conv set, carry⟩ s >>= finish128) = .ok (us ++ us') ∧
        us'.map Code128.Unit.index = vs
    | none => (foldO Code128.parseStep ⟨us, conv set, carry⟩ s >>= finish128) = .err .character := by
  induction s generalizing us set carry with
  | nil =>
    cases carry with
    | none => exact ⟨[], by simp [foldO, finish128], rfl⟩
    | some d => rfl
  | cons c s ih =>
    have push : ∀ set set' carry' v, (carry'.isSome → set' = .C) →
        match (run128 set' carry' s).map (v :: ·) with
        | some vs => ∃ us', (foldO Code128.parseStep ⟨us ++ [unit128 set v], conv set', carry'⟩ s >>= finish128) =
            .ok (us ++ us') ∧ us'.map Code128.Unit.index = vs
        | none => (foldO Code128.parseStep ⟨us ++ [unit128 set v], conv set', carry'⟩ s >>= finish128) =
            .err .character := by
      intro set set' carry' v h
      have := ih (us ++ [unit128 set v]) set' carry' (by simp) h
      cases hr : run128 set' carry' s with
      | none => simp only [hr] at this; simpa using this
      | some vs =>
        simp only [hr] at this
        obtain ⟨us', h1, h2⟩ := this
        refine ⟨unit128 set v :: us', ?_, ?_⟩
        · rw [h1]; simp
        · simp [h2, unit128_index]
    rw [foldO, step128 us set carry c hu hc, run128_cons]
    cases hs : setOf c with
    | some set' =>
      cases carry with
      | some d => rfl
      | none =>
        simp only []
        cases hv : val set [c] with
        | none => rfl
        | some v => exact push set set' none v (by simp)
    | none =>
      simp only []
      by_cases hd : c.isDigit = true ∧ set = .C
      · rw [if_pos hd, if_pos hd]
        cases carry with
        | none => exact ih us .C (some c) hu (fun _ => rfl)
        | some d =>
          simp only []
          cases hv : val .C [d, c] with
          | none => rfl
          | some v => exact push .C .C none v (by simp)
      · rw [if_neg hd, if_neg hd]
        cases hv : val set [c] with
        | none => rfl
        | some v => exact push set set carry v hc

/-- Code128's parser on every string. -/
theorem parseUnits_eq (s : List Char) :
    match s with
    | [] => Code128.parseUnits s = .ok []
    | c :: r =>
      match setOf c with
      | none => Code128.parseUnits s = .err .character
      | some set =>
        match run128 set none r with
        | none => Code128.parseUnits s = .err .character
        | some vs => ∃ us, Code128.parseUnits s = .ok us ∧ us.map Code128.Unit.index = set.start :: vs := by
  cases s with
  | nil => rfl
  | cons c r =>
    have hp : ∀ st, Code128.parseStep ⟨[], .none, none⟩ c = .ok st →
        Code128.parseUnits (c :: r) = (foldO Code128.parseStep st r >>= finish128) := by
      intro st h
      unfold Code128.parseUnits
      rw [foldO, h]
      rfl
    simp only []
    cases hs : setOf c with
    | none =>
      rw [setOf_none] at hs
      unfold Code128.parseUnits
      rw [foldO, Code128.parseStep]
      simp [hs, Code128.CharacterSet.lookup, Code128.CharacterSet.column]
    | some set =>
      rw [setOf_iff] at hs
      subst hs
      have h0 : Code128.parseStep ⟨[], .none, none⟩ set.char = .ok ⟨[unit128 set set.start], conv set, none⟩ := by
        cases set <;> decide +kernel
      have := parse_run r [unit128 set set.start] set none (by simp) (by simp)
      rw [hp _ h0]
      cases hr : run128 set none r with
      | none => simpa only [hr] using this
      | some vs =>
        simp only [hr] at this
        obtain ⟨us', h1, h2⟩ := this
        simp only [hr]
        exact ⟨_, h1, by simp [h2, unit128_index]⟩

/-! ## The language -/

theorem val_char (set : CodeSet) (c : Char) (v : Nat) : val set [c] = some v ↔ code128Text set v = some [c] :=
  val_iff set [c] (by simp) v

theorem val_pair (d e : Char) (hd : d.isDigit) (he : e.isDigit) :
    val .C [d, e] = some (10 * digitValue d + digitValue e) :=
  (val_iff .C [d, e] (by simp) _).mpr (digit_pair_text d e hd he)

theorem single_not_switch (set : CodeSet) (c : Char) (h : code128Single set c) :
    setOf c = none ∧ (set = .C → c.isDigit = false) ∧ ∃ v, val set [c] = some v ∧ code128Next set v = set := by
  obtain ⟨v, hv⟩ := single_text set c h
  rcases text_single set v c hv with ⟨_, h2, h3, h4, h5, h6⟩ | ⟨set', h1, h2, _⟩
  · refine ⟨?_, h6, v, (val_char set c v).mpr hv, h2⟩
    rw [setOf_none]
    simp [h3, h4, h5]
  · subst h2
    exfalso
    cases set <;> cases set' <;> first | exact absurd rfl h1 | exact absurd h (by decide)

theorem digit_not_switch (c : Char) (h : c.isDigit = true) : setOf c = none := by
  rw [setOf_none]
  rintro (rfl | rfl | rfl) <;> exact absurd h (by decide)

theorem not_switch_val (set : CodeSet) (c : Char) (v : Nat) (h : val set [c] = some v) (hs : setOf c = none) :
    code128Single set c ∧ code128Next set v = set := by
  rcases text_single set v c ((val_char set c v).mp h) with ⟨h1, h2, _⟩ | ⟨set', _, h2, _⟩
  · exact ⟨h1, h2⟩
  · rw [(setOf_iff c set').mpr h2] at hs
    cases hs

theorem switch_val (set set' : CodeSet) (v : Nat) (h : val set [set'.char] = some v) :
    set ≠ set' ∧ code128Next set v = set' := by
  rcases text_single set v _ ((val_char set _ v).mp h) with ⟨_, _, h3, h4, h5, _⟩ | ⟨s, h1, h2, h3⟩
  · exfalso
    cases set' <;> simp [CodeSet.char] at h3 h4 h5
  · have : setOf set'.char = some s := (setOf_iff _ _).mpr h2
    rw [(setOf_iff _ set').mpr rfl] at this
    cases this
    exact ⟨h1, h3⟩

theorem run128_digit_none (c : Char) (s : List Char) (h : c.isDigit = true) :
    run128 .C none (c :: s) = run128 .C (some c) s := by
  rw [run128_cons, digit_not_switch c h]
  simp [h]

theorem run128_digit_some (d c : Char) (s : List Char) (hd : d.isDigit = true) (h : c.isDigit = true) :
    run128 .C (some d) (c :: s) = (run128 .C none s).map ((10 * digitValue d + digitValue c) :: ·) := by
  rw [run128_cons, digit_not_switch c h]
  simp [h, val_pair d c hd h]

theorem run128_single (set : CodeSet) (carry : Option Char) (c : Char) (s : List Char) (h : code128Single set c) :
    ∃ v, code128Text set v = some [c] ∧ code128Next set v = set ∧
      run128 set carry (c :: s) = (run128 set carry s).map (v :: ·) := by
  obtain ⟨h1, h2, v, h3, h4⟩ := single_not_switch set c h
  refine ⟨v, (val_char set c v).mp h3, h4, ?_⟩
  rw [run128_cons, h1]
  simp only []
  rw [if_neg (by rintro ⟨a, b⟩; rw [h2 b] at a; cases a), h3]
  rfl

theorem run128_switch (set set' : CodeSet) (s : List Char) (h : set ≠ set') :
    ∃ v, code128Text set v = some [set'.char] ∧ code128Next set v = set' ∧
      run128 set none (set'.char :: s) = (run128 set' none s).map (v :: ·) := by
  obtain ⟨v, hv, hn⟩ := switch_text set set' h
  refine ⟨v, hv, hn, ?_⟩
  rw [run128_cons, (setOf_iff _ _).mpr rfl, (val_char _ _ _).mpr hv]
  rfl

theorem run128_fail (set : CodeSet) (carry : Option Char) (c : Char) (s : List Char) (hs : setOf c = none)
    (hd : ¬ (c.isDigit = true ∧ set = .C)) (h : ¬ code128Single set c) : run128 set carry (c :: s) = none := by
  rw [run128_cons, hs]
  simp only []
  rw [if_neg hd]
  cases hv : val set [c] with
  | none => rfl
  | some v => exact absurd (not_switch_val set c v hv hs).1 h

/-- The data accepted after a code set has been selected. -/
theorem run128_iff (s : List Char) :
    (∀ set, (run128 set none s).isSome = true ↔ Code128Data set s) ∧
    (∀ d : Char, d.isDigit = true → ((run128 .C (some d) s).isSome = true ↔
      ∃ n e s', s = List.replicate n fnc1 ++ e :: s' ∧ e.isDigit = true ∧ Code128Data .C s')) := by
  induction s with
  | nil =>
    refine ⟨fun set => ⟨fun _ => .nil set, fun _ => rfl⟩, fun d hd => ⟨fun h => by simp [run128] at h, ?_⟩⟩
    rintro ⟨n, e, s', h, _⟩
    simp at h
  | cons c s ih =>
    constructor
    · intro set
      constructor
      · intro h
        cases hs : setOf c with
        | some set' =>
          have hc := (setOf_iff c set').mp hs
          subst hc
          rw [run128_cons, hs] at h
          simp only [] at h
          cases hv : val set [set'.char] with
          | none => rw [hv] at h; simp at h
          | some v =>
            rw [hv] at h
            simp only [Option.bind_some, Option.isSome_map] at h
            exact .switch set set' s (switch_val set set' v hv).1 ((ih.1 set').mp h)
        | none =>
          by_cases hd : c.isDigit = true ∧ set = .C
          · obtain ⟨hd, rfl⟩ := hd
            rw [run128_digit_none c s hd] at h
            obtain ⟨n, e, s', rfl, he, hs'⟩ := (ih.2 c hd).mp h
            exact .pair c e n s' hd he hs'
          · by_cases h1 : code128Single set c
            · obtain ⟨v, _, _, hr⟩ := run128_single set none c s h1
              rw [hr, Option.isSome_map] at h
              exact .single set c s h1 ((ih.1 set).mp h)
            · rw [run128_fail set none c s hs hd h1] at h
              cases h
      · intro h
        cases h with
        | single _ _ _ h1 h2 =>
          obtain ⟨v, _, _, hr⟩ := run128_single set none c s h1
          rw [hr, Option.isSome_map]
          exact (ih.1 set).mpr h2
        | pair _ e n s' hd he h2 =>
          rw [run128_digit_none c _ hd]
          exact (ih.2 c hd).mpr ⟨n, e, s', rfl, he, h2⟩
        | switch _ set' _ h1 h2 =>
          obtain ⟨v, _, _, hr⟩ := run128_switch set set' s h1
          rw [hr, Option.isSome_map]
          exact (ih.1 set').mpr h2
    · intro d hd
      constructor
      · intro h
        cases hs : setOf c with
        | some set' =>
          rw [run128_cons, hs] at h
          cases h
        | none =>
          by_cases hc : c.isDigit = true
          · rw [run128_digit_some d c s hd hc, Option.isSome_map] at h
            exact ⟨0, c, s, rfl, hc, (ih.1 .C).mp h⟩
          · by_cases h1 : code128Single .C c
            · obtain ⟨v, _, _, hr⟩ := run128_single .C (some d) c s h1
              rw [hr, Option.isSome_map] at h
              obtain ⟨n, e, s', rfl, he, hs'⟩ := (ih.2 d hd).mp h
              cases h1
              exact ⟨n + 1, e, s', rfl, he, hs'⟩
            · rw [run128_fail .C _ c s hs (fun h => hc h.1) h1] at h
              cases h
      · rintro ⟨n, e, s', h, he, hs'⟩
        cases n with
        | zero =>
          simp only [List.replicate_zero, List.nil_append, List.cons.injEq] at h
          obtain ⟨rfl, rfl⟩ := h
          rw [run128_digit_some d c s hd he, Option.isSome_map]
          exact (ih.1 .C).mpr hs'
        | succ n =>
          simp only [List.replicate_succ, List.cons_append, List.cons.injEq] at h
          obtain ⟨rfl, rfl⟩ := h
          obtain ⟨v, _, _, hr⟩ := run128_single .C (some d) fnc1 (List.replicate n fnc1 ++ e :: s') rfl
          rw [hr, Option.isSome_map]
          exact (ih.2 d hd).mpr ⟨n, e, s', rfl, he, hs'⟩

theorem regroup_cons (set : CodeSet) (p : Option Char) (c : Char) (s : List Char) :
    regroup set p (c :: s) = match setOf c with
      | some set' => p.toList ++ c :: regroup set' none s
      | none => if set = .C ∧ c.isDigit then
          match p with
          | none => regroup .C (some c) s
          | some d => d :: c :: regroup .C none s
        else c :: regroup set p s := by
  rw [regroup.eq_def, setOf]
  simp only []
  by_cases hA : c = 'À'
  · simp [hA]
  by_cases hB : c = 'Ɓ'
  · simp [hB]
  by_cases hC : c = 'Ć'
  · simp [hC]
  simp only [hA, hB, hC, if_false]
  cases p <;> rfl

/-- Reading the symbols gives the regrouped data. -/
theorem decode_run (s : List Char) (set : CodeSet) (p : Option Char) (hp : ∀ d ∈ p, d.isDigit = true ∧ set = .C)
    (vs : List Nat) (h : run128 set p s = some vs) :
    code128Decode set vs = some (regroup set p s) ∧ ∀ v ∈ vs, v < 103 := by
  induction s generalizing set p vs with
  | nil =>
    cases p with
    | none =>
      simp only [run128, Option.some.injEq] at h
      subst h
      exact ⟨rfl, by simp⟩
    | some d => simp [run128] at h
  | cons c s ih =>
    have push : ∀ (set set' : CodeSet) (p' : Option Char) (t : List Char) v, (∀ d ∈ p', d.isDigit = true ∧ set' = .C) →
        code128Text set v = some t → code128Next set v = set' → (run128 set' p' s).map (v :: ·) = some vs →
        code128Decode set vs = some (t ++ regroup set' p' s) ∧ ∀ v ∈ vs, v < 103 := by
      intro set set' p' t v hp' ht hn hr
      rw [Option.map_eq_some_iff] at hr
      obtain ⟨ws, hws, rfl⟩ := hr
      have := ih set' p' hp' ws hws
      refine ⟨?_, ?_⟩
      · simp only [code128Decode, ht, hn, this.1, Option.bind_eq_bind, Option.bind_some]
      · intro w hw
        simp only [List.mem_cons] at hw
        rcases hw with rfl | hw
        · exact text_lt set w t ht
        · exact this.2 w hw
    rw [run128_cons] at h
    rw [regroup_cons]
    cases hs : setOf c with
    | some set' =>
      rw [hs] at h
      have hc := (setOf_iff c set').mp hs
      subst hc
      cases p with
      | some d => cases h
      | none =>
        simp only [] at h ⊢
        cases hv : val set [set'.char] with
        | none => rw [hv] at h; cases h
        | some v =>
          rw [hv] at h
          exact push set set' none [set'.char] v (by simp) ((val_char _ _ _).mp hv) (switch_val set set' v hv).2 h
    | none =>
      rw [hs] at h
      simp only [] at h ⊢
      by_cases hd : c.isDigit = true ∧ set = .C
      · obtain ⟨hd, rfl⟩ := hd
        rw [if_pos ⟨hd, rfl⟩] at h
        rw [if_pos ⟨rfl, hd⟩]
        cases p with
        | none =>
          refine ih .C (some c) ?_ vs h
          intro d hd'
          cases hd'
          exact ⟨hd, rfl⟩
        | some d =>
          simp only [val_pair d c (hp d rfl).1 hd] at h
          exact push .C .C none [d, c] _ (by simp) (digit_pair_text d c (hp d rfl).1 hd)
            (digit_pair_next d c (hp d rfl).1 hd) h
      · rw [if_neg hd] at h
        rw [if_neg (fun h => hd h.symm)]
        cases hv : val set [c] with
        | none => rw [hv] at h; cases h
        | some v =>
          rw [hv] at h
          exact push set set p [c] v hp ((val_char _ _ _).mp hv) (not_switch_val set c v hv hs).2 h

theorem regroup_strict (set : CodeSet) (s : List Char) (h : Code128Strict set s) : regroup set none s = s := by
  induction h with
  | nil => rfl
  | single set c s h _ ih =>
    obtain ⟨h1, h2, _⟩ := single_not_switch set c h
    rw [regroup_cons, h1]
    simp only []
    rw [if_neg (by rintro ⟨a, b⟩; rw [h2 a] at b; cases b), ih]
  | pair d e s hd he _ ih =>
    rw [regroup_cons, digit_not_switch d hd]
    simp only [hd, true_and, if_true]
    rw [regroup_cons, digit_not_switch e he]
    simp only [he, true_and, if_true, ih]
  | switch set set' s _ _ ih =>
    rw [regroup_cons, (setOf_iff _ _).mpr rfl]
    simp [ih]

theorem strict_of_regroup (set : CodeSet) (s : List Char) (hD : Code128Data set s) (h : regroup set none s = s) :
    Code128Strict set s := by
  induction hD with
  | nil => exact .nil _
  | single set c s h1 _ ih =>
    obtain ⟨h2, h3, _⟩ := single_not_switch set c h1
    rw [regroup_cons, h2] at h
    simp only [] at h
    rw [if_neg (by rintro ⟨a, b⟩; rw [h3 a] at b; cases b)] at h
    simp only [List.cons.injEq, true_and] at h
    exact .single set c s h1 (ih h)
  | pair d e n s hd he _ ih =>
    rw [regroup_cons, digit_not_switch d hd] at h
    simp only [hd, true_and, if_true] at h
    cases n with
    | zero =>
      simp only [List.replicate_zero, List.nil_append] at h
      rw [regroup_cons, digit_not_switch e he] at h
      simp only [he, true_and, if_true, List.cons.injEq] at h
      exact .pair d e s hd he (ih h)
    | succ n =>
      exfalso
      rw [List.replicate_succ, List.cons_append, regroup_cons, show setOf fnc1 = none from by decide] at h
      simp only [show (fnc1.isDigit = true) = False from by simp; decide, and_false, if_false, List.cons.injEq] at h
      rw [← h.1] at hd
      exact absurd hd (by decide)
  | switch set set' s h1 _ ih =>
    rw [regroup_cons, (setOf_iff _ _).mpr rfl] at h
    simp only [Option.toList_none, List.nil_append, List.cons.injEq, true_and] at h
    exact .switch set set' s h1 (ih h)

theorem data_of_strict (set : CodeSet) (s : List Char) (h : Code128Strict set s) : Code128Data set s := by
  induction h with
  | nil => exact .nil _
  | single set c s h _ ih => exact .single set c s h ih
  | pair d e s hd he _ ih => exact .pair d e 0 s hd he ih
  | switch set set' s h _ ih => exact .switch set set' s h ih

/-! ## Symbols -/

/-- Element widths of a symbol. -/
def w128 (v : Nat) : List Nat := code128Chart.getD v []

theorem w128_spec : ∀ v < 106, (w128 v).length = 6 ∧ (Code128.CHARS[v]?).map Prod.snd = some (paintFrom 1 (w128 v)) ∧
    code128Chart.idxOf? (w128 v) = some v ∧ ∀ w ∈ w128 v, 0 < w ∧ w ≤ 4 := by
  decide +kernel

theorem unitEncoding_ok (u : Code128.Unit) (h : u.index < 106) :
    Code128.unitEncoding u = .ok (paintFrom 1 (w128 u.index)) := by
  have := (w128_spec u.index h).2.1
  unfold Code128.unitEncoding idx
  cases hc : Code128.CHARS[u.index]? with
  | none => rw [hc] at this; cases this
  | some r =>
    rw [hc] at this
    simp only [Option.map_some, Option.some.injEq] at this
    simp [this]

theorem unitEncoding_panic (u : Code128.Unit) (h : 106 ≤ u.index) : Code128.unitEncoding u = .panic .bounds := by
  unfold Code128.unitEncoding
  rw [idx_panic Code128.CHARS u.index (by have : Code128.CHARS.length = 106 := rfl; omega)]
  rfl

/-- Element widths of a Code 128 picture. -/
def code128Widths (vs : List Nat) : List Nat := vs.flatMap w128 ++ code128Stop

theorem payload128 (us : List Code128.Unit) (h : ∀ v ∈ us.map Code128.Unit.index, v < 106) :
    Code128.payload ⟨us⟩ = .ok ((us.map Code128.Unit.index).flatMap (fun v => paintFrom 1 (w128 v))) := by
  unfold Code128.payload
  rw [mapO_ok _ (fun u => paintFrom 1 (w128 u.index))]
  · simp [Helpers.joinIters, List.flatMap_def, Function.comp_def]
  · intro u hu
    exact unitEncoding_ok u (h _ (List.mem_map_of_mem hu))

theorem w128_length (vs : List Nat) (h : ∀ v ∈ vs, v < 106) : (vs.flatMap w128).length = 6 * vs.length :=
  flatMap_length_eq 6 _ _ (fun v hv => (w128_spec v (h v hv)).1)

theorem encode128_ok (b : Build) (us : List Code128.Unit) (c : Nat) (h : ∀ v ∈ us.map Code128.Unit.index, v < 106)
    (hc : c < 106) (hs : Code128.checksumValue b ⟨us⟩ = .ok c) :
    Code128.encode b ⟨us⟩ = .ok (paint (code128Widths (us.map Code128.Unit.index ++ [c]))) := by
  have h' : ∀ v ∈ us.map Code128.Unit.index ++ [c], v < 106 := by
    intro v hv
    rw [List.mem_append, List.mem_singleton] at hv
    rcases hv with hv | rfl
    · exact h v hv
    · exact hc
  unfold Code128.encode Code128.checksumEncoding
  rw [payload128 us h, hs, Outcome.ok_bind, Outcome.ok_bind, unitEncoding_ok _ hc, Outcome.ok_bind, code128Widths, paint,
    paintFrom_append_even 1 (by omega), paintFrom_flatMap 1 (by omega)]
  · rw [List.flatMap_append]
    have : Code128.STOP ++ Code128.TERM = paintFrom 1 code128Stop := by decide
    simp [Helpers.joinSlices, ← this]
  · intro v hv
    rw [(w128_spec v (h' v hv)).1]
  · rw [w128_length _ h']; omega

theorem code128_widths_pos (vs : List Nat) (h : ∀ v ∈ vs, v < 106) : ∀ w ∈ code128Widths vs, 0 < w ∧ w ≤ 4 := by
  intro w hw
  rw [code128Widths, List.mem_append, List.mem_flatMap] at hw
  rcases hw with ⟨v, hv, hw⟩ | hw
  · exact (w128_spec v (h v hv)).2.2.2 w hw
  · revert w; decide

theorem readCode128_paint (vs : List Nat) (h : ∀ v ∈ vs, v < 106) : readCode128 (paint (code128Widths vs)) = some vs := by
  rw [readCode128, elements_paint _ (fun w hw => (code128_widths_pos vs h w hw).1) (by simp [code128Widths, code128Stop])]
  simp only [Option.bind_eq_bind, Option.bind_some, code128Widths, expectEnd_append]
  have := readAll_flatMap 6 (by omega) code128Chart.idxOf? w128 id vs
    (fun v hv => ⟨(w128_spec v (h v hv)).1, (w128_spec v (h v hv)).2.2.1⟩)
  rw [this, List.map_id]

/-! ## The check sum -/

theorem asI32_of_range (x : Int) (h : -(2 ^ 31) ≤ x ∧ x < 2 ^ 31) : asI32 x = x := by
  unfold asI32; omega

theorem i32_ok (b : Build) (x : Int) (h : -(2 ^ 31) ≤ x ∧ x < 2 ^ 31) : i32 b x = .ok x := by
  simp only [i32]; exact if_pos h

theorem i32_release (x : Int) : i32 .release x = .ok (asI32 x) := by
  simp only [i32]
  split
  · rename_i h; rw [asI32_of_range x h]
  · rfl

theorem asI32_add (x y : Int) : asI32 (asI32 x + asI32 y) = asI32 (x + y) := by
  unfold asI32; omega

/-- Weights `k, k+1, …` as `i32` numbers. -/
def weights (k n : Nat) : List Int := (List.range' k n).map Int.ofNat

theorem rangeI32_eq (n : Nat) (h : n < 2 ^ 31) : Code128.rangeI32 n = weights 0 n := by
  unfold Code128.rangeI32 weights
  rw [asI32_of_range _ (by omega), Int.toNat_natCast, List.range_eq_range']

theorem checksum_step (b : Build) (t : Int) (u : Code128.Unit) (k : Nat) (hk : 1 ≤ k) (hi : u.index < 106) :
    Code128.checksumStep b t (u, (k : Int)) = (i32 b ((k * u.index : Nat) : Int) >>= fun p => i32 b (t + p)) := by
  unfold Code128.checksumStep
  simp only []
  rw [asI32_of_range _ (by omega), Int.max_eq_right (by omega)]
  rw [show (u.index : Int) * (k : Int) = ((k * u.index : Nat) : Int) from by push_cast; rw [Int.mul_comm]]

theorem checksum_fold_ok (b : Build) (us : List Code128.Unit) (k t : Nat) (hk : 1 ≤ k) (hi : ∀ u ∈ us, u.index < 106)
    (h : t + positionSum k (us.map Code128.Unit.index) < 2 ^ 31) :
    foldO (Code128.checksumStep b) (t : Int) (us.zip (weights k us.length)) =
      .ok ((t + positionSum k (us.map Code128.Unit.index) : Nat) : Int) := by
  induction us generalizing k t with
  | nil => simp [foldO, positionSum]
  | cons u us ih =>
    simp only [List.map_cons, positionSum] at h ⊢
    have hw : weights k (us.length + 1) = (k : Int) :: weights (k + 1) us.length := by
      simp [weights, List.range'_succ]
    rw [List.length_cons, hw, List.zip_cons_cons, foldO, checksum_step b _ u k hk (hi u (by simp)), i32_ok b _ (by omega),
      Outcome.ok_bind, i32_ok b _ (by omega), Outcome.ok_bind]
    have := ih (k + 1) (t + k * u.index) (by omega) (fun u hu => hi u (by simp [hu])) (by omega)
    rw [Nat.add_assoc] at this
    rw [← this]
    push_cast
    rfl

theorem checksum_fold_debug (us : List Code128.Unit) (k t : Nat) (hk : 1 ≤ k) (hi : ∀ u ∈ us, u.index < 106)
    (ht : t < 2 ^ 31) (h : 2 ^ 31 ≤ t + positionSum k (us.map Code128.Unit.index)) :
    foldO (Code128.checksumStep .debug) (t : Int) (us.zip (weights k us.length)) = .panic .overflow := by
  have hov : ∀ n : Nat, 2 ^ 31 ≤ n → i32 .debug (n : Int) = .panic .overflow := by
    intro n hn
    simp only [i32]
    rw [if_neg (by omega)]
  induction us generalizing k t with
  | nil => simp only [List.map_nil, positionSum] at h; omega
  | cons u us ih =>
    simp only [List.map_cons, positionSum] at h
    have hw : weights k (us.length + 1) = (k : Int) :: weights (k + 1) us.length := by
      simp [weights, List.range'_succ]
    rw [List.length_cons, hw, List.zip_cons_cons, foldO, checksum_step .debug _ u k hk (hi u (by simp))]
    by_cases h1 : k * u.index < 2 ^ 31
    · rw [i32_ok .debug _ (by omega), Outcome.ok_bind]
      rw [show (t : Int) + ((k * u.index : Nat) : Int) = ((t + k * u.index : Nat) : Int) from by push_cast; rfl]
      by_cases h2 : t + k * u.index < 2 ^ 31
      · rw [i32_ok .debug _ (by omega), Outcome.ok_bind]
        exact ih (k + 1) _ (by omega) (fun u hu => hi u (by simp [hu])) h2 (by omega)
      · rw [hov _ (by omega)]; rfl
    · rw [hov _ (by omega)]; rfl

theorem checksum_fold_release (us : List Code128.Unit) (k t : Nat) (hk : 1 ≤ k) (hi : ∀ u ∈ us, u.index < 106) :
    foldO (Code128.checksumStep .release) (asI32 t) (us.zip (weights k us.length)) =
      .ok (asI32 ((t + positionSum k (us.map Code128.Unit.index) : Nat) : Int)) := by
  induction us generalizing k t with
  | nil => simp [foldO, positionSum]
  | cons u us ih =>
    simp only [List.map_cons, positionSum]
    have hw : weights k (us.length + 1) = (k : Int) :: weights (k + 1) us.length := by
      simp [weights, List.range'_succ]
    rw [List.length_cons, hw, List.zip_cons_cons, foldO, checksum_step .release _ u k hk (hi u (by simp)), i32_release,
      Outcome.ok_bind, i32_release, Outcome.ok_bind, asI32_add]
    have := ih (k + 1) (t + k * u.index) (by omega) (fun u hu => hi u (by simp [hu]))
    rw [Nat.add_assoc] at this
    rw [← this]
    push_cast
    rfl

/-- The units of an accepted string: start and data symbols. -/
theorem checksum_units (b : Build) (u : Code128.Unit) (us : List Code128.Unit) (hl : us.length + 1 < 2 ^ 31)
    (hu : u.index < 106) :
    Code128.checksumValue b ⟨u :: us⟩ =
      (foldO (Code128.checksumStep b) (u.index : Int) (us.zip (weights 1 us.length)) >>= fun s =>
        .ok (asU8 (s.tmod 103))) := by
  unfold Code128.checksumValue
  simp only [List.length_cons]
  rw [rangeI32_eq _ hl]
  have hw : weights 0 (us.length + 1) = (0 : Int) :: weights 1 us.length := by
    simp [weights, List.range'_succ]
  rw [hw, List.zip_cons_cons, foldO]
  have : Code128.checksumStep b 0 (u, 0) = .ok (u.index : Int) := by
    unfold Code128.checksumStep
    simp only []
    rw [asI32_of_range _ (by omega), show max (1 : Int) 0 = 1 from rfl, Int.mul_one, i32_ok b _ (by omega), Outcome.ok_bind,
      Int.zero_add, i32_ok b _ (by omega)]
  rw [this, Outcome.ok_bind]

/-- The check value of accepted data. -/
theorem checksum128 (u : Code128.Unit) (us : List Code128.Unit) (hl : us.length + 1 < 2 ^ 31)
    (hi : ∀ v ∈ u :: us, v.index < 106) :
    (∀ b, code128Sum u.index (us.map Code128.Unit.index) < 2 ^ 31 →
      Code128.checksumValue b ⟨u :: us⟩ = .ok (code128Sum u.index (us.map Code128.Unit.index) % 103)) ∧
    (2 ^ 31 ≤ code128Sum u.index (us.map Code128.Unit.index) →
      Code128.checksumValue .debug ⟨u :: us⟩ = .panic .overflow) ∧
    Code128.checksumValue .release ⟨u :: us⟩ =
      .ok (asU8 ((asI32 (code128Sum u.index (us.map Code128.Unit.index) : Nat)).tmod 103)) := by
  have hu := hi u (by simp)
  have hi' : ∀ v ∈ us, v.index < 106 := fun v hv => hi v (by simp [hv])
  unfold code128Sum
  refine ⟨?_, ?_, ?_⟩
  · intro b h
    rw [checksum_units b u us hl hu, checksum_fold_ok b us 1 u.index (by omega) hi' h, Outcome.ok_bind]
    generalize u.index + positionSum 1 (us.map Code128.Unit.index) = n
    congr 1
    rw [show ((n : Int).tmod 103) = ((n % 103 : Nat) : Int) from by simp [Int.tmod]]
    unfold asU8
    omega
  · intro h
    rw [checksum_units .debug u us hl hu, checksum_fold_debug us 1 u.index (by omega) hi' (by omega) h]
    rfl
  · rw [checksum_units .release u us hl hu]
    have := checksum_fold_release us 1 u.index (by omega) hi'
    rw [asI32_of_range _ (by omega)] at this
    rw [this]
    rfl

end Barcoders
