import Verif.Spec.DebugText
import Verif.Model.Debug
import Verif.Lemmas.Numbers
import Verif.Props.Shape
import Verif.Props.TF
import Verif.Props.EanSupp
import Verif.Props.Distinct

/-! C127: what `{:?}` shows of a barcode. -/

set_option autoImplicit false

namespace Barcoders
open Spec

theorem numbersIn_digits (l : List Char) (n : Nat) (rest : List Char) (h : ∀ c ∈ l, c.isDigit = true) :
    numbersIn (some n) (l ++ rest) = numbersIn (some (readDigits n l)) rest := by
  induction l generalizing n with
  | nil => rfl
  | cons c l ih =>
    rw [List.cons_append, numbersIn, if_pos (h c (by simp)), ih _ (fun c hc => h c (by simp [hc]))]
    rfl

theorem numbersIn_showNat (n : Nat) (c : Char) (rest : List Char) (hc : c.isDigit = false) :
    numbersIn none (showNat n ++ c :: rest) = n :: numbersIn none (c :: rest) := by
  obtain ⟨h1, h2, h3, _, _⟩ := showNat_spec n
  cases hs : showNat n with
  | nil => exact absurd hs h3
  | cons d l =>
    rw [hs] at h1 h2
    rw [List.cons_append, numbersIn, if_pos (h1 d (by simp)), numbersIn_digits l _ _ (fun c hc => h1 c (by simp [hc]))]
    have : readDigits (10 * Option.getD none 0 + (d.toNat - 48)) l = n := by rw [← h2]; rfl
    rw [this, numbersIn, numbersIn]
    simp [hc]

theorem numbersIn_skip (l rest : List Char) (h : ∀ c ∈ l, c.isDigit = false) :
    numbersIn none (l ++ rest) = numbersIn none rest := by
  induction l with
  | nil => rfl
  | cons c l ih =>
    rw [List.cons_append, numbersIn, if_neg (by simp [h c (by simp)]), ih (fun c hc => h c (by simp [hc]))]
    rfl

/-- A way to write values, one number in each, that ends before the next comma or bracket. -/
def WritesOne {α : Type} (f : α → List Char) (v : α → Nat) : Prop :=
  ∀ (a : α) (c : Char) (rest : List Char), c.isDigit = false →
    numbersIn none (f a ++ c :: rest) = v a :: numbersIn none (c :: rest)

theorem numbersIn_vec_tail {α : Type} (f : α → List Char) (v : α → Nat) (hf : WritesOne f v) (l : List α) (rest : List Char) :
    numbersIn none (l.flatMap (fun x => ", ".toList ++ f x) ++ ']' :: rest) = l.map v ++ numbersIn none (']' :: rest) := by
  induction l with
  | nil => rfl
  | cons a l ih =>
    rw [List.flatMap_cons, List.append_assoc, List.append_assoc, numbersIn_skip _ _ (by decide), List.map_cons,
      List.cons_append, ← ih]
    cases l with
    | nil => exact hf a ']' rest (by decide)
    | cons b l => exact hf a ',' _ (by decide)

theorem numbersIn_vec {α : Type} (f : α → List Char) (v : α → Nat) (hf : WritesOne f v) (l : List α) (rest : List Char)
    (hr : ∀ c ∈ rest, c.isDigit = false) : numbersIn none (Debug.vec f l ++ rest) = l.map v := by
  have hend : numbersIn none (']' :: rest) = [] := by
    have := numbersIn_skip (']' :: rest) [] (by
      intro c hc
      rcases List.mem_cons.mp hc with rfl | hc
      · decide
      · exact hr c hc)
    rw [List.append_nil] at this
    rw [this]
    rfl
  cases l with
  | nil =>
    rw [show Debug.vec f [] ++ rest = ['['] ++ ']' :: rest from rfl, numbersIn_skip _ _ (by decide), hend]
    rfl
  | cons a l =>
    have e : Debug.vec f (a :: l) ++ rest = ['['] ++ (f a ++ (l.flatMap (fun x => ", ".toList ++ f x) ++ ']' :: rest)) := by
      simp [Debug.vec]
    have ht := numbersIn_vec_tail f v hf l rest
    rw [hend, List.append_nil] at ht
    rw [e, numbersIn_skip _ _ (by decide), List.map_cons, ← ht]
    cases l with
    | nil => exact hf a ']' rest (by decide)
    | cons b l => exact hf a ',' _ (by decide)

theorem writesOne_showNat : WritesOne showNat id := fun a c rest hc => numbersIn_showNat a c rest hc

theorem app5 (a b c d e r : List Char) : a ++ b ++ c ++ d ++ e ++ r = (a ++ b ++ c) ++ (d ++ (e ++ r)) := by
  simp only [List.append_assoc]

theorem writesOne_unit : WritesOne Debug.code128Unit Code128.Unit.index := by
  intro u c rest hc
  have hk : (Debug.unitKind u.kind).isDigit = false := by cases u.kind <;> rfl
  have hb : (' ' : Char).isDigit = false := rfl
  have h3 : " }".toList = [' ', '}'] := rfl
  have h1 : ∀ d ∈ "Unit { kind: ".toList, d.isDigit = false := by decide
  have h2 : ∀ d ∈ ", index: ".toList, d.isDigit = false := by decide
  unfold Debug.code128Unit
  rw [h3]
  generalize "Unit { kind: ".toList = p at h1 ⊢
  generalize ", index: ".toList = q at h2 ⊢
  rw [app5, numbersIn_skip (l := p ++ [Debug.unitKind u.kind] ++ q)]
  · exact (numbersIn_showNat u.index ' ' ('}' :: c :: rest) hb).trans
      (congrArg (u.index :: ·) (numbersIn_skip [' ', '}'] (c :: rest) (by decide)))
  · intro d hd
    simp only [List.mem_append, List.mem_singleton] at hd
    rcases hd with (hd | rfl) | hd
    · exact h1 d hd
    · exact hk
    · exact h2 d hd

theorem vec_head {α : Type} (f : α → List Char) (l : List α) : ∃ r, Debug.vec f l = '[' :: r := by
  cases l with
  | nil => exact ⟨_, rfl⟩
  | cons a l => exact ⟨_, rfl⟩

theorem dropWhile_bracket (p r : List Char) (h : '[' ∉ p) :
    (p ++ '[' :: r).dropWhile (fun c => c ≠ '[') = '[' :: r := by
  induction p with
  | nil => rfl
  | cons c p ih =>
    have hc : c ≠ '[' := fun e => h (by simp [e])
    rw [List.cons_append, List.dropWhile_cons_of_pos (by simpa using hc), ih (fun hm => h (by simp [hm]))]

theorem numbersListed_tuple {α : Type} (name : List Char) (f : α → List Char) (v : α → Nat) (hf : WritesOne f v) (l : List α)
    (hn : '[' ∉ name) : numbersListed (Debug.tuple name (Debug.vec f l)) = l.map v := by
  have e : Debug.tuple name (Debug.vec f l) = (name ++ ['(']) ++ (Debug.vec f l ++ [')']) := by simp [Debug.tuple]
  obtain ⟨r, hr⟩ := vec_head f l
  have hv := numbersIn_vec f v hf l [')'] (by decide)
  rw [hr] at e hv
  rw [numbersListed, hr, e, List.cons_append, dropWhile_bracket _ _ (by simp [hn]), ← hv]
  rfl

/-- C127. The numbers that `{:?}` lists of an EAN-13, EAN-8, UPC-A, EAN-2 or EAN-5 barcode are the digits of the number, without
check digit; of a Standard 2 of 5 barcode they are the digits of the text. -/
theorem C127_digits (b : Build) (s : List Char) :
    (∀ x, Ean13.new b s = .ok x → numbersListed (Debug.ean13 x) = (digitsOf s).take 12) ∧
    (∀ x, Ean8.new b s = .ok x → numbersListed (Debug.ean8 x) = (digitsOf s).take 7) ∧
    (∀ x, Upca.new b s = .ok x → numbersListed (Debug.upca x) = (digitsOf s).take 11) ∧
    (∀ x, EanSupp.new s = .ok x → numbersListed (Debug.eansupp x) = digitsOf s) ∧
    (∀ x, TF.standard s = .ok x → numbersListed (Debug.tf x) = digitsOf s) := by
  refine ⟨?_, ?_, ?_, ?_, ?_⟩
  · intro x h
    rw [ean13_new] at h
    split at h
    · cases h
    · split at h
      · cases h
      · split at h <;> cases h
        exact (numbersListed_tuple _ showNat id writesOne_showNat _ (by decide)).trans (List.map_id _)
  · intro x h
    rw [ean8_new] at h
    split at h
    · cases h
    · split at h
      · cases h
      · split at h <;> cases h
        exact (numbersListed_tuple _ showNat id writesOne_showNat _ (by decide)).trans (List.map_id _)
  · intro x h
    rw [upca_new] at h
    split at h
    · cases h
    · split at h
      · cases h
      · split at h <;> cases h
        exact (numbersListed_tuple _ showNat id writesOne_showNat _ (by decide)).trans (List.map_id _)
  · intro x h
    rw [supp_new] at h
    split at h
    · cases h
    · split at h
      · cases h
      · split at h
        · cases h
          exact (numbersListed_tuple _ showNat id writesOne_showNat _ (by decide)).trans (List.map_id _)
        · split at h
          · cases h
            exact (numbersListed_tuple _ showNat id writesOne_showNat _ (by decide)).trans (List.map_id _)
          · cases h
  · intro x h
    rw [stf_new] at h
    split at h
    · cases h
    · split at h
      · cases h
      · cases h
        exact (numbersListed_tuple _ showNat id writesOne_showNat _ (by decide)).trans (List.map_id _)

example : ∃ x, Ean13.new .debug "7501031311309".toList = .ok x ∧
    Debug.ean13 x = "EAN13([7, 5, 0, 1, 0, 3, 1, 3, 1, 1, 3, 0])".toList := ⟨_, rfl, by decide +kernel⟩
example : ∃ x, TF.standard "0042".toList = .ok x ∧ Debug.tf x = "Standard([0, 0, 4, 2])".toList := ⟨_, rfl, by decide +kernel⟩

theorem itf_digits (b : Build) (s : List Char) (t : TF.TF) (h : TF.interleaved b s = .ok t) :
    ∃ d, t = .Interleaved d ∧ Digits d ∧ d.length % 2 = 0 := by
  have hl : (digitsOf s).length = s.length := by simp [digitsOf]
  have key : ∀ c < 10, AllDigits s → s.length % 2 = 1 → Digits (digitsOf s ++ [c]) ∧ (digitsOf s ++ [c]).length % 2 = 0 := by
    intro c hc hD ho
    refine ⟨?_, by rw [List.length_append, hl, List.length_singleton]; omega⟩
    intro d hd
    rw [List.mem_append, List.mem_singleton] at hd
    rcases hd with hd | rfl
    · exact digits_lt s hD d hd
    · exact hc
  rw [itf_new] at h
  split at h
  · simp at h
  split at h
  · simp at h
  rename_i hD
  have hD : AllDigits s := by simpa using hD
  split at h
  · simp only [Outcome.ok.injEq] at h
    exact ⟨_, h.symm, digits_lt s hD, by omega⟩
  rename_i he
  split at h
  · simp only [Outcome.ok.injEq] at h
    exact ⟨_, h.symm, key _ (gs1Digit_lt (digitsOf s)) hD (by omega)⟩
  · cases b with
    | debug => simp at h
    | release =>
      simp only [Outcome.ok.injEq] at h
      exact ⟨_, h.symm, key _ (Nat.mod_lt _ (by omega)) hD (by omega)⟩

/-- C127. Of an Interleaved 2 of 5 barcode they are the digits a scanner reads, the added one included. -/
theorem C127_itf (b : Build) (s : List Char) (t : TF.TF) (ms : List Nat) (h : TF.interleaved b s = .ok t)
    (he : TF.encode t = .ok ms) : scanItf ms = some (numbersListed (Debug.tf t)) := by
  obtain ⟨d, rfl, hd, hl⟩ := itf_digits b s t h
  rw [itf_encode_eq d hd hl] at he
  cases he
  rw [scanItf_paint d hd hl]
  exact congrArg some ((numbersListed_tuple _ showNat id writesOne_showNat _ (by decide)).trans (List.map_id _)).symm

example : ∃ t ms, TF.interleaved .debug "123".toList = .ok t ∧ TF.encode t = .ok ms ∧
    Debug.tf t = "Interleaved([1, 2, 3, 6])".toList := ⟨_, _, rfl, rfl, by decide +kernel⟩

/-- C127. Of a Code 128 barcode they are the values of the symbol characters, from the start character to the last before the
check character. -/
theorem C127_code128 (b : Build) (s : List Char) (x : Code128.Code128) (ms : List Nat) (h : Code128.new s = .ok x)
    (he : Code128.encode b x = .ok ms) : ∃ c, readCode128 ms = some (numbersListed (Debug.code128 x) ++ [c]) := by
  obtain ⟨set, data, c, -, -, h3, h4, h5⟩ := code128_symbol_full b s x ms h he
  refine ⟨c, ?_⟩
  rw [h4, readCode128_paint _ h3]
  unfold Debug.code128
  rw [numbersListed_tuple _ Debug.code128Unit Code128.Unit.index writesOne_unit _ (by decide), h5]

example : ∃ x, Code128.new "ÀHE".toList = .ok x ∧ Debug.code128 x =
    "Code128([Unit { kind: A, index: 103 }, Unit { kind: A, index: 40 }, Unit { kind: A, index: 37 }])".toList :=
  ⟨_, rfl, by decide +kernel⟩

theorem quoted_skip (l rest : List Char) (h : '\'' ∉ l) : quoted (l ++ rest) = quoted rest := by
  induction l with
  | nil => rfl
  | cons c l ih =>
    have hc : c ≠ '\'' := fun e => h (by simp [e])
    rw [← ih (fun hm => h (by simp [hm]))]
    rw [List.cons_append]
    cases l ++ rest with
    | nil => simp [quoted]
    | cons d r =>
      cases r with
      | nil => simp [quoted]
      | cons e r =>
        rw [quoted, if_neg (fun e => hc e.1)]

theorem quoted_none (l : List Char) (h : '\'' ∉ l) : quoted l = [] := by
  have := quoted_skip l [] h
  rw [List.append_nil] at this
  rw [this]
  simp [quoted]

theorem quoted_char (c : Char) (rest : List Char) : quoted (Debug.char c ++ rest) = c :: quoted rest := by
  show quoted ('\'' :: c :: '\'' :: rest) = _
  rw [quoted, if_pos ⟨rfl, rfl⟩]

theorem quoted_vec (l : List Char) (rest : List Char) (h : '\'' ∉ rest) : quoted (Debug.vec Debug.char l ++ rest) = l := by
  have ht : ∀ l : List Char, quoted (l.flatMap (fun x => ", ".toList ++ Debug.char x) ++ ']' :: rest) = l := by
    intro l
    induction l with
    | nil => exact quoted_none _ (by simp [h])
    | cons a l ih =>
      rw [List.flatMap_cons, List.append_assoc, List.append_assoc, quoted_skip _ _ (by decide), quoted_char, ih]
  cases l with
  | nil => exact quoted_none _ (by simp [Debug.vec, h])
  | cons a l =>
    have e : Debug.vec Debug.char (a :: l) ++ rest =
        ['['] ++ (Debug.char a ++ (l.flatMap (fun x => ", ".toList ++ Debug.char x) ++ ']' :: rest)) := by
      simp [Debug.vec]
    rw [e, quoted_skip _ _ (by decide), quoted_char, ht]

theorem quoted_tuple (name l : List Char) (h : '\'' ∉ name) : quoted (Debug.tuple name (Debug.vec Debug.char l)) = l := by
  have e : Debug.tuple name (Debug.vec Debug.char l) = (name ++ ['(']) ++ (Debug.vec Debug.char l ++ [')']) := by
    simp [Debug.tuple]
  rw [e, quoted_skip _ _ (by simp [h]), quoted_vec _ _ (by decide)]

/-- C127. The characters that `{:?}` quotes of a Code 39, Code 93 or Code 11 barcode are the text, without check characters; for
Code 39 it also tells whether there will be one. -/
theorem C127_text (s : List Char) :
    (∀ x, Code39.new s = .ok x → quoted (Debug.code39 x) = s ∧ ∃ l, Debug.code39 x = l ++ "checksum: false }".toList) ∧
    (∀ x, Code39.withChecksum s = .ok x → quoted (Debug.code39 x) = s ∧ ∃ l, Debug.code39 x = l ++ "checksum: true }".toList) ∧
    (∀ x, Code93.new s = .ok x → quoted (Debug.code93 x) = s) ∧
    (∀ x, Code11.new s = .ok x → quoted (Debug.code11 x) = s) := by
  have h39 : ∀ k, quoted (Debug.code39 ⟨s, k⟩) = s := by
    intro k
    have hq : '\'' ∉ ", checksum: ".toList ++ (Debug.bool k ++ " }".toList) := by cases k <;> decide
    have hp : '\'' ∉ "Code39 { data: ".toList := by decide
    unfold Debug.code39
    rw [List.append_assoc, List.append_assoc, List.append_assoc, quoted_skip _ _ hp]
    exact quoted_vec _ _ hq
  have hend : ∀ k t, ", checksum: ".toList ++ (Debug.bool k ++ " }".toList) = ", ".toList ++ t →
      ∃ l, Debug.code39 ⟨s, k⟩ = l ++ t := by
    intro k t hk
    refine ⟨"Code39 { data: ".toList ++ Debug.vec Debug.char s ++ ", ".toList, ?_⟩
    unfold Debug.code39
    rw [List.append_assoc, List.append_assoc, hk, ← List.append_assoc]
  refine ⟨?_, ?_, ?_, ?_⟩
  · intro x h
    obtain ⟨rfl, -⟩ := code39_init_ok s false x h
    exact ⟨h39 _, hend _ _ (by decide)⟩
  · intro x h
    obtain ⟨rfl, -⟩ := code39_init_ok s true x h
    exact ⟨h39 _, hend _ _ (by decide)⟩
  · intro x h
    obtain ⟨rfl, -⟩ := code93_new_ok s x h
    exact quoted_tuple _ _ (by decide)
  · intro x h
    obtain ⟨rfl, -⟩ := code11_new_ok s x h
    exact quoted_tuple _ _ (by decide)

example : ∃ x, Code39.withChecksum "A 1".toList = .ok x ∧
    Debug.code39 x = "Code39 { data: ['A', ' ', '1'], checksum: true }".toList := ⟨_, rfl, by decide +kernel⟩

theorem wordsIn_word (w v : List Char) (c : Char) (rest : List Char) (h : ∀ d ∈ v, d.isAlpha = true) (hc : c.isAlpha = false)
    (hw : w ++ v ≠ []) : wordsIn w (v ++ c :: rest) = (w ++ v) :: wordsIn [] (c :: rest) := by
  induction v generalizing w with
  | nil =>
    rw [List.append_nil] at hw
    rw [List.nil_append, List.append_nil, wordsIn, wordsIn]
    simp [hc, hw]
  | cons d v ih =>
    rw [List.cons_append, wordsIn, if_pos (h d (by simp)), ih (w ++ [d]) (fun d hd => h d (by simp [hd])) (by simp)]
    simp

theorem wordsIn_skip (l rest : List Char) (h : ∀ c ∈ l, c.isAlpha = false) : wordsIn [] (l ++ rest) = wordsIn [] rest := by
  induction l with
  | nil => rfl
  | cons c l ih =>
    rw [List.cons_append, wordsIn, if_neg (by simp [h c (by simp)]), ih (fun c hc => h c (by simp [hc]))]
    rfl

theorem codabarUnit_word : ∀ u : Codabar.Unit, (∀ d ∈ Debug.codabarUnit u, d.isAlpha = true) ∧ Debug.codabarUnit u ≠ [] := by
  intro u
  cases u <;> decide

theorem codabarUnit_inj (u v : Codabar.Unit) (h : Debug.codabarUnit u = Debug.codabarUnit v) : u = v := by
  cases u <;> cases v <;> first | rfl | (exact absurd h (by decide))

theorem wordsListed_codabar (us : List Codabar.Unit) :
    wordsListed (Debug.codabar ⟨us⟩) = us.map Debug.codabarUnit := by
  have ht : ∀ us : List Codabar.Unit,
      wordsIn [] (us.flatMap (fun x => ", ".toList ++ Debug.codabarUnit x) ++ "])".toList) = us.map Debug.codabarUnit := by
    intro us
    induction us with
    | nil => decide
    | cons u us ih =>
      rw [List.flatMap_cons, List.append_assoc, List.append_assoc, wordsIn_skip _ _ (by decide), List.map_cons, ← ih]
      obtain ⟨h1, h2⟩ := codabarUnit_word u
      cases us with
      | nil => exact wordsIn_word [] _ ']' _ h1 rfl h2
      | cons v us => exact wordsIn_word [] _ ',' _ h1 rfl h2
  cases us with
  | nil => decide
  | cons u us =>
    have e : Debug.codabar ⟨u :: us⟩ = "Codabar(".toList ++
        '[' :: (Debug.codabarUnit u ++ (us.flatMap (fun x => ", ".toList ++ Debug.codabarUnit x) ++ "])".toList)) := by
      show Debug.tuple "Codabar".toList (Debug.vec Debug.codabarUnit (u :: us)) = _
      rw [Debug.tuple, Debug.vec]
      have h1 : "Codabar(".toList = "Codabar".toList ++ ['('] := rfl
      have h2 : "])".toList = [']'] ++ [')'] := rfl
      rw [h1, h2]
      generalize "Codabar".toList = p
      generalize us.flatMap (fun x => ", ".toList ++ Debug.codabarUnit x) = q
      simp
    rw [wordsListed, e, dropWhile_bracket _ _ (by decide)]
    obtain ⟨h1, h2⟩ := codabarUnit_word u
    have hs : ∀ X, wordsIn [] ('[' :: X) = wordsIn [] X := fun X => wordsIn_skip ['['] X (by decide)
    rw [hs, List.map_cons, ← ht us]
    cases us with
    | nil => exact wordsIn_word [] _ ']' _ h1 rfl h2
    | cons v us => exact wordsIn_word [] _ ',' _ h1 rfl h2

theorem codabarName_unit : ∀ c ∈ codabarAlphabet, Debug.codabarUnit (unitOf c) = codabarName c := by decide +kernel

/-- C127. The words that `{:?}` lists of a Codabar barcode are the names of the characters of the text. -/
theorem C127_codabar (s : List Char) (x : Codabar.Codabar) (h : Codabar.new s = .ok x) :
    wordsListed (Debug.codabar x) = s.map codabarName := by
  obtain ⟨rfl, hA, -⟩ := codabar_new_ok s x h
  rw [wordsListed_codabar, List.map_map]
  exact List.map_congr_left (fun c hc => codabarName_unit c (hA c hc))

example : ∃ x, Codabar.new "A1+B".toList = .ok x ∧ Debug.codabar x = "Codabar([A, One, Plus, B])".toList :=
  ⟨_, rfl, by decide +kernel⟩

/-- A barcode of kind `k`, however it was made, is written as `text` and drawn as `ms`. -/
def Logged (b : Build) : Kind → List Char → List Nat → Prop
  | .ean13, text, ms => ∃ x, Debug.ean13 x = text ∧ Ean13.encode b x = .ok ms
  | .ean8, text, ms => ∃ x, Debug.ean8 x = text ∧ Ean8.encode b x = .ok ms
  | .upca, text, ms => ∃ x, Debug.upca x = text ∧ Upca.encode b x = .ok ms
  | .supp, text, ms => ∃ x, Debug.eansupp x = text ∧ EanSupp.encode b x = .ok ms
  | .code39, text, ms => ∃ x, Debug.code39 x = text ∧ Code39.encode x = .ok ms
  | .code93, text, ms => ∃ x, Debug.code93 x = text ∧ Code93.encode x = .ok ms
  | .code11, text, ms => ∃ x, Debug.code11 x = text ∧ Code11.encode x = .ok ms
  | .codabar, text, ms => ∃ x, Debug.codabar x = text ∧ Codabar.encode x = ms
  | .stf, text, ms => ∃ d, Debug.tf (.Standard d) = text ∧ TF.encode (.Standard d) = .ok ms
  | .itf, text, ms => ∃ d, Debug.tf (.Interleaved d) = text ∧ TF.encode (.Interleaved d) = .ok ms
  | .code128, text, ms => ∃ x, Debug.code128 x = text ∧ Code128.encode b x = .ok ms

theorem mapO_index (us vs : List Code128.Unit) (h : us.map Code128.Unit.index = vs.map Code128.Unit.index) :
    mapO Code128.unitEncoding us = mapO Code128.unitEncoding vs := by
  induction us generalizing vs with
  | nil =>
    cases vs with
    | nil => rfl
    | cons v vs => simp at h
  | cons u us ih =>
    cases vs with
    | nil => simp at h
    | cons v vs =>
      rw [List.map_cons, List.map_cons, List.cons.injEq] at h
      have hu : Code128.unitEncoding u = Code128.unitEncoding v := by
        unfold Code128.unitEncoding
        rw [h.1]
      rw [mapO, mapO, hu, ih vs h.2]

theorem foldO_index (b : Build) (us vs : List Code128.Unit) (ws : List Int) (t : Int)
    (h : us.map Code128.Unit.index = vs.map Code128.Unit.index) :
    foldO (Code128.checksumStep b) t (us.zip ws) = foldO (Code128.checksumStep b) t (vs.zip ws) := by
  induction us generalizing vs ws t with
  | nil =>
    cases vs with
    | nil => rfl
    | cons v vs => simp at h
  | cons u us ih =>
    cases vs with
    | nil => simp at h
    | cons v vs =>
      rw [List.map_cons, List.map_cons, List.cons.injEq] at h
      cases ws with
      | nil => rfl
      | cons w ws =>
        have hu : ∀ t, Code128.checksumStep b t (u, w) = Code128.checksumStep b t (v, w) := by
          intro t
          unfold Code128.checksumStep
          simp only [h.1]
        rw [List.zip_cons_cons, List.zip_cons_cons, foldO, foldO, hu]
        congr 1
        funext t'
        exact ih vs ws t' h.2

theorem encode_index (b : Build) (x y : Code128.Code128)
    (h : x.units.map Code128.Unit.index = y.units.map Code128.Unit.index) : Code128.encode b x = Code128.encode b y := by
  have hl : x.units.length = y.units.length := by simpa using congrArg List.length h
  unfold Code128.encode Code128.payload Code128.checksumEncoding Code128.checksumValue
  rw [mapO_index _ _ h, foldO_index b _ _ _ 0 h, hl]

/-- The kind of barcode, by the name in its text. -/
def kindOfText (text : List Char) : Option Kind :=
  [("EAN13", Kind.ean13), ("EAN8", .ean8), ("UPCA", .upca), ("EAN2", .supp), ("EAN5", .supp), ("Code39", .code39),
    ("Code93", .code93), ("Code11", .code11), ("Codabar", .codabar), ("Standard", .stf), ("Interleaved", .itf),
    ("Code128", .code128)].lookup (String.ofList (text.takeWhile Char.isAlphanum))

theorem takeWhile_name (name : List Char) (c : Char) (rest : List Char) (h : ∀ d ∈ name, d.isAlphanum = true)
    (hc : c.isAlphanum = false) : (name ++ c :: rest).takeWhile Char.isAlphanum = name := by
  induction name with
  | nil => rw [List.nil_append, List.takeWhile_cons, hc]; rfl
  | cons d name ih =>
    rw [List.cons_append, List.takeWhile_cons, h d (by simp), ih (fun d hd => h d (by simp [hd]))]
    rfl

theorem kindOfText_tuple (name field : List Char) (h : ∀ d ∈ name, d.isAlphanum = true) :
    (Debug.tuple name field).takeWhile Char.isAlphanum = name := by
  rw [Debug.tuple, List.append_assoc]
  exact takeWhile_name name '(' _ h rfl

theorem logged_kind (b : Build) (k : Kind) (text : List Char) (ms : List Nat) (h : Logged b k text ms) :
    kindOfText text = some k := by
  unfold kindOfText
  cases k
  case supp =>
    obtain ⟨x, rfl, -⟩ := h
    cases x with
    | EAN2 d =>
      rw [Debug.eansupp, kindOfText_tuple _ _ (by decide)]
      rfl
    | EAN5 d =>
      rw [Debug.eansupp, kindOfText_tuple _ _ (by decide)]
      rfl
  case code39 =>
    obtain ⟨x, rfl, -⟩ := h
    have h1 : "Code39 { data: ".toList = "Code39".toList ++ ' ' :: "{ data: ".toList := by decide
    have h2 : ∀ r, ("Code39 { data: ".toList ++ r).takeWhile Char.isAlphanum = "Code39".toList := by
      intro r
      rw [h1, List.append_assoc]
      exact takeWhile_name "Code39".toList ' ' _ (by decide) rfl
    have h3 : (Debug.code39 x).takeWhile Char.isAlphanum = "Code39".toList := by
      unfold Debug.code39
      rw [List.append_assoc, List.append_assoc, List.append_assoc]
      exact h2 _
    rw [h3]
    rfl
  all_goals
    obtain ⟨x, rfl, -⟩ := h
    first
    | rw [Debug.ean13, kindOfText_tuple _ _ (by decide)]; rfl
    | rw [Debug.ean8, kindOfText_tuple _ _ (by decide)]; rfl
    | rw [Debug.upca, kindOfText_tuple _ _ (by decide)]; rfl
    | rw [Debug.code93, kindOfText_tuple _ _ (by decide)]; rfl
    | rw [Debug.code11, kindOfText_tuple _ _ (by decide)]; rfl
    | rw [Debug.codabar, kindOfText_tuple _ _ (by decide)]; rfl
    | rw [Debug.tf, kindOfText_tuple _ _ (by decide)]; rfl
    | rw [Debug.code128, kindOfText_tuple _ _ (by decide)]; rfl

theorem numbers_tuple_inj (name : List Char) (hn : '[' ∉ name) (d d' : List Nat)
    (h : Debug.tuple name (Debug.vec showNat d) = Debug.tuple name (Debug.vec showNat d')) : d = d' := by
  have := congrArg numbersListed h
  rwa [numbersListed_tuple name showNat id writesOne_showNat _ hn, numbersListed_tuple name showNat id writesOne_showNat _ hn,
    List.map_id, List.map_id] at this

/-- C127. Two barcodes, of whatever kind and however made, that `{:?}` writes alike are of the same kind and have the same
symbol. -/
theorem C127_same (b : Build) (k k' : Kind) (text : List Char) (ms ms' : List Nat) (h : Logged b k text ms)
    (h' : Logged b k' text ms') : k = k' ∧ ms = ms' := by
  have hk := logged_kind b k text ms h
  rw [logged_kind b k' text ms' h', Option.some.injEq] at hk
  subst hk
  refine ⟨rfl, ?_⟩
  have ok : ∀ {o : Outcome (List Nat)}, o = .ok ms → o = .ok ms' → ms = ms' := by
    intro o h1 h2
    rw [h1] at h2
    cases h2
    rfl
  cases k'
  case ean13 =>
    obtain ⟨⟨d⟩, rfl, h1⟩ := h
    obtain ⟨⟨d'⟩, ht, h2⟩ := h'
    have := numbers_tuple_inj _ (by decide) _ _ ht
    cases this
    exact ok h1 h2
  case ean8 =>
    obtain ⟨⟨d⟩, rfl, h1⟩ := h
    obtain ⟨⟨d'⟩, ht, h2⟩ := h'
    have := numbers_tuple_inj _ (by decide) _ _ ht
    cases this
    exact ok h1 h2
  case upca =>
    obtain ⟨⟨d⟩, rfl, h1⟩ := h
    obtain ⟨⟨d'⟩, ht, h2⟩ := h'
    have := numbers_tuple_inj _ (by decide) _ _ ht
    cases this
    exact ok h1 h2
  case supp =>
    obtain ⟨x, rfl, h1⟩ := h
    obtain ⟨y, ht, h2⟩ := h'
    have : y = x := by
      have hn := congrArg (List.takeWhile Char.isAlphanum) ht
      cases x with
      | EAN2 d =>
        cases y with
        | EAN2 d' => rw [numbers_tuple_inj _ (by decide) _ _ ht]
        | EAN5 d' =>
          rw [Debug.eansupp, Debug.eansupp, kindOfText_tuple _ _ (by decide), kindOfText_tuple _ _ (by decide)] at hn
          exact absurd hn (by decide)
      | EAN5 d =>
        cases y with
        | EAN5 d' => rw [numbers_tuple_inj _ (by decide) _ _ ht]
        | EAN2 d' =>
          rw [Debug.eansupp, Debug.eansupp, kindOfText_tuple _ _ (by decide), kindOfText_tuple _ _ (by decide)] at hn
          exact absurd hn (by decide)
    rw [this] at h2
    exact ok h1 h2
  case code39 =>
    obtain ⟨⟨d, c⟩, rfl, h1⟩ := h
    obtain ⟨⟨d', c'⟩, ht, h2⟩ := h'
    have hq : ∀ d c, quoted (Debug.code39 ⟨d, c⟩) = d := by
      intro d c
      have hq : '\'' ∉ ", checksum: ".toList ++ (Debug.bool c ++ " }".toList) := by cases c <;> decide
      have hp : '\'' ∉ "Code39 { data: ".toList := by decide
      unfold Debug.code39
      rw [List.append_assoc, List.append_assoc, List.append_assoc, quoted_skip _ _ hp]
      exact quoted_vec _ _ hq
    have hd := congrArg quoted ht
    rw [hq, hq] at hd
    subst hd
    have hc : c' = c := by
      unfold Debug.code39 at ht
      rw [List.append_left_inj, List.append_right_inj] at ht
      have hb : ∀ a a', Debug.bool a = Debug.bool a' → a = a' := by decide
      exact hb c' c ht
    rw [hc] at h2
    exact ok h1 h2
  case code93 =>
    obtain ⟨⟨d⟩, rfl, h1⟩ := h
    obtain ⟨⟨d'⟩, ht, h2⟩ := h'
    have hd := congrArg quoted ht
    rw [Debug.code93, Debug.code93, quoted_tuple _ _ (by decide), quoted_tuple _ _ (by decide)] at hd
    cases hd
    exact ok h1 h2
  case code11 =>
    obtain ⟨⟨d⟩, rfl, h1⟩ := h
    obtain ⟨⟨d'⟩, ht, h2⟩ := h'
    have hd := congrArg quoted ht
    rw [Debug.code11, Debug.code11, quoted_tuple _ _ (by decide), quoted_tuple _ _ (by decide)] at hd
    cases hd
    exact ok h1 h2
  case codabar =>
    obtain ⟨⟨u⟩, rfl, h1⟩ := h
    obtain ⟨⟨u'⟩, ht, h2⟩ := h'
    have hd := congrArg wordsListed ht
    rw [wordsListed_codabar, wordsListed_codabar] at hd
    have := (List.map_inj_right (fun u v huv => codabarUnit_inj u v huv)).mp hd
    rw [← h1, ← h2, this]
  case stf =>
    obtain ⟨d, rfl, h1⟩ := h
    obtain ⟨d', ht, h2⟩ := h'
    have := numbers_tuple_inj _ (by decide) _ _ ht
    cases this
    exact ok h1 h2
  case itf =>
    obtain ⟨d, rfl, h1⟩ := h
    obtain ⟨d', ht, h2⟩ := h'
    have := numbers_tuple_inj _ (by decide) _ _ ht
    cases this
    exact ok h1 h2
  case code128 =>
    obtain ⟨x, rfl, h1⟩ := h
    obtain ⟨y, ht, h2⟩ := h'
    have hd := congrArg numbersListed ht
    rw [Debug.code128, Debug.code128, numbersListed_tuple _ _ _ writesOne_unit _ (by decide),
      numbersListed_tuple _ _ _ writesOne_unit _ (by decide)] at hd
    rw [encode_index b y x hd] at h2
    exact ok h1 h2

example : ∃ x ms, Debug.ean8 x = "EAN8([5, 5, 1, 2, 3, 4, 5])".toList ∧ Ean8.encode .debug x = .ok ms ∧
    Logged .debug .ean8 "EAN8([5, 5, 1, 2, 3, 4, 5])".toList ms := by
  refine ⟨⟨[5, 5, 1, 2, 3, 4, 5]⟩, _, by decide +kernel, rfl, ⟨[5, 5, 1, 2, 3, 4, 5]⟩, by decide +kernel, rfl⟩

/-- C127. The four errors are told apart by `{:?}` (as in the message of a failed `unwrap`) and by `{}`. -/
theorem C127_errors (e e' : Error) :
    (Debug.error e = Debug.error e' → e = e') ∧ (e.display = e'.display → e = e') ∧ Debug.error e ≠ e'.display.toList := by
  cases e <;> cases e' <;> decide

example : Debug.error .checksum = "Checksum".toList ∧ Error.display .checksum = "Invalid checksum" := by decide

end Barcoders
