import Verif.Lemmas.Numbers
import Verif.Lemmas.Elements
import Verif.Model.Json
import Verif.Spec.Json

/-!
# JSON output (C36)
-/

set_option autoImplicit false

namespace Barcoders
open Spec

/-- A byte as a module: every nonzero byte is a bar. -/
def bitOf (b : Nat) : Nat := if b = 0 then 0 else 1

/-- Its character. -/
def bitChar (b : Nat) : Char := if b = 0 then '0' else '1'

theorem json_bits (l : List Nat) (acc : List Char) :
    l.foldl Json.bitStep acc = acc ++ l.flatMap (fun b => [bitChar b, ',']) := by
  induction l generalizing acc with
  | nil => simp
  | cons b l ih =>
    have hb : Json.bitStep acc b = acc ++ [bitChar b, ','] := by
      cases b with
      | zero => simp [Json.bitStep, bitChar]
      | succ b => simp [Json.bitStep, bitChar]
    rw [List.foldl_cons, ih, hb, List.flatMap_cons, List.append_assoc]

theorem json_bits_cons (b : Nat) (l : List Nat) :
    ((b :: l).foldl Json.bitStep []).dropLast = bitChar b :: l.flatMap (fun b => [',', bitChar b]) := by
  rw [json_bits, List.nil_append]
  induction l generalizing b with
  | nil => rfl
  | cons c l ih =>
    have h := ih c
    rw [List.flatMap_cons] at h
    rw [List.flatMap_cons, List.flatMap_cons, List.flatMap_cons]
    simp only [List.cons_append, List.nil_append, List.dropLast_cons_of_ne_nil (List.cons_ne_nil _ _)] at h ⊢
    rw [h]

theorem jsonTokens_num (l : List Char) (a : Nat) (c : Char) (rest : List Char) (ts : List JToken)
    (hl : ∀ d ∈ l, d.isDigit = true) (ha : 0 < a ∨ l = []) (hc : c.isDigit = false) (hp : punctuation c = some ts) :
    jsonTokens (.inNum a) (l ++ c :: rest) =
      (jsonTokens .start rest).map (fun r => .num (readDigits a l) :: (ts ++ r)) := by
  induction l generalizing a with
  | nil =>
    rw [List.nil_append, jsonTokens, if_neg (by simp [hc]), hp]
    rfl
  | cons d l ih =>
    have ha' : 0 < a := ha.resolve_right (by simp)
    rw [List.cons_append, jsonTokens, if_pos (hl d (by simp)), if_neg (by omega),
      ih _ (fun d hd => hl d (by simp [hd])) (Or.inl (by omega))]
    rfl

/-- Numbers are read back. -/
theorem jsonTokens_showNat (n : Nat) (c : Char) (rest : List Char) (ts : List JToken) (hc : c.isDigit = false)
    (hp : punctuation c = some ts) :
    jsonTokens .start (showNat n ++ c :: rest) = (jsonTokens .start rest).map (fun r => .num n :: (ts ++ r)) := by
  obtain ⟨h1, h2, h3, h4, h5⟩ := showNat_spec n
  cases hs : showNat n with
  | nil => exact absurd hs h3
  | cons d l =>
    rw [hs] at h1 h2 h5
    have hd := h1 d (by simp)
    have hq : d ≠ '"' := by rintro rfl; revert hd; decide
    rw [List.cons_append, jsonTokens, if_neg hq, if_pos hd, jsonTokens_num l _ c rest ts _ _ hc hp]
    · have : readDigits (d.toNat - 48) l = n := by
        rw [← h2]; simp [readDigits]
      rw [this]
    · exact fun d hd => h1 d (by simp [hd])
    · by_cases h0 : n = 0
      · right
        have := h4 h0
        rw [hs] at this
        simp at this
        exact this.2
      · left
        exact h5 (by omega) d (by simp)

theorem jsonTokens_bits (l : List Nat) (b : Nat) :
    jsonTokens .start (bitChar b :: l.flatMap (fun b => [',', bitChar b]) ++ "]}".toList) =
      some (.num (bitOf b) :: l.flatMap (fun b => [.comma, .num (bitOf b)]) ++ [.rbracket, .rbrace]) := by
  have h0 : ∀ b cs, jsonTokens .start (bitChar b :: cs) = jsonTokens (.inNum (bitOf b)) cs := by
    intro b cs
    by_cases hb : b = 0
    · simp only [hb, bitChar, bitOf, if_true]; rfl
    · simp only [hb, bitChar, bitOf, if_false]; rfl
  rw [List.cons_append, h0]
  generalize bitOf b = n
  induction l generalizing n with
  | nil => rfl
  | cons c l ih =>
    have hc : jsonTokens (.inNum n) (',' :: (bitChar c :: (l.flatMap (fun b => [',', bitChar b]) ++ "]}".toList))) =
        (jsonTokens .start (bitChar c :: (l.flatMap (fun b => [',', bitChar b]) ++ "]}".toList))).map
          (fun r => .num n :: .comma :: r) := rfl
    rw [List.flatMap_cons, List.flatMap_cons]
    simp only [List.cons_append, List.nil_append]
    rw [hc, h0, ih]
    rfl

theorem jsonElements_bits (l : List Nat) (b fuel : Nat) (rest : List JToken) (h : l.length + 2 ≤ fuel) :
    jsonElements fuel (.num b :: l.flatMap (fun b => [.comma, .num (bitOf b)]) ++ .rbracket :: rest) =
      some (.num b :: l.map (fun b => .num (bitOf b)), rest) := by
  induction l generalizing b fuel with
  | nil =>
    obtain ⟨f, rfl⟩ : ∃ f, fuel = f + 2 := ⟨fuel - 2, by simp at h; omega⟩
    simp [jsonElements, jsonValue]
  | cons c l ih =>
    obtain ⟨f, rfl⟩ : ∃ f, fuel = f + 2 := ⟨fuel - 2, by simp at h; omega⟩
    rw [jsonElements]
    simp only [List.cons_append, List.flatMap_cons, jsonValue, List.nil_append]
    have := ih (bitOf c) (f + 1) (by simp at h; omega)
    rw [List.cons_append] at this
    rw [this]
    rfl

theorem jsonTokens_punct (c : Char) (X : List Char) (ts : List JToken) (hq : c ≠ '"') (hc : c.isDigit = false)
    (hp : punctuation c = some ts) : jsonTokens .start (c :: X) = (jsonTokens .start X).map (ts ++ ·) := by
  rw [jsonTokens, if_neg hq, if_neg (by simp [hc]), hp]
  rfl

theorem jsonTokens_inStr (l s X : List Char) (hl : ∀ c ∈ l, c ≠ '"' ∧ c ≠ '\\' ∧ 32 ≤ c.toNat) :
    jsonTokens (.inStr s) (l ++ '"' :: X) = (jsonTokens .start X).map (.str (s ++ l) :: ·) := by
  induction l generalizing s with
  | nil => rw [List.nil_append, jsonTokens, if_pos rfl, List.append_nil]
  | cons c l ih =>
    obtain ⟨h1, h2, h3⟩ := hl c (by simp)
    rw [List.cons_append, jsonTokens, if_neg h1,
      if_neg (fun h => h.elim h2 (fun h => by omega)), ih _ (fun c hc => hl c (by simp [hc]))]
    simp

/-- A member name and its colon. -/
theorem jsonTokens_key (k X : List Char) (hk : ∀ c ∈ k, c ≠ '"' ∧ c ≠ '\\' ∧ 32 ≤ c.toNat) :
    jsonTokens .start ('"' :: (k ++ '"' :: ':' :: X)) = (jsonTokens .start X).map ([.str k, .colon] ++ ·) := by
  rw [jsonTokens, if_pos rfl, jsonTokens_inStr k [] _ hk, jsonTokens_punct ':' X [.colon] (by decide) rfl rfl]
  simp [Function.comp_def]

/-- The document: an object with the height, the xdim and the array of modules. -/
def barcodeJson (height xdim : Nat) (bits : List Nat) : JValue :=
  .obj [("height".toList, .num height), ("xdim".toList, .num xdim), ("encoding".toList, .arr (bits.map .num))]

/-- C36: for every height, xdim and byte slice the output is a JSON text that reads as exactly these data. -/
theorem C36_json_parses (g : Json.JSON) (bytes : List Nat) :
    ∃ out, Json.generate g bytes = .ok out ∧
      parseJson out = some (barcodeJson g.height g.xdim (bytes.map (fun b => if b = 0 then 0 else 1))) := by
  refine ⟨_, rfl, ?_⟩
  have hcomma : ∀ n X, jsonTokens .start (showNat n ++ ',' :: X) =
      (jsonTokens .start X).map (fun r => [.num n, .comma] ++ r) := by
    intro n X
    rw [jsonTokens_showNat n ',' X [.comma] rfl rfl]
    rfl
  have hdoc : ∀ H W B, "{\"height\":".toList ++ H ++ ",\"xdim\":".toList ++ W ++
      ",\"encoding\":[".toList ++ B ++ "]}".toList =
      '{' :: '"' :: ("height".toList ++ '"' :: ':' :: (H ++ ',' :: '"' :: ("xdim".toList ++ '"' :: ':' ::
        (W ++ ',' :: '"' :: ("encoding".toList ++ '"' :: ':' :: '[' :: (B ++ "]}".toList)))))) := by
    intro H W B; simp
  have htok : ∀ B, jsonTokens .start ("{\"height\":".toList ++ showNat g.height ++ ",\"xdim\":".toList ++ showNat g.xdim ++
      ",\"encoding\":[".toList ++ B ++ "]}".toList) =
      (jsonTokens .start (B ++ "]}".toList)).map (fun r =>
        [.lbrace, .str "height".toList, .colon, .num g.height, .comma, .str "xdim".toList, .colon, .num g.xdim, .comma,
          .str "encoding".toList, .colon, .lbracket] ++ r) := by
    intro B
    rw [hdoc, jsonTokens_punct '{' _ [.lbrace] (by decide) rfl rfl, jsonTokens_key _ _ (by decide), hcomma,
      jsonTokens_key _ _ (by decide), hcomma, jsonTokens_key _ _ (by decide),
      jsonTokens_punct '[' _ [.lbracket] (by decide) rfl rfl]
    simp [Function.comp_def]
  unfold parseJson
  rw [htok]
  cases bytes with
  | nil => rfl
  | cons b l =>
    rw [json_bits_cons, jsonTokens_bits]
    simp only [Option.map_some, Option.bind_eq_bind, Option.bind_some]
    generalize hfuel : 2 * List.length _ + 1 = fuel
    have hf : l.length + 20 ≤ fuel := by
      have := flatMap_length_eq 2 (fun b => [JToken.comma, JToken.num (bitOf b)]) l (fun _ _ => rfl)
      rw [← hfuel]
      simp only [List.length_append, List.length_cons, List.length_nil, this]
      omega
    obtain ⟨f, rfl⟩ : ∃ f, fuel = f + 10 := ⟨fuel - 10, by omega⟩
    have he := jsonElements_bits l (bitOf b) (f + 5) [.rbrace] (by omega)
    rw [List.cons_append] at he
    simp only [jsonValue, jsonMembers, List.cons_append, List.nil_append, Option.map_some, he]
    simp [barcodeJson, bitOf]

example : Json.generate ⟨10, 1⟩ [] = .ok "{\"height\":10,\"xdim\":1,\"encoding\":[]}".toList := by decide
example : Json.generate ⟨10, 1⟩ [1, 0, 7] = .ok "{\"height\":10,\"xdim\":1,\"encoding\":[1,0,1]}".toList := by decide
/-- The reader rejects a trailing comma. -/
example : (parseJson "{\"height\":10,\"xdim\":1,\"encoding\":[1,0,]}".toList).isNone := by decide +kernel

end Barcoders
