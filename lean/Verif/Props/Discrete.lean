import Verif.Spec.Discrete
import Verif.Props.Shape
import Verif.Props.Narrowest

/-! C126: what the documentation says of the symbologies: discrete, continuous, denser, double density. -/

set_option autoImplicit false

namespace Barcoders
open Spec

theorem readAllFrom_loose {α : Type} (k : Nat) (f g : List Nat → Option α)
    (hfg : ∀ (acc : List Nat) (e e' : Nat) (x : α), acc.length + 1 = k → f (acc ++ [e]) = some x → g (acc ++ [e']) = some x)
    (es es' acc : List Nat) (l : List α) (ha : acc.length < k) (hl : es.length = es'.length)
    (hs : ∀ i : Nat, (acc.length + i) % k + 1 ≠ k → es[i]? = es'[i]?) (h : readAllFrom k f acc es = some l) :
    readAllFrom k g acc es' = some l := by
  induction es generalizing es' acc l with
  | nil =>
    cases es' with
    | nil => exact h
    | cons e' es' => simp at hl
  | cons e es ih =>
    cases es' with
    | nil => simp at hl
    | cons e' es' =>
      rw [readAllFrom] at h ⊢
      have hl' : es.length = es'.length := by simpa using hl
      by_cases hk : acc.length + 1 = k
      · rw [if_pos hk] at h ⊢
        cases hx : f (acc ++ [e]) with
        | none => rw [hx] at h; cases h
        | some x =>
          rw [hx] at h
          rw [hfg acc e e' x hk hx]
          cases hr : readAllFrom k f [] es with
          | none => rw [hr] at h; cases h
          | some xs =>
            rw [hr] at h
            rw [ih es' [] xs (by simp; omega) hl' ?_ hr]
            · exact h
            · intro i hi
              have := hs (i + 1) (by
                have e1 : acc.length + (i + 1) = i + k := by omega
                rw [e1, Nat.add_mod_right]
                simpa using hi)
              simpa using this
      · rw [if_neg hk] at h ⊢
        have h0 := hs 0 (by show acc.length % k + 1 ≠ k; rw [Nat.mod_eq_of_lt ha]; exact hk)
        simp only [List.getElem?_cons_zero, Option.some.injEq] at h0
        rw [← h0]
        refine ih es' (acc ++ [e]) l (by simp; omega) hl' ?_ h
        intro i hi
        have := hs (i + 1) (by
          have e1 : acc.length + (i + 1) = (acc ++ [e]).length + i := by simp; omega
          rw [e1]
          exact hi)
        simpa using this

theorem readAll_loose {α : Type} (k : Nat) (hk : 0 < k) (f g : List Nat → Option α)
    (hfg : ∀ (acc : List Nat) (e e' : Nat) (x : α), acc.length + 1 = k → f (acc ++ [e]) = some x → g (acc ++ [e']) = some x)
    (es es' : List Nat) (l : List α) (hs : SameButGaps k es es') (h : readAll k f (es ++ [1]) = some l) :
    readAll k g (es' ++ [1]) = some l := by
  refine readAllFrom_loose k f g hfg (es ++ [1]) (es' ++ [1]) [] l hk (by simp [hs.length]) ?_ h
  intro i hi
  have hi' : i % k + 1 ≠ k := by simpa using hi
  by_cases hlt : i < es.length
  · rw [List.getElem?_append_left hlt, List.getElem?_append_left (by rw [← hs.length]; exact hlt)]
    exact hs.same i hi'
  · rw [List.getElem?_append_right (by omega), List.getElem?_append_right (by rw [← hs.length]; omega), hs.length]

/-- C126. Code 39 is discrete: a reader that does not look at the spaces between the characters reads the text from the symbol
however wide these spaces come out. -/
theorem C126_code39 (s : List Char) (x : Code39.Code39) (ms ms' es es' : List Nat) (h : Code39.new s = .ok x)
    (hm : Code39.encode x = .ok ms) (he : elements ms = some es) (he' : elements ms' = some es')
    (hg : SameButGaps 10 es es') : looseCode39 ms' = some s := by
  obtain ⟨bits, hb, hr⟩ := C14_code39_scan s x h
  rw [hb] at hm
  cases hm
  unfold scanCode39 at hr
  rw [he] at hr
  unfold looseCode39
  rw [he']
  simp only [Option.bind_eq_bind, Option.bind_some] at hr ⊢
  cases hc : readAll 10 readCode39Char (es ++ [1]) with
  | none => rw [hc] at hr; cases hr
  | some cs =>
    rw [hc] at hr
    rw [readAll_loose 10 (by decide) readCode39Char (looseChar 9 code39Chart) ?_ es es' cs hg hc]
    · exact hr
    · intro acc e e' c hacc hf
      unfold readCode39Char at hf
      split at hf
      · rw [looseChar, List.take_left' (by omega)]
        rwa [List.take_left' (by omega)] at hf
      · cases hf

example : ∃ x ms es, Code39.new "A".toList = .ok x ∧ Code39.encode x = .ok ms ∧ elements ms = some es ∧
    SameButGaps 10 es (es.set 9 7) ∧ looseCode39 (ms.take 12 ++ List.replicate 7 0 ++ ms.drop 13) = some "A".toList ∧
    scanCode39 (ms.take 12 ++ List.replicate 7 0 ++ ms.drop 13) = none := by
  refine ⟨_, _, _, rfl, rfl, rfl, ⟨by simp, ?_⟩, by decide +kernel, by decide +kernel⟩
  intro i hi
  rw [List.getElem?_set_ne (by omega)]

/-- C126. Code 11 is discrete. -/
theorem C126_code11 (s : List Char) (x : Code11.Code11) (ms ms' es es' : List Nat) (h : Code11.new s = .ok x)
    (hm : Code11.encode x = .ok ms) (he : elements ms = some es) (he' : elements ms' = some es')
    (hg : SameButGaps 6 es es') : looseCode11 ms' = some s := by
  obtain ⟨bits, hb, hr⟩ := C20_code11_scan s x h
  rw [hb] at hm
  cases hm
  unfold scanCode11 readCode11 at hr
  rw [he] at hr
  unfold looseCode11
  rw [he']
  simp only [Option.bind_eq_bind, Option.bind_some] at hr ⊢
  cases hc : readAll 6 readCode11Char (es ++ [1]) with
  | none => rw [hc] at hr; cases hr
  | some cs =>
    rw [hc] at hr
    rw [readAll_loose 6 (by decide) readCode11Char (looseChar 5 code11Chart) ?_ es es' cs hg hc]
    · exact hr
    · intro acc e e' c hacc hf
      unfold readCode11Char at hf
      split at hf
      · rw [looseChar, List.take_left' (by omega)]
        rwa [List.take_left' (by omega)] at hf
      · cases hf

example : ∃ x ms es, Code11.new "4".toList = .ok x ∧ Code11.encode x = .ok ms ∧ elements ms = some es ∧
    SameButGaps 6 es (es.set 5 4) ∧ looseCode11 (ms.take 7 ++ List.replicate 4 0 ++ ms.drop 8) = some "4".toList ∧
    scanCode11 (ms.take 7 ++ List.replicate 4 0 ++ ms.drop 8) = none := by
  refine ⟨_, _, _, rfl, rfl, rfl, ⟨by simp, ?_⟩, by decide +kernel, by decide +kernel⟩
  intro i hi
  rw [List.getElem?_set_ne (by omega)]

/-- C126. So is Codabar, for texts without `+`: the reader gets what a standard scanner gets from the symbol with narrow spaces
(the text with `B` and `C` exchanged, see C23). -/
theorem C126_codabar (s : List Char) (x : Codabar.Codabar) (ms' es es' : List Nat) (h : Codabar.new s = .ok x) (hp : '+' ∉ s)
    (he : elements (Codabar.encode x) = some es) (he' : elements ms' = some es') (hg : SameButGaps 8 es es') :
    looseCodabar ms' = some (s.map (fun c => if c = 'B' then 'C' else if c = 'C' then 'B' else c)) := by
  have hr := C23_codabar_scan_partial s x h hp
  unfold scanCodabar at hr
  rw [he] at hr
  unfold looseCodabar
  rw [he']
  simp only [Option.bind_eq_bind, Option.bind_some] at hr ⊢
  refine readAll_loose 8 (by decide) readCodabarChar (looseChar 7 codabarChart) ?_ es es' _ hg hr
  intro acc e e' c hacc hf
  unfold readCodabarChar at hf
  split at hf
  · rw [looseChar, List.take_left' (by omega)]
    rwa [List.take_left' (by omega)] at hf
  · cases hf

example : ∃ x es, Codabar.new "A1B".toList = .ok x ∧ elements (Codabar.encode x) = some es ∧ SameButGaps 8 es (es.set 7 5) ∧
    looseCodabar ((Codabar.encode x).take 10 ++ List.replicate 5 0 ++ (Codabar.encode x).drop 11) = some "A1C".toList := by
  refine ⟨_, _, rfl, rfl, ⟨by simp, ?_⟩, by decide +kernel⟩
  intro i hi
  rw [List.getElem?_set_ne (by omega)]

theorem flatMap_cells (f : Char → List Nat) (T : List Char) (rest : List Nat)
    (h : ∀ c ∈ T, (f c).length = 9 ∧ (f c)[0]? = some 1 ∧ (f c)[8]? = some 0) (i : Nat) (hi : i < T.length) :
    (T.flatMap f ++ rest)[9 * i]? = some 1 ∧ (T.flatMap f ++ rest)[9 * i + 8]? = some 0 := by
  induction T generalizing i with
  | nil => simp at hi
  | cons c T ih =>
    obtain ⟨h9, h0, h8⟩ := h c (by simp)
    rw [List.flatMap_cons, List.append_assoc]
    cases i with
    | zero =>
      rw [Nat.mul_zero, List.getElem?_append_left (by omega), List.getElem?_append_left (by omega)]
      exact ⟨h0, h8⟩
    | succ i =>
      have := ih (fun d hd => h d (by simp [hd])) i (by simpa using hi)
      have e1 : 9 * (i + 1) - (f c).length = 9 * i := by omega
      have e2 : 9 * (i + 1) + 8 - (f c).length = 9 * i + 8 := by omega
      rw [List.getElem?_append_right (l₁ := f c) (i := 9 * (i + 1)) (by omega),
        List.getElem?_append_right (l₁ := f c) (i := 9 * (i + 1) + 8) (by omega), e1, e2]
      exact this

theorem w93_cells : ∀ c ∈ '*' :: code93Alphabet, (paintFrom 1 (w93 c)).length = 9 ∧ (paintFrom 1 (w93 c))[0]? = some 1 ∧
    (paintFrom 1 (w93 c))[8]? = some 0 := by decide

/-- C126. Code 93 is continuous: the symbol of n characters is n + 4 cells of nine modules and a last bar, every cell begins
with a bar and ends with a space, and there is nothing between the cells. -/
theorem C126_code93 (s : List Char) (x : Code93.Code93) (ms : List Nat) (h : Code93.new s = .ok x)
    (hm : Code93.encode x = .ok ms) :
    ms.length = 9 * (s.length + 4) + 1 ∧ ms.getLast? = some 1 ∧
      ∀ i, i < s.length + 4 → ms[9 * i]? = some 1 ∧ ms[9 * i + 8]? = some 0 := by
  have hrow := C32_code93_row s x ms h hm
  obtain ⟨hA, he⟩ := code93_symbol s x h
  rw [he] at hm
  cases hm
  have hT : ∀ c ∈ '*' :: (code93Text s ++ ['*']), c ∈ '*' :: code93Alphabet := star_text_mem _ _ hA
  have hp : paint (code93SymWidths (code93Text s)) =
      ('*' :: (code93Text s ++ ['*'])).flatMap (fun c => paintFrom 1 (w93 c)) ++ [1] := by
    rw [paint, code93SymWidths, paintFrom_append_even 1 (by omega), paintFrom_flatMap 1 (by omega)]
    · rfl
    · intro c hc
      rw [(w93_spec c (hT c hc)).1]
    · rw [flatMap_length_eq 6 _ _ (fun c hc => (w93_spec c (hT c hc)).1)]
      omega
  have hl : (code93Text s).length = s.length + 2 := by simp [code93Text]
  refine ⟨by have := hrow.length; omega, ?_, ?_⟩
  · rw [hp, List.getLast?_append]
    rfl
  · intro i hi
    rw [hp]
    exact flatMap_cells (fun c => paintFrom 1 (w93 c)) _ [1] (fun c hc => w93_cells c (hT c hc)) i (by simp [hl]; omega)

example : ∃ x ms, Code93.new "A".toList = .ok x ∧ Code93.encode x = .ok ms ∧ ms.length = 46 ∧
    ms.take 18 = [1, 0, 1, 0, 1, 1, 1, 1, 0, 1, 1, 0, 1, 0, 1, 0, 0, 0] := ⟨_, _, rfl, rfl, by decide +kernel, by decide +kernel⟩

/-- C126. Code 93 is denser than Code 39 from four characters on: the symbols of a text Code 39 accepts are equally wide for
three characters and that of Code 39 is narrower for one and two. Code 93 (which always has check characters) is
denser than Code 39 with its check character for every text. -/
theorem C126_denser (s : List Char) (x x' : Code39.Code39) (y : Code93.Code93) (a a' c : List Nat)
    (hx : Code39.new s = .ok x) (hx' : Code39.withChecksum s = .ok x') (hy : Code93.new s = .ok y)
    (ha : Code39.encode x = .ok a) (ha' : Code39.encode x' = .ok a') (hc : Code93.encode y = .ok c) :
    (c.length < a.length ↔ 4 ≤ s.length) ∧ (c.length = a.length ↔ s.length = 3) ∧ c.length < a'.length := by
  have h1 := (C32_code39_row s x a ha).1 hx
  have h2 := (C32_code39_row s x' a' ha').2 hx'
  have h3 := C32_code93_row s y c hy hc
  rw [h1.length, h2.length, h3.length]
  omega

example : ∃ x x' y a a' c, Code39.new "AB12".toList = .ok x ∧ Code39.withChecksum "AB12".toList = .ok x' ∧
    Code93.new "AB12".toList = .ok y ∧ Code39.encode x = .ok a ∧ Code39.encode x' = .ok a' ∧ Code93.encode y = .ok c ∧
    a.length = 77 ∧ a'.length = 90 ∧ c.length = 73 :=
  ⟨_, _, _, _, _, _, rfl, rfl, rfl, rfl, rfl, rfl, by decide +kernel, by decide +kernel, by decide +kernel⟩

theorem setCDigits_outside (set : CodeSet) (hs : set ≠ .C) (t : List Char) (h : AllDigits t) : setCDigits set t = 0 := by
  induction t with
  | nil => rfl
  | cons c t ih =>
    obtain ⟨h1, h2, h3, -⟩ := ascii_not_special c (digit_ascii c (h c (by simp)))
    rw [setCDigits, if_neg h1, if_neg h2, if_neg h3, if_neg (fun e => hs e.1), ih (fun c hc => h c (by simp [hc]))]

/-- C126. Code 128 offers double density for digits: apart from the 35 modules of start, check and stop, an even number of
digits takes half the space in set C that it takes in sets A and B. -/
theorem C126_double (b : Build) (t : List Char) (hd : AllDigits t) (x y z : Code128.Code128) (ma mb mc : List Nat)
    (hx : Code128.new ('À' :: t) = .ok x) (hy : Code128.new ('Ɓ' :: t) = .ok y) (hz : Code128.new ('Ć' :: t) = .ok z)
    (ha : Code128.encode b x = .ok ma) (hb : Code128.encode b y = .ok mb) (hc : Code128.encode b z = .ok mc) :
    ma.length = 11 * t.length + 35 ∧ mb.length = ma.length ∧ 2 * (mc.length - 35) = ma.length - 35 ∧ 35 ≤ mc.length := by
  obtain ⟨n1, v1, e1, -, -, r1⟩ := C32_code128_row b _ x ma hx ha
  obtain ⟨n2, v2, e2, -, -, r2⟩ := C32_code128_row b _ y mb hy hb
  obtain ⟨n3, v3, e3, -, -, r3⟩ := C32_code128_row b _ z mc hz hc
  rw [show setCDigits .A ('À' :: t) = setCDigits .A t from rfl, setCDigits_outside .A (by decide) t hd, List.length_cons] at e1
  rw [show setCDigits .A ('Ɓ' :: t) = setCDigits .B t from rfl, setCDigits_outside .B (by decide) t hd, List.length_cons] at e2
  rw [show setCDigits .A ('Ć' :: t) = setCDigits .C t from rfl, setCDigits_digits t hd, List.length_cons] at e3
  rw [r1.length, r2.length, r3.length]
  omega

example : ∃ x y z ma mb mc, Code128.new "À123456".toList = .ok x ∧ Code128.new "Ɓ123456".toList = .ok y ∧
    Code128.new "Ć123456".toList = .ok z ∧ Code128.encode .debug x = .ok ma ∧ Code128.encode .debug y = .ok mb ∧
    Code128.encode .debug z = .ok mc ∧ ma.length = 101 ∧ mb.length = 101 ∧ mc.length = 68 :=
  ⟨_, _, _, _, _, _, rfl, rfl, rfl, rfl, rfl, rfl, by decide +kernel, by decide +kernel, by decide +kernel⟩

end Barcoders
