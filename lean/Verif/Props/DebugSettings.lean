import Verif.Spec.DebugSettings
import Verif.Model.DebugGenerators
import Verif.Props.DebugText

/-! C129: what `{:?}` shows of a generator. -/

set_option autoImplicit false

namespace Barcoders
open Spec

/-- Text without digits, each piece followed by a number, and then something that does not begin with a digit. -/
theorem numbersIn_pieces (l : List (List Char × Nat)) (c : Char) (rest : List Char) (hc : c.isDigit = false)
    (h : ∀ p ∈ l, p.1 ≠ [] ∧ ∀ d ∈ p.1, d.isDigit = false) :
    numbersIn none (l.flatMap (fun p => p.1 ++ showNat p.2) ++ c :: rest) = l.map Prod.snd ++ numbersIn none (c :: rest) := by
  induction l with
  | nil => rfl
  | cons p l ih =>
    obtain ⟨hne, hd⟩ := h p (by simp)
    have ih := ih (fun q hq => h q (by simp [hq]))
    rw [List.flatMap_cons, List.append_assoc, List.append_assoc, numbersIn_skip _ _ hd, List.map_cons, List.cons_append, ← ih]
    cases l with
    | nil => exact numbersIn_showNat p.2 c rest hc
    | cons q l =>
      obtain ⟨hqne, hqd⟩ := h q (by simp)
      obtain ⟨e, r, he⟩ := List.exists_cons_of_ne_nil hqne
      rw [List.flatMap_cons, he]
      have := hqd e (by rw [he]; simp)
      exact numbersIn_showNat p.2 e _ this

theorem numbersIn_none (l : List Char) (h : ∀ c ∈ l, c.isDigit = false) : numbersIn none l = [] := by
  have := numbersIn_skip l [] h
  rw [List.append_nil] at this
  rw [this]
  rfl

theorem two_numbers (p q e : List Char) (m n : Nat) (hp : p ≠ [] ∧ ∀ d ∈ p, d.isDigit = false) (hq : q ≠ [] ∧ ∀ d ∈ q, d.isDigit = false)
    (he : e ≠ [] ∧ ∀ d ∈ e, d.isDigit = false) : numbersIn none (p ++ showNat m ++ q ++ showNat n ++ e) = [m, n] := by
  obtain ⟨c, r, rfl⟩ := List.exists_cons_of_ne_nil he.1
  have h1 := numbersIn_pieces [(p, m), (q, n)] c r (he.2 c (by simp)) (by simpa using ⟨hp, hq⟩)
  rw [numbersIn_none (c :: r) he.2] at h1
  simpa using h1

/-- C129. The two numbers that `{:?}` shows of an ASCII or a JSON generator are its height and its `xdim`. -/
theorem C129_ascii_json (g : Ascii.ASCII) (j : Json.JSON) :
    numbersIn none (Debug.ascii g) = [g.height, g.xdim] ∧ numbersIn none (Debug.json j) = [j.height, j.xdim] :=
  ⟨two_numbers _ _ _ _ _ (by decide) (by decide) (by decide), two_numbers _ _ _ _ _ (by decide) (by decide) (by decide)⟩

example : Debug.ascii Ascii.new = "ASCII { height: 10, xdim: 1 }".toList ∧ Debug.json ⟨40, 2⟩ = "JSON { height: 40, xdim: 2 }".toList := by
  decide +kernel

theorem rgba_eq (r g b a : Nat) : Debug.rgba r g b a = [("Color { rgba: [".toList, r), (", ".toList, g), (", ".toList, b), (", ".toList, a)].flatMap
    (fun p => p.1 ++ showNat p.2) ++ "] }".toList := by
  have h1 : "Color { rgba: [".toList = "Color { rgba: ".toList ++ ['['] := rfl
  have h2 : "] }".toList = [']'] ++ " }".toList := rfl
  rw [h1, h2]
  unfold Debug.rgba Debug.vec
  generalize "Color { rgba: ".toList = p
  generalize " }".toList = q
  generalize ", ".toList = s
  simp

/-- The ten numbers of a picture generator with whatever stands between them. -/
theorem ten_numbers (p q r s t : List Char) (h x fr fg fb fa br bg bb ba : Nat) (hp : p ≠ [] ∧ ∀ d ∈ p, d.isDigit = false)
    (hq : q ≠ [] ∧ ∀ d ∈ q, d.isDigit = false) (hr : ∀ d ∈ r, d.isDigit = false) (hs : ∀ d ∈ s, d.isDigit = false) :
    numbersIn none (p ++ showNat h ++ q ++ showNat x ++ r ++ Debug.rgba fr fg fb fa ++ s ++ Debug.rgba br bg bb ba ++ t) =
      [h, x, fr, fg, fb, fa, br, bg, bb, ba] ++ numbersIn none t := by
  rw [rgba_eq, rgba_eq]
  have h1 : ∀ d ∈ "Color { rgba: [".toList, d.isDigit = false := by decide
  have h1' : "Color { rgba: [".toList ≠ [] := by decide
  have h2 : ", ".toList ≠ [] ∧ ∀ d ∈ ", ".toList, d.isDigit = false := by decide
  have h3 : "] }".toList = [']', ' ', '}'] := rfl
  rw [h3]
  generalize "Color { rgba: [".toList = P at h1 h1' ⊢
  generalize ", ".toList = C at h2 ⊢
  have key := numbersIn_pieces [(p, h), (q, x), (r ++ P, fr), (C, fg), (C, fb), (C, fa), ([']', ' ', '}'] ++ s ++ P, br), (C, bg), (C, bb), (C, ba)]
    ']' (' ' :: '}' :: t) rfl (by
      intro y hy
      simp only [List.mem_cons, List.not_mem_nil, or_false] at hy
      have hrP : r ++ P ≠ [] ∧ ∀ d ∈ r ++ P, d.isDigit = false := by
        refine ⟨by simp [h1'], fun d hd => ?_⟩
        rcases List.mem_append.mp hd with hd | hd
        · exact hr d hd
        · exact h1 d hd
      have hsP : [']', ' ', '}'] ++ s ++ P ≠ [] ∧ ∀ d ∈ [']', ' ', '}'] ++ s ++ P, d.isDigit = false := by
        refine ⟨by simp, fun d hd => ?_⟩
        rcases List.mem_append.mp hd with hd | hd
        · rcases List.mem_append.mp hd with hd | hd
          · exact (by decide : ∀ d ∈ [']', ' ', '}'], d.isDigit = false) d hd
          · exact hs d hd
        · exact h1 d hd
      rcases hy with rfl | rfl | rfl | rfl | rfl | rfl | rfl | rfl | rfl | rfl
      · exact hp
      · exact hq
      · exact hrP
      · exact h2
      · exact h2
      · exact h2
      · exact hsP
      · exact h2
      · exact h2
      · exact h2)
  have hend : numbersIn none (']' :: ' ' :: '}' :: t) = numbersIn none t := numbersIn_skip [']', ' ', '}'] t (by decide)
  rw [hend] at key
  simp only [List.map_cons, List.map_nil] at key
  rw [← key]
  congr 1
  simp

/-- C129. The numbers that `{:?}` shows of an image generator are its height, its `xdim` and the two colours, foreground first. -/
theorem C129_image_numbers (g : Image.Image) :
    numbersIn none (Debug.image g) = [g.height, g.xdim, g.foreground.r.val, g.foreground.g.val, g.foreground.b.val, g.foreground.a.val,
      g.background.r.val, g.background.g.val, g.background.b.val, g.background.a.val] := by
  have hk : ∀ d ∈ Debug.imageKind g.kind ++ " { height: ".toList, d.isDigit = false := by cases g.kind <;> decide
  have hk' : Debug.imageKind g.kind ++ " { height: ".toList ≠ [] := by cases g.kind <;> decide
  have hr : ∀ d ∈ ", rotation: ".toList ++ Debug.rotation g.rotation ++ ", foreground: ".toList, d.isDigit = false := by
    cases g.rotation <;> decide
  have key := ten_numbers (Debug.imageKind g.kind ++ " { height: ".toList) ", xdim: ".toList
    (", rotation: ".toList ++ Debug.rotation g.rotation ++ ", foreground: ".toList) ", background: ".toList " }".toList g.height g.xdim
    g.foreground.r g.foreground.g g.foreground.b g.foreground.a g.background.r g.background.g g.background.b g.background.a
    ⟨hk', hk⟩ (by decide) hr (by decide)
  have hend : numbersIn none " }".toList = [] := numbersIn_none _ (by decide)
  rw [hend, List.append_nil] at key
  rw [← key]
  unfold Debug.image Debug.imageColor
  generalize " { height: ".toList = s1
  generalize ", xdim: ".toList = s2
  generalize ", rotation: ".toList = s3
  generalize ", foreground: ".toList = s4
  generalize ", background: ".toList = s5
  generalize " }".toList = s6
  congr 1
  simp only [List.append_assoc]

/-- C129. The first ten numbers that `{:?}` shows of an SVG generator are its height, its `xdim` and the two colours, foreground
first. -/
theorem C129_svg_numbers (g : Svg.SVG) :
    (numbersIn none (Debug.svg g)).take 10 = [g.height, g.xdim, g.foreground.r.val, g.foreground.g.val, g.foreground.b.val,
      g.foreground.a.val, g.background.r.val, g.background.g.val, g.background.b.val, g.background.a.val] := by
  have key := ten_numbers "SVG { height: ".toList ", xdim: ".toList ", foreground: ".toList ", background: ".toList
    (", xmlns: ".toList ++ Debug.optionStr g.xmlns ++ " }".toList) g.height g.xdim
    g.foreground.r g.foreground.g g.foreground.b g.foreground.a g.background.r g.background.g g.background.b g.background.a
    (by decide) (by decide) (by decide) (by decide)
  have e : Debug.svg g = "SVG { height: ".toList ++ showNat g.height ++ ", xdim: ".toList ++ showNat g.xdim ++ ", foreground: ".toList ++
      Debug.rgba g.foreground.r g.foreground.g g.foreground.b g.foreground.a ++ ", background: ".toList ++
      Debug.rgba g.background.r g.background.g g.background.b g.background.a ++
      (", xmlns: ".toList ++ Debug.optionStr g.xmlns ++ " }".toList) := by
    unfold Debug.svg Debug.svgColor
    generalize ", xmlns: ".toList = s1
    generalize " }".toList = s6
    simp only [List.append_assoc]
  rw [e, key]
  rfl

example : Debug.image { Image.png 80 with rotation := .ninety } =
    "PNG { height: 80, xdim: 1, rotation: Ninety, foreground: Color { rgba: [0, 0, 0, 255] }, background: Color { rgba: [255, 255, 255, 255] } }".toList := by
  decide +kernel

/-- The name of an image variant, as it stands in the documentation. -/
def imageName : Image.Kind → String
  | .gif => "GIF"
  | .png => "PNG"
  | .webp => "WEBP"
  | .imageBuffer => "ImageBuffer"

/-- The name of a rotation, as it stands in the documentation. -/
def rotationName : Image.Rotation → String
  | .zero => "Zero"
  | .ninety => "Ninety"
  | .oneEighty => "OneEighty"
  | .twoSeventy => "TwoSeventy"

theorem showNat_not_alpha (n : Nat) : ∀ c ∈ showNat n, c.isAlpha = false := by
  intro c hc
  have := (showNat_spec n).1 c hc
  cases ha : c.isAlpha with
  | false => rfl
  | true =>
    exfalso
    simp only [Char.isDigit, Bool.and_eq_true, decide_eq_true_eq, ge_iff_le, UInt32.le_iff_toNat_le] at this
    simp only [Char.isAlpha, Char.isUpper, Char.isLower, Bool.or_eq_true, decide_eq_true_eq, ge_iff_le, UInt32.le_iff_toNat_le,
      Bool.and_eq_true] at ha
    have h1 : ('9' : Char).val.toNat = 57 := rfl
    have h2 : ('A' : Char).val.toNat = 65 := rfl
    have h3 : ('a' : Char).val.toNat = 97 := rfl
    omega

/-- A word, then something without letters. -/
theorem wordsIn_next (v sep rest : List Char) (hv : v ≠ []) (h : ∀ d ∈ v, d.isAlpha = true) (hs : sep ≠ [])
    (hsep : ∀ d ∈ sep, d.isAlpha = false) : wordsIn [] (v ++ (sep ++ rest)) = v :: wordsIn [] rest := by
  obtain ⟨c, r, rfl⟩ := List.exists_cons_of_ne_nil hs
  have := wordsIn_word [] v c (r ++ rest) h (hsep c (by simp)) (by simpa using hv)
  rw [List.cons_append, this, List.nil_append]
  congr 1
  exact wordsIn_skip (c :: r) rest hsep

/-- C129. The first word that `{:?}` shows of an image generator is its variant, and the word after `rotation` its rotation. -/
theorem C129_image_words (g : Image.Image) :
    (wordsIn [] (Debug.image g)).head? = some (imageName g.kind).toList ∧
    wordAfter "rotation".toList (wordsIn [] (Debug.image g)) = some (rotationName g.rotation).toList := by
  have e : Debug.image g = Debug.imageKind g.kind ++ (" { ".toList ++ ("height".toList ++ ((": ".toList ++ showNat g.height ++ ", ".toList) ++
      ("xdim".toList ++ ((": ".toList ++ showNat g.xdim ++ ", ".toList) ++ ("rotation".toList ++ (": ".toList ++
      (Debug.rotation g.rotation ++ (", ".toList ++ ("foreground: ".toList ++ Debug.imageColor g.foreground ++ ", background: ".toList ++
    Debug.imageColor g.background ++ " }".toList)))))))))) := by
    have h1 : " { height: ".toList = " { ".toList ++ ("height".toList ++ ": ".toList) := by decide
    have h2 : ", xdim: ".toList = ", ".toList ++ ("xdim".toList ++ ": ".toList) := by decide
    have h3 : ", rotation: ".toList = ", ".toList ++ ("rotation".toList ++ ": ".toList) := by decide
    have h4 : ", foreground: ".toList = ", ".toList ++ "foreground: ".toList := by decide
    unfold Debug.image
    rw [h1, h2, h3, h4]
    generalize " { ".toList = t1
    generalize "height".toList = t2
    generalize ": ".toList = t3
    generalize ", ".toList = t4
    generalize "xdim".toList = t5
    generalize "rotation".toList = t6
    generalize "foreground: ".toList = t7
    generalize ", background: ".toList = t8
    generalize " }".toList = t9
    simp only [List.append_assoc]
  have hk : Debug.imageKind g.kind = (imageName g.kind).toList := by cases g.kind <;> rfl
  have hr : Debug.rotation g.rotation = (rotationName g.rotation).toList := by cases g.rotation <;> rfl
  have hk1 : (imageName g.kind).toList ≠ [] ∧ ∀ d ∈ (imageName g.kind).toList, d.isAlpha = true := by cases g.kind <;> decide
  have hr1 : (rotationName g.rotation).toList ≠ [] ∧ ∀ d ∈ (rotationName g.rotation).toList, d.isAlpha = true := by
    cases g.rotation <;> decide
  have hsep : ∀ n, ": ".toList ++ showNat n ++ ", ".toList ≠ [] ∧ ∀ d ∈ ": ".toList ++ showNat n ++ ", ".toList, d.isAlpha = false := by
    intro n
    refine ⟨by simp, fun d hd => ?_⟩
    rcases List.mem_append.mp hd with hd | hd
    · rcases List.mem_append.mp hd with hd | hd
      · exact (by decide : ∀ d ∈ ": ".toList, d.isAlpha = false) d hd
      · exact showNat_not_alpha n d hd
    · exact (by decide : ∀ d ∈ ", ".toList, d.isAlpha = false) d hd
  have w : ∃ rest, wordsIn [] (Debug.image g) = (imageName g.kind).toList :: "height".toList :: "xdim".toList :: "rotation".toList ::
      (rotationName g.rotation).toList :: rest := by
    refine ⟨wordsIn [] ("foreground: ".toList ++ Debug.imageColor g.foreground ++ ", background: ".toList ++
      Debug.imageColor g.background ++ " }".toList), ?_⟩
    rw [e, hk, hr, wordsIn_next _ _ _ hk1.1 hk1.2 (by decide) (by decide), wordsIn_next _ _ _ (by decide) (by decide) (hsep _).1 (hsep _).2,
      wordsIn_next _ _ _ (by decide) (by decide) (hsep _).1 (hsep _).2, wordsIn_next _ _ _ (by decide) (by decide) (by decide) (by decide),
      wordsIn_next _ _ _ hr1.1 hr1.2 (by decide) (by decide)]
  obtain ⟨rest, w⟩ := w
  rw [w]
  refine ⟨rfl, ?_⟩
  have hk2 : (imageName g.kind).toList ≠ "rotation".toList := by cases g.kind <;> decide
  rw [wordAfter, if_neg hk2, wordAfter, if_neg (by decide), wordAfter, if_neg (by decide), wordAfter, if_pos rfl]

/-- C129. So two image generators that `{:?}` writes alike have all settings alike, and draw the same pictures. -/
theorem C129_image_same (g g' : Image.Image) (h : Debug.image g = Debug.image g') : g = g' := by
  have h1 := C129_image_numbers g
  have h2 := C129_image_words g
  rw [h, C129_image_numbers g'] at h1
  rw [h, (C129_image_words g').1, (C129_image_words g').2] at h2
  obtain ⟨k, ht, x, r, ⟨fr, fg, fb, fa⟩, ⟨br, bg, bb, ba⟩⟩ := g
  obtain ⟨k', ht', x', r', ⟨fr', fg', fb', fa'⟩, ⟨br', bg', bb', ba'⟩⟩ := g'
  simp only [List.cons.injEq, Fin.val_inj, and_true] at h1
  obtain ⟨rfl, rfl, rfl, rfl, rfl, rfl, rfl, rfl, rfl, rfl⟩ := h1
  have ik : ∀ k k' : Image.Kind, (imageName k').toList = (imageName k).toList → k = k' := by
    intro k k'
    cases k <;> cases k' <;> decide
  have ir : ∀ r r' : Image.Rotation, (rotationName r').toList = (rotationName r).toList → r = r' := by
    intro r r'
    cases r <;> cases r' <;> decide
  have hk : k = k' := ik k k' (Option.some.inj h2.1)
  have hr : r = r' := ir r r' (Option.some.inj h2.2)
  rw [hk, hr]

/-- The characters whose escapes are modelled: those of ASCII that can be printed, line feed, carriage return, tab and NUL. -/
def PlainName (s : List Char) : Prop := ∀ c ∈ s, (32 ≤ c.toNat ∧ c.toNat < 127) ∨ c ∈ ['\n', '\r', '\t', '\x00']

theorem upToQuote_char (c : Char) (r : List Char) : upToQuote (Debug.strChar c ++ r) = (upToQuote r).map (c :: ·) := by
  unfold Debug.strChar
  by_cases h1 : c = '"'
  · subst h1; rfl
  rw [if_neg h1]
  by_cases h2 : c = '\\'
  · subst h2; rfl
  rw [if_neg h2]
  by_cases h3 : c = '\n'
  · subst h3; rfl
  rw [if_neg h3]
  by_cases h4 : c = '\r'
  · subst h4; rfl
  rw [if_neg h4]
  by_cases h5 : c = '\t'
  · subst h5; rfl
  rw [if_neg h5]
  by_cases h6 : c = '\x00'
  · subst h6; rfl
  rw [if_neg h6, List.singleton_append, upToQuote]
  · exact h1
  · intro c' r' h
    exact absurd h h2

theorem upToQuote_str (s r : List Char) : upToQuote (s.flatMap Debug.strChar ++ '"' :: r) = some s := by
  induction s with
  | nil => rfl
  | cons c s ih => rw [List.flatMap_cons, List.append_assoc, upToQuote_char, ih]; rfl

theorem dropWhile_quote (p r : List Char) (h : '"' ∉ p) : (p ++ '"' :: r).dropWhile (fun c => c ≠ '"') = '"' :: r := by
  induction p with
  | nil => rfl
  | cons c p ih =>
    have hc : c ≠ '"' := fun e => h (by simp [e])
    rw [List.cons_append, List.dropWhile_cons_of_pos (by simpa using hc), ih (fun hm => h (by simp [hm]))]

theorem showNat_no_quote (n : Nat) : '"' ∉ showNat n := fun h => by
  have := (showNat_spec n).1 _ h
  exact absurd this (by decide)

theorem rgba_no_quote (r g b a : Nat) : '"' ∉ Debug.rgba r g b a := by
  rw [rgba_eq]
  have h1 : '"' ∉ "Color { rgba: [".toList := by decide
  have h2 : '"' ∉ ", ".toList := by decide
  have h3 : '"' ∉ "] }".toList := by decide
  generalize "Color { rgba: [".toList = p at h1 ⊢
  generalize ", ".toList = q at h2 ⊢
  generalize "] }".toList = e at h3 ⊢
  simp [h1, h2, h3, showNat_no_quote]

/-- C129. The string that `{:?}` shows of an SVG generator, with the usual escapes taken back, is its name space, and without name
space there is none. -/
theorem C129_svg_name (g : Svg.SVG) (_h : ∀ s, g.xmlns = some s → PlainName s) : stringIn (Debug.svg g) = g.xmlns := by
  have hq : '"' ∉ "SVG { height: ".toList ++ showNat g.height ++ ", xdim: ".toList ++ showNat g.xdim ++ ", foreground: ".toList ++
    Debug.svgColor g.foreground ++ ", background: ".toList ++ Debug.svgColor g.background ++ ", xmlns: ".toList := by
    have a1 : '"' ∉ "SVG { height: ".toList := by decide
    have a2 : '"' ∉ ", xdim: ".toList := by decide
    have a3 : '"' ∉ ", foreground: ".toList := by decide
    have a4 : '"' ∉ ", background: ".toList := by decide
    have a5 : '"' ∉ ", xmlns: ".toList := by decide
    generalize "SVG { height: ".toList = s1 at a1 ⊢
    generalize ", xdim: ".toList = s2 at a2 ⊢
    generalize ", foreground: ".toList = s3 at a3 ⊢
    generalize ", background: ".toList = s4 at a4 ⊢
    generalize ", xmlns: ".toList = s5 at a5 ⊢
    simp [a1, a2, a3, a4, a5, showNat_no_quote, Debug.svgColor, rgba_no_quote]
  unfold Debug.svg stringIn
  generalize "SVG { height: ".toList ++ showNat g.height ++ ", xdim: ".toList ++ showNat g.xdim ++ ", foreground: ".toList ++
    Debug.svgColor g.foreground ++ ", background: ".toList ++ Debug.svgColor g.background ++ ", xmlns: ".toList = pre at hq ⊢
  cases hx : g.xmlns with
  | none =>
    have hn : '"' ∉ pre ++ Debug.optionStr none ++ " }".toList := by
      have a1 : '"' ∉ Debug.optionStr none := by decide
      have a2 : '"' ∉ " }".toList := by decide
      rw [List.mem_append, List.mem_append]
      rintro ((h | h) | h)
      · exact hq h
      · exact a1 h
      · exact a2 h
    have hd : ∀ l : List Char, '"' ∉ l → l.dropWhile (fun c => c ≠ '"') = [] := by
      intro l hl
      induction l with
      | nil => rfl
      | cons c l ih =>
        rw [List.dropWhile_cons_of_pos (by simpa using fun e : c = '"' => hl (by simp [e])), ih (fun hm => hl (by simp [hm]))]
    rw [hd _ hn]
  | some s =>
    have e : pre ++ Debug.optionStr (some s) ++ " }".toList =
        (pre ++ "Some(".toList) ++ '"' :: (s.flatMap Debug.strChar ++ '"' :: (')' :: " }".toList)) := by
      have h1 : "Some(".toList = "Some".toList ++ ['('] := rfl
      rw [h1]
      unfold Debug.optionStr Debug.tuple Debug.str
      generalize "Some".toList = p
      generalize " }".toList = q
      simp
    have h2 : '"' ∉ "Some(".toList := by decide
    rw [e, dropWhile_quote]
    · exact upToQuote_str s _
    · rw [List.mem_append]
      rintro (h | h)
      · exact hq h
      · exact h2 h

/-- C129. So two SVG generators that `{:?}` writes alike have all settings alike, and write the same files. -/
theorem C129_svg_same (g g' : Svg.SVG) (hg : ∀ s, g.xmlns = some s → PlainName s) (hg' : ∀ s, g'.xmlns = some s → PlainName s)
    (h : Debug.svg g = Debug.svg g') : g = g' := by
  have h1 := C129_svg_numbers g
  have h2 := C129_svg_name g hg
  rw [h, C129_svg_numbers g'] at h1
  rw [h, C129_svg_name g' hg'] at h2
  obtain ⟨ht, x, ⟨fr, fg, fb, fa⟩, ⟨br, bg, bb, ba⟩, n⟩ := g
  obtain ⟨ht', x', ⟨fr', fg', fb', fa'⟩, ⟨br', bg', bb', ba'⟩, n'⟩ := g'
  simp only [List.cons.injEq, Fin.val_inj, and_true] at h1
  obtain ⟨rfl, rfl, rfl, rfl, rfl, rfl, rfl, rfl, rfl, rfl⟩ := h1
  have h2 : n' = n := h2
  rw [h2]

example : Debug.svg { Svg.new 80 with xmlns := some "a\"b".toList } =
    "SVG { height: 80, xdim: 1, foreground: Color { rgba: [0, 0, 0, 255] }, background: Color { rgba: [255, 255, 255, 255] }, xmlns: Some(\"a\\\"b\") }".toList := by
  decide +kernel

end Barcoders
