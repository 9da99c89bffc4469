import Verif.Spec.Counting
import Verif.Lemmas.Counting
import Verif.Props.Illegible
import Verif.Props.Exact
import Verif.Props.SameError
import Verif.Props.Skipped
import Verif.Props.FewModules
import Verif.Props.Errors
import Verif.Props.Cross
import Verif.Props.OneModule

/-!
# How many numbers, readings and pictures there are (C132)

Of all the things a reader may read, how many are right: one in ten for article numbers, one in 43 for Code 39 with check
character, one in 2209 for Code 93, one in 11 or in 121 for Code 11, one in 103 for Code 128.
-/

set_option autoImplicit false

namespace Barcoders
open Spec

/-! ## Article numbers -/

def decimals : List Char := "0123456789".toList

theorem mem_decimals (c : Char) : c ∈ decimals ↔ c.isDigit = true := by
  constructor
  · revert c; decide
  · intro h
    rw [toNat_isDigit] at h
    have : c = Char.ofNat c.toNat := (Char.ofNat_toNat c).symm
    rw [this]
    have key : ∀ k < 10, Char.ofNat (48 + k) ∈ decimals := by decide
    have := key (c.toNat - 48) (by omega)
    rwa [show 48 + (c.toNat - 48) = c.toNat by omega] at this

theorem exactly_digits (n : Nat) : Exactly (10 ^ n) (fun s : List Char => s.length = n ∧ AllDigits s) :=
  exactly_congr (exactly_lists decimals (by decide) n) (fun s => and_congr_right (fun _ =>
    forall_congr' (fun c => forall_congr' (fun _ => mem_decimals c))))

theorem count_numbers {T : Type} (mk : List Nat → T) (f : List Char → Outcome T) (n : Nat) (hn : n < 100)
    (hf : ∀ s, f s = if byteLen s % 2 ^ 32 ≠ n ∧ byteLen s % 2 ^ 32 ≠ n + 1 then Outcome.err Error.length
      else if ¬ AllDigits s then .err .character
      else if s.length = n + 1 ∧ ¬ Gs1Valid (digitsOf s) then .err .checksum
      else .ok (mk ((digitsOf s).take n))) :
    Exactly (10 ^ n) (fun s => s.length = n + 1 ∧ (f s).isOk = true) := by
  refine exactly_congr (exactly_choice (exactly_digits n) (fun t s => ∃ c, s = t ++ [c] ∧ (f s).isOk = true) ?_ ?_) ?_
  · rintro t ⟨hl, hD⟩
    obtain ⟨c, h1, h2⟩ := illegible_digit mk f n hn hf t [] (by simpa using hD) (by simpa using hl)
    refine ⟨t ++ [c], ⟨c, rfl, h1⟩, ?_⟩
    rintro s ⟨d, rfl, hd⟩
    rw [h2 d hd]
  · rintro t t' s ⟨hl, -⟩ ⟨hl', -⟩ ⟨c, rfl, -⟩ ⟨c', e, -⟩
    exact (List.append_inj e (by omega)).1
  · intro s
    constructor
    · rintro ⟨t, ⟨hl, -⟩, c, rfl, h⟩
      exact ⟨by simp [hl], h⟩
    · rintro ⟨hl, h⟩
      obtain ⟨x, hx⟩ := isOk_of h
      have hD := new_digits mk f n hf s x hx
      have hne : s ≠ [] := by rintro rfl; simp at hl
      refine ⟨s.dropLast, ⟨by simp [hl], fun c hc => hD c ((List.dropLast_subset s) hc)⟩, s.getLast hne, ?_, h⟩
      exact (List.dropLast_concat_getLast hne).symm

theorem count_check {T : Type} (mk : List Nat → T) (f : List Char → Outcome T) (n : Nat) (hn : n + 1 < 100)
    (hf : ∀ s, f s = if byteLen s % 2 ^ 32 ≠ n + 1 ∧ byteLen s % 2 ^ 32 ≠ n + 1 + 1 then Outcome.err Error.length
      else if ¬ AllDigits s then .err .character
      else if s.length = n + 1 + 1 ∧ ¬ Gs1Valid (digitsOf s) then .err .checksum
      else .ok (mk ((digitsOf s).take (n + 1)))) (c : Char) (hc : c.isDigit = true) :
    Exactly (10 ^ n) (fun s => s.length = n + 1 ∧ (f (s ++ [c])).isOk = true) := by
  refine exactly_congr (exactly_choice (exactly_digits n) (fun t s => ∃ d, s = d :: t ∧ (f (s ++ [c])).isOk = true) ?_ ?_) ?_
  · rintro t ⟨hl, hD⟩
    obtain ⟨d, h1, h2⟩ := illegible_digit mk f (n + 1) hn hf [] (t ++ [c]) (by
      intro e he
      rcases List.mem_append.mp he with he | he
      · cases he
      · rcases List.mem_append.mp he with he | he
        · exact hD e he
        · rw [List.mem_singleton.mp he]; exact hc) (by simp [hl])
    refine ⟨d :: t, ⟨d, rfl, h1⟩, ?_⟩
    rintro s ⟨e, rfl, he⟩
    rw [h2 e he]
  · rintro t t' s - - ⟨d, rfl, -⟩ ⟨d', e, -⟩
    exact (List.cons.inj e).2
  · intro s
    constructor
    · rintro ⟨t, ⟨hl, -⟩, d, rfl, h⟩
      exact ⟨by simp [hl], h⟩
    · rintro ⟨hl, h⟩
      obtain ⟨x, hx⟩ := isOk_of h
      have hD := new_digits mk f (n + 1) hf _ x hx
      cases s with
      | nil => simp at hl
      | cons d t => exact ⟨t, ⟨by simpa using hl, fun e he => hD e (by simp [he])⟩, d, rfl, h⟩

theorem count_pictures {T : Type} (mk : List Nat → T) (f : List Char → Outcome T) (n : Nat) (hn : n < 100)
    (hf : ∀ s, f s = if byteLen s % 2 ^ 32 ≠ n ∧ byteLen s % 2 ^ 32 ≠ n + 1 then Outcome.err Error.length
      else if ¬ AllDigits s then .err .character
      else if s.length = n + 1 ∧ ¬ Gs1Valid (digitsOf s) then .err .checksum
      else .ok (mk ((digitsOf s).take n))) (enc : T → Outcome (List Nat)) (scan : List Nat → Option (List Nat))
    (hscan : ∀ s x, f s = .ok x → ∃ bits, enc x = .ok bits ∧ scan bits = some ((digitsOf s).take n ++ [gs1Digit ((digitsOf s).take n)])) :
    Exactly (10 ^ n) (fun ms => ∃ s x, f s = .ok x ∧ enc x = .ok ms) := by
  have hnew : ∀ s : List Char, s.length = n → AllDigits s → f s = .ok (mk (digitsOf s)) := by
    intro s hl hD
    have hb : byteLen s = n := by rw [← hl]; exact byteLen_ascii s (fun c hc => by
      have := (toNat_isDigit c).mp (hD c hc); omega)
    rw [hf, hb, if_neg (by rw [Nat.mod_eq_of_lt (by omega)]; omega), if_neg (by simpa using hD), if_neg (by omega),
      List.take_of_length_le (by simp [digitsOf, hl])]
  refine exactly_congr (exactly_choice (exactly_digits n) (fun s ms => ∃ x, f s = .ok x ∧ enc x = .ok ms) ?_ ?_) ?_
  · rintro s ⟨hl, hD⟩
    obtain ⟨bits, h1, -⟩ := hscan s _ (hnew s hl hD)
    refine ⟨bits, ⟨_, hnew s hl hD, h1⟩, ?_⟩
    rintro ms ⟨x, hx, he⟩
    rw [hnew s hl hD, Outcome.ok.injEq] at hx
    subst hx
    rw [he, Outcome.ok.injEq] at h1
    exact h1
  · rintro s s' ms ⟨hl, hD⟩ ⟨hl', hD'⟩ ⟨x, hx, he⟩ ⟨x', hx', he'⟩
    obtain ⟨bits, h1, h2⟩ := hscan s x hx
    obtain ⟨bits', h1', h2'⟩ := hscan s' x' hx'
    rw [he, Outcome.ok.injEq] at h1
    rw [he', Outcome.ok.injEq] at h1'
    subst h1
    subst h1'
    rw [h2, Option.some.injEq, List.take_of_length_le (by simp [digitsOf, hl]), List.take_of_length_le (by simp [digitsOf, hl'])] at h2'
    exact digitsOf_inj s s' hD hD' (List.append_inj h2' (by simp [digitsOf, hl, hl'])).1
  · intro ms
    constructor
    · rintro ⟨s, -, x, h⟩; exact ⟨s, x, h⟩
    · rintro ⟨s, x, hx, he⟩
      have h := hx
      rw [hf] at h
      obtain ⟨rfl, hD, hl, hl', -⟩ := decision_ok mk n s x h
      have hD' : AllDigits (s.take n) := fun c hc => hD c (List.mem_of_mem_take hc)
      have hlt : (s.take n).length = n := by rw [List.length_take]; omega
      refine ⟨s.take n, ⟨hlt, hD'⟩, _, hnew _ hlt hD', ?_⟩
      have : digitsOf (s.take n) = (digitsOf s).take n := by simp [digitsOf, List.map_take]
      rw [this]
      exact he

/-- C132. Of the 10¹³ strings of 13 digits EAN-13 accepts exactly 10¹², one in ten; EAN-8 accepts 10⁷ of 8 digits and UPC-A 10¹¹
of 12. -/
theorem C132_numbers (b : Build) :
    Exactly (10 ^ 12) (fun s => s.length = 13 ∧ (Ean13.new b s).isOk = true) ∧
    Exactly (10 ^ 7) (fun s => s.length = 8 ∧ (Ean8.new b s).isOk = true) ∧
    Exactly (10 ^ 11) (fun s => s.length = 12 ∧ (Upca.new b s).isOk = true) :=
  ⟨count_numbers Ean13.EAN13.mk (Ean13.new b) 12 (by omega) (ean13_new b),
    count_numbers Ean8.EAN8.mk (Ean8.new b) 7 (by omega) (ean8_new b),
    count_numbers Upca.UPCA.mk (Upca.new b) 11 (by omega) (upca_new b)⟩

example : (Ean8.new .debug "55123457".toList).isOk = true ∧ (Ean8.new .debug "55123458".toList).isOk = false := by decide

/-- C132. No check digit is more frequent than another: each completes the same number of strings, a tenth of all. -/
theorem C132_check_digits (b : Build) (c : Char) (hc : c.isDigit = true) :
    Exactly (10 ^ 11) (fun s => s.length = 12 ∧ (Ean13.new b (s ++ [c])).isOk = true) ∧
    Exactly (10 ^ 6) (fun s => s.length = 7 ∧ (Ean8.new b (s ++ [c])).isOk = true) ∧
    Exactly (10 ^ 10) (fun s => s.length = 11 ∧ (Upca.new b (s ++ [c])).isOk = true) :=
  ⟨count_check Ean13.EAN13.mk (Ean13.new b) 11 (by omega) (ean13_new b) c hc,
    count_check Ean8.EAN8.mk (Ean8.new b) 6 (by omega) (ean8_new b) c hc,
    count_check Upca.UPCA.mk (Upca.new b) 10 (by omega) (upca_new b) c hc⟩

example : (Ean8.new .debug ("5512345".toList ++ ['7'])).isOk = true ∧ (Ean8.new .debug ("5512348".toList ++ ['8'])).isOk = true := by
  decide

/-- C132. There are exactly 10¹² EAN-13 pictures, 10⁷ EAN-8 pictures and 10¹¹ UPC-A pictures. -/
theorem C132_pictures (b : Build) :
    Exactly (10 ^ 12) (fun ms => ∃ s, Drawn b .ean13 s ms) ∧ Exactly (10 ^ 7) (fun ms => ∃ s, Drawn b .ean8 s ms) ∧
    Exactly (10 ^ 11) (fun ms => ∃ s, Drawn b .upca s ms) :=
  ⟨count_pictures Ean13.EAN13.mk (Ean13.new b) 12 (by omega) (ean13_new b) (Ean13.encode b) scanEan13 (C02_ean13_scan b),
    count_pictures Ean8.EAN8.mk (Ean8.new b) 7 (by omega) (ean8_new b) (Ean8.encode b) scanEan8 (C07_ean8_scan b),
    count_pictures Upca.UPCA.mk (Upca.new b) 11 (by omega) (upca_new b) (Upca.encode b) scanUpca (C09_upca_scan b)⟩

example : ∃ ms ms', Drawn .debug .ean8 "5512345".toList ms ∧ Drawn .debug .ean8 "55123457".toList ms ∧
    Drawn .debug .ean8 "5512346".toList ms' ∧ ms ≠ ms' := ⟨_, _, ⟨_, rfl, rfl⟩, ⟨_, rfl, rfl⟩, ⟨_, rfl, rfl⟩, by decide⟩

/-! ## Code 39 -/

/-- The rows that read as a text of length `n` over the alphabet. -/
theorem count_rows (A : List Char) (hA : A.Nodup) (read : List Nat → Option (List Char)) (row : List Char → List Nat)
    (h1 : ∀ t, (∀ c ∈ t, c ∈ A) → read (row t) = some t)
    (h2 : ∀ ms t, read ms = some t → (∀ c ∈ t, c ∈ A) ∧ ms = row t) (n : Nat) :
    Exactly (A.length ^ n) (fun ms => ∃ t, read ms = some t ∧ t.length = n) := by
  refine exactly_congr (exactly_image (exactly_lists A hA n) row (fun t t' ht ht' e => ?_)) (fun ms => ?_)
  · have := h1 t ht.2
    rw [e, h1 t' ht'.2, Option.some.injEq] at this
    exact this.symm
  · constructor
    · rintro ⟨t, ht, rfl⟩; exact ⟨t, h1 t ht.2, ht.1⟩
    · rintro ⟨t, ht, hl⟩
      obtain ⟨h3, h4⟩ := h2 ms t ht
      exact ⟨t, ⟨hl, h3⟩, h4.symm⟩

/-- The rows among them that are drawn for some text of length `n`. -/
theorem count_drawn (A : List Char) (hA : A.Nodup) (read : List Nat → Option (List Char)) (row : List Char → List Nat)
    (h1 : ∀ t, (∀ c ∈ t, c ∈ A) → read (row t) = some t) (full : List Char → List Char) (D : List Char → List Nat → Prop)
    (hD : ∀ s ms, D s ms → (∀ c ∈ s, c ∈ A) ∧ (∀ c ∈ full s, c ∈ A) ∧ ms = row (full s)) (n m : Nat)
    (hn : ∀ s, s.length = n → (∀ c ∈ s, c ∈ A) → ∃ ms, D s ms)
    (hm : ∀ s, (full s).length = m ↔ s.length = n) (hi : ∀ s s', s.length = n → s'.length = n → full s = full s' → s = s') :
    Exactly (A.length ^ n) (fun ms => (∃ t, read ms = some t ∧ t.length = m) ∧ ∃ s, D s ms) := by
  refine exactly_congr (exactly_choice (exactly_lists A hA n) D ?_ ?_) ?_
  · rintro s ⟨hl, hs⟩
    obtain ⟨ms, h⟩ := hn s hl hs
    exact ⟨ms, h, fun ms' h' => by rw [(hD s ms h).2.2, (hD s ms' h').2.2]⟩
  · rintro s s' ms ⟨hl, -⟩ ⟨hl', -⟩ h h'
    have e1 := h1 _ (hD s ms h).2.1
    have e2 := h1 _ (hD s' ms h').2.1
    rw [← (hD s ms h).2.2] at e1
    rw [← (hD s' ms h').2.2, e1, Option.some.injEq] at e2
    exact hi s s' hl hl' e2
  · intro ms
    constructor
    · rintro ⟨s, ⟨hl, -⟩, h⟩
      obtain ⟨-, h3, h4⟩ := hD s ms h
      exact ⟨⟨full s, by rw [h4]; exact h1 _ h3, (hm s).mpr hl⟩, s, h⟩
    · rintro ⟨⟨t, ht, hl⟩, s, h⟩
      obtain ⟨h2, h3, h4⟩ := hD s ms h
      rw [h4, h1 _ h3, Option.some.injEq] at ht
      subst ht
      exact ⟨s, ⟨(hm s).mp hl, h2⟩, h⟩

/-- C132. Of the 43ⁿ⁺¹ rows that read as a Code 39 text of `n + 1` characters, the library with check character draws 43ⁿ, one in
43; without it draws all of them. -/
theorem C132_code39 (n : Nat) (h1 : 1 ≤ n) (h2 : n < 256) :
    Exactly (43 ^ (n + 1)) (fun ms => ∃ t, scanCode39 ms = some t ∧ t.length = n + 1) ∧
    Exactly (43 ^ (n + 1)) (fun ms => (∃ t, scanCode39 ms = some t ∧ t.length = n + 1) ∧
      ∃ s x, Code39.new s = .ok x ∧ Code39.encode x = .ok ms) ∧
    Exactly (43 ^ n) (fun ms => (∃ t, scanCode39 ms = some t ∧ t.length = n + 1) ∧
      ∃ s x, Code39.withChecksum s = .ok x ∧ Code39.encode x = .ok ms) := by
  have hA : code39Alphabet.Nodup := by decide
  refine ⟨count_rows _ hA scanCode39 _ scanCode39_paint (fun ms t h => ⟨scanCode39_chars ms t h, code39_read_symbol ms t h⟩) (n + 1),
    ?_, ?_⟩
  · refine count_drawn _ hA scanCode39 _ scanCode39_paint id _ ?_ (n + 1) (n + 1) ?_ (fun s => Iff.rfl) (fun s s' _ _ h => h)
    · rintro s ms ⟨x, hx, he⟩
      obtain ⟨h3, h4⟩ := code39_symbol s false x hx
      rw [he, Outcome.ok.injEq] at h4
      exact ⟨h3, h3, h4⟩
    · intro s hl hs
      obtain ⟨x, hx⟩ := (C13_code39_accepts s (alphabet_byteLen39 s hs (by omega))).1.mpr ⟨by omega, by omega, hs⟩
      exact ⟨_, x, hx, (code39_symbol s false x hx).2⟩
  · refine count_drawn _ hA scanCode39 _ scanCode39_paint (fun s => s ++ [code39Check s]) _ ?_ n (n + 1) ?_
      (fun s => by simp) (fun s s' hl hl' h => (List.append_inj h (by omega)).1)
    · rintro s ms ⟨x, hx, he⟩
      obtain ⟨h3, h4⟩ := code39_symbol s true x hx
      rw [he, Outcome.ok.injEq] at h4
      exact ⟨fun c hc => h3 c (by simp [hc]), h3, h4⟩
    · intro s hl hs
      obtain ⟨x, hx⟩ := (C13_code39_accepts s (alphabet_byteLen39 s hs (by omega))).2.mpr ⟨by omega, by omega, hs⟩
      exact ⟨_, x, hx, (code39_symbol s true x hx).2⟩

example : ∃ x ms y ns, Code39.withChecksum "A".toList = .ok x ∧ Code39.encode x = .ok ms ∧ scanCode39 ms = some "AA".toList ∧
    Code39.new "AB".toList = .ok y ∧ Code39.encode y = .ok ns ∧ scanCode39 ns = some "AB".toList ∧ scanCode39Checked ns = none :=
  ⟨_, _, _, _, rfl, rfl, by decide +kernel, rfl, rfl, by decide +kernel, by decide +kernel⟩

/-! ## Code 93 and Code 11 -/

theorem readCode93_row (ms : List Nat) (t : List Char) (h : readCode93 ms = some t) :
    (∀ c ∈ t, c ∈ code93Alphabet) ∧ ms = paint (code93SymWidths t) := by
  have hc := readCode93_chars ms t h
  have inv : ∀ ms, readCode93 ms = some t → ∃ body, elements ms = some (body ++ [1]) ∧
      readAll 6 readCode93Char body = some ('*' :: t ++ ['*']) := by
    intro ms h
    unfold readCode93 at h
    simp only [Option.bind_eq_bind, Option.bind_eq_some_iff] at h
    obtain ⟨es, h1, h⟩ := h
    split at h
    case isFalse => cases h
    next hl =>
      rw [Option.bind_some, Option.bind_eq_some_iff] at h
      obtain ⟨cs, h3, h4⟩ := h
      obtain ⟨rfl, -⟩ := stars_inv cs t h4
      have hne : es ≠ [] := by rintro rfl; simp at hl
      rw [List.getLast?_eq_some_getLast hne, Option.some.injEq] at hl
      have := List.dropLast_concat_getLast hne
      rw [hl] at this
      exact ⟨es.dropLast, by rw [this, h1], h3⟩
  obtain ⟨es, a1, a2⟩ := inv ms h
  obtain ⟨es', b1, b2⟩ := inv _ (readCode93_paint t hc)
  refine ⟨hc, ?_⟩
  rw [elements_inv _ _ a1, elements_inv _ _ b1, readAll_inj 6 (by omega) _ readCode93_inj _ _ _ a2 b2]

theorem readCode11_row (ms : List Nat) (t : List Char) (h : readCode11 ms = some t) :
    (∀ c ∈ t, c ∈ code11Alphabet) ∧ ms = paint (code11SymWidths t) := by
  have hc := readCode11_chars ms t h
  have inv : ∀ ms, readCode11 ms = some t → ∃ es, elements ms = some es ∧
      readAll 6 readCode11Char (es ++ [1]) = some ('*' :: t ++ ['*']) := by
    intro ms h
    unfold readCode11 at h
    simp only [Option.bind_eq_bind, Option.bind_eq_some_iff] at h
    obtain ⟨es, h1, cs, h3, h4⟩ := h
    obtain ⟨rfl, -⟩ := stars_inv cs t h4
    exact ⟨es, h1, h3⟩
  obtain ⟨es, a1, a2⟩ := inv ms h
  obtain ⟨es', b1, b2⟩ := inv _ (readCode11_paint t hc)
  refine ⟨hc, ?_⟩
  have := readAll_inj 6 (by omega) readCode11Char (gap_inj _ code11_keys 5 _ (fun _ => rfl) 6) _ _ _ a2 b2
  rw [elements_inv _ _ a1, elements_inv _ _ b1, append_one_inj _ _ this]

/-- C132. Of the 47ⁿ⁺² rows that read as `n + 2` Code 93 characters between start and stop, the library draws 47ⁿ, one in 2209. -/
theorem C132_code93 (b : Build) (n : Nat) (h1 : 1 ≤ n) (h2 : n ≤ 256) :
    Exactly (47 ^ (n + 2)) (fun ms => ∃ t, readCode93 ms = some t ∧ t.length = n + 2) ∧
    Exactly (47 ^ n) (fun ms => (∃ t, readCode93 ms = some t ∧ t.length = n + 2) ∧ ∃ s, Drawn b .code93 s ms) := by
  have hA : code93Alphabet.Nodup := by decide
  refine ⟨count_rows _ hA readCode93 _ readCode93_paint readCode93_row (n + 2), ?_⟩
  refine count_drawn _ hA readCode93 _ readCode93_paint code93Text _ ?_ n (n + 2) ?_ (fun s => by rw [code93Text_length]; omega) ?_
  · rintro s ms ⟨x, hx, he⟩
    obtain ⟨h3, h4⟩ := code93_symbol s x hx
    rw [he, Outcome.ok.injEq] at h4
    exact ⟨(code93_new_ok s x hx).2, h3, h4⟩
  · intro s hl hs
    obtain ⟨x, hx⟩ := (C16_code93_accepts s (by rw [code93_byteLen s hs]; omega)).mpr ⟨by omega, by omega, hs⟩
    exact ⟨_, x, hx, (code93_symbol s x hx).2⟩
  · intro s s' hl hl' h
    exact (List.append_inj h (by omega)).1

example : ∃ ms, Drawn .debug .code93 "TEST93".toList ms ∧ readCode93 ms = some "TEST93+6".toList :=
  ⟨_, ⟨_, rfl, rfl⟩, by decide +kernel⟩

/-- C132. Of the 11ᴸ rows that read as `L` Code 11 characters between start and stop, the library draws 11ᴸ⁻¹ while one check
character is printed (`2 ≤ L ≤ 11`), none for `L = 12`, and 11ᴸ⁻² once two are printed. -/
theorem C132_code11 (b : Build) :
    (∀ L, Exactly (11 ^ L) (fun ms => ∃ t, readCode11 ms = some t ∧ t.length = L)) ∧
    (∀ n, 1 ≤ n → n ≤ 10 →
      Exactly (11 ^ n) (fun ms => (∃ t, readCode11 ms = some t ∧ t.length = n + 1) ∧ ∃ s, Drawn b .code11 s ms)) ∧
    Exactly 0 (fun ms => (∃ t, readCode11 ms = some t ∧ t.length = 12) ∧ ∃ s, Drawn b .code11 s ms) ∧
    (∀ n, 11 ≤ n → n ≤ 256 →
      Exactly (11 ^ n) (fun ms => (∃ t, readCode11 ms = some t ∧ t.length = n + 2) ∧ ∃ s, Drawn b .code11 s ms)) := by
  have hA : code11Alphabet.Nodup := by decide
  have hD : ∀ s ms, Drawn b .code11 s ms → (∀ c ∈ s, c ∈ code11Alphabet) ∧ (∀ c ∈ code11Text s, c ∈ code11Alphabet) ∧
      ms = paint (code11SymWidths (code11Text s)) := by
    rintro s ms ⟨x, hx, he⟩
    obtain ⟨h3, h4⟩ := code11_symbol s x hx
    rw [he, Outcome.ok.injEq] at h4
    exact ⟨(code11_new_ok s x hx).2, h3, h4⟩
  have hN : ∀ n, 1 ≤ n → n ≤ 256 → ∀ s : List Char, s.length = n → (∀ c ∈ s, c ∈ code11Alphabet) → ∃ ms, Drawn b .code11 s ms := by
    intro n h1 h2 s hl hs
    obtain ⟨x, hx⟩ := (C19_code11_accepts s (by rw [code11_byteLen s hs]; omega)).mpr ⟨by omega, by omega, hs⟩
    exact ⟨_, x, hx, (code11_symbol s x hx).2⟩
  have hi : ∀ n, ∀ s s' : List Char, s.length = n → s'.length = n → code11Text s = code11Text s' → s = s' := by
    intro n s s' hl hl' h
    rw [← code11Text_eq, ← code11Text_eq] at h
    exact (List.append_inj h (by omega)).1
  refine ⟨count_rows _ hA readCode11 _ readCode11_paint readCode11_row, fun n h1 h2 => ?_, exactly_none ?_, fun n h1 h2 => ?_⟩
  · refine count_drawn _ hA readCode11 _ readCode11_paint code11Text _ hD n (n + 1) (hN n h1 (by omega)) (fun s => ?_) (hi n)
    rw [code11Text_length]; split <;> omega
  · rintro ms ⟨⟨t, ht, hl⟩, s, h⟩
    obtain ⟨-, h3, h4⟩ := hD s ms h
    rw [h4, readCode11_paint _ h3, Option.some.injEq] at ht
    subst ht
    rw [code11Text_length] at hl
    split at hl <;> omega
  · refine count_drawn _ hA readCode11 _ readCode11_paint code11Text _ hD n (n + 2) (hN n (by omega) h2) (fun s => ?_) (hi n)
    rw [code11Text_length]; split <;> omega

example : ∃ ms ns, Drawn .debug .code11 "1234567890".toList ms ∧ Drawn .debug .code11 "12345678901".toList ns ∧
    (readCode11 ms).map List.length = some 11 ∧ (readCode11 ns).map List.length = some 13 :=
  ⟨_, _, ⟨_, rfl, rfl⟩, ⟨_, rfl, rfl⟩, by decide +kernel, by decide +kernel⟩

/-! ## Code 128 -/

theorem code128Text_all (set : CodeSet) : ∀ v < 103, (code128Text set v).isSome = true ∧ ((code128Text set v).getD []).length ≤ 2 := by
  cases set <;> decide +kernel

theorem code128Decode_all (set : CodeSet) (data : List Nat) (h : ∀ v ∈ data, v < 103) :
    ∃ t, code128Decode set data = some t ∧ t.length ≤ 2 * data.length := by
  induction data generalizing set with
  | nil => exact ⟨[], rfl, by simp⟩
  | cons v vs ih =>
    obtain ⟨h1, h2⟩ := code128Text_all set v (h v (by simp))
    obtain ⟨t, ht⟩ := Option.isSome_iff_exists.mp h1
    obtain ⟨r, hr, hl⟩ := ih (code128Next set v) (fun w hw => h w (by simp [hw]))
    refine ⟨t ++ r, by simp [code128Decode, ht, hr], ?_⟩
    rw [ht, Option.getD_some] at h2
    simp only [List.length_append, List.length_cons]
    omega

theorem start_inj (s s' : CodeSet) (h : s.start = s'.start) : s = s' := by
  cases s <;> cases s' <;> simp_all [CodeSet.start]

theorem start_set (s : CodeSet) : code128Start s.start = some s := by cases s <;> rfl

theorem exactly_starts (n : Nat) :
    Exactly (3 * 103 ^ n) (fun p : CodeSet × List Nat => p.2.length = n ∧ ∀ v ∈ p.2, v < 103) := by
  have hs : Exactly 3 (fun _ : CodeSet => True) := ⟨[.A, .B, .C], by decide, rfl, fun a => by cases a <;> simp⟩
  have hv := exactly_lists (List.range 103) List.nodup_range n
  rw [List.length_range] at hv
  exact exactly_congr (exactly_pairs hs hv) (fun p => by simp only [true_and, List.mem_range])

/-- C132. Of the 3·103ⁿ⁺¹ rows that read as a start symbol and `n + 1` further symbols of Code 128, the library draws 3·103ⁿ, one
in 103, as long as the sum behind the check symbol stays in range. -/
theorem C132_code128 (b : Build) (n : Nat) (hn : n ≤ 3244) :
    Exactly (3 * 103 ^ (n + 1)) (fun ms => ∃ (set : CodeSet) (vs : List Nat), readCode128 ms = some (set.start :: vs) ∧
      vs.length = n + 1 ∧ ∀ v ∈ vs, v < 103) ∧
    Exactly (3 * 103 ^ n) (fun ms => (∃ (set : CodeSet) (vs : List Nat), readCode128 ms = some (set.start :: vs) ∧
      vs.length = n + 1 ∧ ∀ v ∈ vs, v < 103) ∧ ∃ s, s.length ≤ 6489 ∧ Drawn b .code128 s ms) := by
  have hread : ∀ (set : CodeSet) (vs : List Nat), (∀ v ∈ vs, v < 103) →
      readCode128 (paint (code128Widths (set.start :: vs))) = some (set.start :: vs) := by
    intro set vs h
    refine readCode128_paint _ (fun v hv => ?_)
    rcases List.mem_cons.mp hv with rfl | hv
    · exact start_lt set
    · have := h v hv; omega
  have hvs : ∀ (set : CodeSet) (data : List Nat), (∀ v ∈ data, v < 103) →
      ∀ v ∈ data ++ [code128Sum set.start data % 103], v < 103 := by
    intro set data h v hv
    rcases List.mem_append.mp hv with hv | hv
    · exact h v hv
    · rw [List.mem_singleton.mp hv]; exact Nat.mod_lt _ (by omega)
  constructor
  · refine exactly_congr (exactly_image (exactly_starts (n + 1)) (fun p => paint (code128Widths (p.1.start :: p.2)))
      (fun p p' hp hp' e => ?_)) (fun ms => ?_)
    · have h1 := hread p.1 p.2 hp.2
      rw [e, hread p'.1 p'.2 hp'.2, Option.some.injEq] at h1
      obtain ⟨h2, h3⟩ := List.cons.inj h1
      exact Prod.ext (start_inj _ _ h2.symm) h3.symm
    · constructor
      · rintro ⟨p, hp, rfl⟩; exact ⟨p.1, p.2, hread p.1 p.2 hp.2, hp⟩
      · rintro ⟨set, vs, h, hp⟩; exact ⟨(set, vs), hp, (code128_read_symbol ms _ h).2.symm⟩
  · refine exactly_congr (exactly_image (exactly_starts n)
      (fun p => paint (code128Widths (p.1.start :: (p.2 ++ [code128Sum p.1.start p.2 % 103])))) (fun p p' hp hp' e => ?_)) (fun ms => ?_)
    · have h1 := hread p.1 _ (hvs p.1 p.2 hp.2)
      rw [e, hread p'.1 _ (hvs p'.1 p'.2 hp'.2), Option.some.injEq] at h1
      obtain ⟨h2, h3⟩ := List.cons.inj h1
      exact Prod.ext (start_inj _ _ h2.symm) (List.append_inj h3 (by rw [hp.1, hp'.1])).1.symm
    · constructor
      · rintro ⟨⟨set, data⟩, ⟨hl, hd⟩, rfl⟩
        simp only at hl hd ⊢
        have hr := hread set _ (hvs set data hd)
        obtain ⟨t, ht, htl⟩ := code128Decode_all set data hd
        have hscan := scan128_if _ set.start _ data hr
        rw [if_pos rfl, start_set, Option.bind_some, ht, Option.map_some] at hscan
        have hlen : (set.char :: t).length ≤ 6489 := by rw [List.length_cons]; omega
        exact ⟨⟨set, _, hr, by simp [hl], hvs set data hd⟩, _, hlen, C75_code128 b _ _ hlen hscan⟩
      · rintro ⟨⟨set, vs, hr, hl, hv⟩, s, hs, x, hx, he⟩
        obtain ⟨ms', set', data, -, -, he', hr'⟩ := C29_code128_check_partial b s x hx hs
        rw [he, Outcome.ok.injEq] at he'
        subst he'
        rw [hr, Option.some.injEq, List.cons_append] at hr'
        obtain ⟨h2, h3⟩ := List.cons.inj hr'
        have := start_inj _ _ h2
        subst this
        subst h3
        refine ⟨(set, data), ⟨by simpa using hl, fun v hv' => hv v (by simp [hv'])⟩, ?_⟩
        exact (code128_read_symbol ms _ hr).2.symm

example : ∃ ms, Drawn .debug .code128 "ÀHE".toList ms ∧ readCode128 ms = some [103, 40, 37, 11] :=
  ⟨_, ⟨_, rfl, rfl⟩, by decide +kernel⟩

end Barcoders
