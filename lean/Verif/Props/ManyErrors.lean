import Verif.Lemmas.Separable
import Verif.Props.Counting

/-!
# Any number of wrong characters (C133)

However many characters of a symbol or number are wrong, and whichever they are, the check lets exactly the same part of all the
possible readings pass: one in ten, 43, 2209, 11 or 103.
-/

set_option autoImplicit false

namespace Barcoders
open Spec

/-! ## Article numbers -/

theorem many_numbers {T : Type} (mk : List Nat → T) (f : List Char → Outcome T) (n : Nat) (hn : n < 100)
    (hf : ∀ s, f s = if byteLen s % 2 ^ 32 ≠ n ∧ byteLen s % 2 ^ 32 ≠ n + 1 then Outcome.err Error.length
      else if ¬ AllDigits s then .err .character
      else if s.length = n + 1 ∧ ¬ Gs1Valid (digitsOf s) then .err .checksum
      else .ok (mk ((digitsOf s).take n))) (s : List Char) (hD : AllDigits s) (hl : s.length = n + 1) (K : List Nat)
    (h0 : K ≠ []) (hK : K.Nodup) (hKl : ∀ i ∈ K, i < n + 1) :
    Exactly (10 ^ (K.length - 1)) (fun t => AgreeOff K s t ∧ (f t).isOk = true) := by
  obtain ⟨i, K, rfl⟩ : ∃ i K', K = i :: K' := by
    cases K with
    | nil => exact absurd rfl h0
    | cons i K' => exact ⟨i, K', rfl⟩
  have hmem : ∀ t : List Char, AllDigits t ↔ ∀ c ∈ t, c ∈ decimals := fun t =>
    forall_congr' (fun c => forall_congr' (fun _ => (mem_decimals c).symm))
  have hd10 : decimals.length = 10 := by decide
  have h := exactly_separable decimals (by decide) '0' (by decide) (fun t => t.length = n + 1 ∧ (f t).isOk = true) (n + 1)
    (fun t ht => ⟨ht.1, by
      obtain ⟨x, hx⟩ := isOk_of ht.2
      exact (hmem t).mp (new_digits mk f n hf t x hx)⟩)
    [i] K (by
      rw [hd10, List.length_singleton, Nat.add_sub_cancel]
      exact count_numbers mk f n hn hf)
    (by
      rintro t t' ⟨h1, h2⟩ ⟨h3, h4⟩ hag
      obtain ⟨p, q, a, c, rfl, rfl, -⟩ := agreeOff_one t t' i (by rw [h1]; exact hKl i (by simp)) hag
      obtain ⟨x, hx⟩ := isOk_of h2
      have hDt := new_digits mk f n hf _ x hx
      obtain ⟨d, -, h6⟩ := illegible_digit mk f n hn hf p q (fun e he => hDt e (by
        rcases List.mem_append.mp he with he | he <;> simp [he])) (by simp at h1 ⊢; omega)
      rw [h6 a h2, h6 c h4])
    hK hKl s hl ((hmem s).mp hD)
  rw [hd10] at h
  rw [List.length_cons, Nat.add_sub_cancel]
  refine exactly_congr h (fun t => ?_)
  constructor
  · rintro ⟨h1, -, h2⟩; exact ⟨h1, h2⟩
  · rintro ⟨h1, h2⟩; exact ⟨h1, by rw [h1.1, hl], h2⟩

/-- C133. However the digits in `k ≥ 1` given places of a 13-digit number are misread, of the 10ᵏ readings EAN-13 accepts exactly
10ᵏ⁻¹; the same for EAN-8 and UPC-A. -/
theorem C133_numbers (b : Build) (s : List Char) (hD : AllDigits s) (K : List Nat) (h0 : K ≠ []) (hK : K.Nodup)
    (hl : ∀ i ∈ K, i < s.length) :
    Exactly (10 ^ K.length) (fun t => AgreeOff K s t ∧ AllDigits t) ∧
    (s.length = 13 → Exactly (10 ^ (K.length - 1)) (fun t => AgreeOff K s t ∧ (Ean13.new b t).isOk = true)) ∧
    (s.length = 8 → Exactly (10 ^ (K.length - 1)) (fun t => AgreeOff K s t ∧ (Ean8.new b t).isOk = true)) ∧
    (s.length = 12 → Exactly (10 ^ (K.length - 1)) (fun t => AgreeOff K s t ∧ (Upca.new b t).isOk = true)) := by
  refine ⟨?_, fun h => ?_, fun h => ?_, fun h => ?_⟩
  · refine exactly_congr (exactly_fill decimals (by decide) s (fun c hc => (mem_decimals c).mpr (hD c hc)) K hK hl) (fun t => ?_)
    rw [and_comm]
    exact and_congr_right (fun _ => forall_congr' (fun c => forall_congr' (fun _ => mem_decimals c)))
  · rw [h] at hl
    exact many_numbers Ean13.EAN13.mk (Ean13.new b) 12 (by omega) (ean13_new b) s hD h K h0 hK hl
  · rw [h] at hl
    exact many_numbers Ean8.EAN8.mk (Ean8.new b) 7 (by omega) (ean8_new b) s hD h K h0 hK hl
  · rw [h] at hl
    exact many_numbers Upca.UPCA.mk (Upca.new b) 11 (by omega) (upca_new b) s hD h K h0 hK hl

/-- Of the hundred readings of 55123457 that differ from it, if at all, in the first and the last digit, ten are accepted. -/
example : ("0123456789".toList.flatMap (fun a => "0123456789".toList.map (fun c => a :: "512345".toList ++ [c]))).countP
    (fun t => (Ean8.new .debug t).isOk) = 10 := by decide +kernel

/-! ## Characters -/

/-- What can be read from the symbols the library draws, of a given length: one or two characters are given by the others. -/
theorem many_texts (A : List Char) (hA : A.Nodup) (hA0 : '0' ∈ A) (V : List Char → Prop) (full : List Char → List Char) (n r : Nat)
    (hV : ∀ t, V t ↔ ∃ s, s.length = n ∧ (∀ c ∈ s, c ∈ A) ∧ full s = t)
    (hfull : ∀ s, s.length = n → (∀ c ∈ s, c ∈ A) → (full s).length = n + r ∧ ∀ c ∈ full s, c ∈ A)
    (hi : ∀ s s', s.length = n → s'.length = n → full s = full s' → s = s')
    (R K : List Nat) (hr : R.length = r) (hd : ∀ t t', V t → V t' → AgreeOff R t t' → t = t')
    (hn : (R ++ K).Nodup) (hl : ∀ i ∈ R ++ K, i < n + r) (u : List Char) (hu : u.length = n + r) (huA : ∀ c ∈ u, c ∈ A) :
    Exactly (A.length ^ K.length) (fun t => AgreeOff (R ++ K) u t ∧ V t) := by
  refine exactly_separable A hA '0' hA0 V (n + r) ?_ R K ?_ hd hn hl u hu huA
  · intro t ht
    obtain ⟨s, h1, h2, rfl⟩ := (hV t).mp ht
    exact hfull s h1 h2
  · rw [hr, Nat.add_sub_cancel]
    exact exactly_congr (exactly_image (exactly_lists A hA n) full (fun s s' h h' e => hi s s' h.1 h'.1 e)) (fun t => by
      rw [hV]
      exact ⟨fun ⟨s, ⟨h1, h2⟩, e⟩ => ⟨s, h1, h2, e⟩, fun ⟨s, h1, h2, e⟩ => ⟨s, ⟨h1, h2⟩, e⟩⟩)

/-- C133. Code 39 with check character: of the 43ᵏ readings that agree with a given one off `k ≥ 1` places (check character
included), exactly 43ᵏ⁻¹ are what a symbol of the library reads as. -/
theorem C133_code39 (u : List Char) (huA : ∀ c ∈ u, c ∈ code39Alphabet) (h1 : 2 ≤ u.length) (h2 : u.length ≤ 257) (K : List Nat)
    (h0 : K ≠ []) (hK : K.Nodup) (hl : ∀ i ∈ K, i < u.length) :
    Exactly (43 ^ K.length) (fun t => AgreeOff K u t ∧ ∃ ms, scanCode39 ms = some t) ∧
    Exactly (43 ^ (K.length - 1)) (fun t => AgreeOff K u t ∧
      ∃ s x ms, Code39.withChecksum s = .ok x ∧ Code39.encode x = .ok ms ∧ scanCode39 ms = some t) := by
  have hA : code39Alphabet.Nodup := by decide
  refine ⟨exactly_congr (exactly_fill _ hA u huA K hK hl) (fun t => ?_), ?_⟩
  · rw [and_comm]
    exact and_congr_right (fun _ => ⟨fun h => ⟨_, scanCode39_paint t h⟩, fun ⟨ms, h⟩ => scanCode39_chars ms t h⟩)
  obtain ⟨i, K, rfl⟩ : ∃ i K', K = i :: K' := by
    cases K with
    | nil => exact absurd rfl h0
    | cons i K' => exact ⟨i, K', rfl⟩
  obtain ⟨n, hn⟩ : ∃ n, u.length = n + 1 := ⟨u.length - 1, by omega⟩
  rw [hn] at hl
  rw [List.length_cons, Nat.add_sub_cancel]
  have hval : ∀ t, (t.length = n + 1 ∧ ∃ s x ms, Code39.withChecksum s = .ok x ∧ Code39.encode x = .ok ms ∧ scanCode39 ms = some t) ↔
      ∃ s, s.length = n ∧ (∀ c ∈ s, c ∈ code39Alphabet) ∧ s ++ [code39Check s] = t := by
    intro t
    constructor
    · rintro ⟨htl, s, x, ms, hx, he, ht⟩
      obtain ⟨bits, e1, e2, -⟩ := C14_code39_checksum_scan s x hx
      rw [he, Outcome.ok.injEq] at e1
      subst e1
      rw [e2, Option.some.injEq] at ht
      subst ht
      exact ⟨s, by simpa using htl, (code39_init_ok s true x hx).2, rfl⟩
    · rintro ⟨s, hsl, hs, rfl⟩
      obtain ⟨x, hx⟩ := (C13_code39_accepts s (alphabet_byteLen39 s hs (by omega))).2.mpr ⟨by omega, by omega, hs⟩
      obtain ⟨bits, e1, e2, -⟩ := C14_code39_checksum_scan s x hx
      exact ⟨by simp [hsl], s, x, bits, hx, e1, e2⟩
  refine exactly_congr (many_texts code39Alphabet hA (by decide) _ (fun s => s ++ [code39Check s]) n 1 hval ?_
    (fun s s' h h' e => (List.append_inj e (by omega)).1) [i] K rfl ?_ hK hl u hn huA) (fun t => ?_)
  · intro s hs hsA
    refine ⟨by simp [hs], fun c hc => ?_⟩
    rcases List.mem_append.mp hc with hc | hc
    · exact hsA c hc
    · rw [List.mem_singleton.mp hc]; exact code39Check_mem s
  · rintro t t' ⟨htl, s, x, ms, hx, he, ht⟩ ⟨htl', s', x', ms', hx', he', ht'⟩ hag
    obtain ⟨p, q, a, c, rfl, rfl, -⟩ := agreeOff_one t t' i (by rw [htl]; exact hl i (by simp)) hag
    by_cases hca : c = a
    · rw [hca]
    · have := C15_code39_single_error s x hx ms he p q a c ht (scanCode39_chars ms' _ ht' c (by simp)) hca ms' ht'
      obtain ⟨bits, e1, -, e3⟩ := C14_code39_checksum_scan s' x' hx'
      rw [he', Outcome.ok.injEq] at e1
      subst e1
      rw [this] at e3
      cases e3
  · exact and_congr_right (fun hag => ⟨fun h => h.2, fun h => ⟨by rw [hag.1, hn], h⟩⟩)

/-- The check character of `AB` is `L`: no other reading `?BL` comes from the library. -/
example : (code39Alphabet.filter (fun c => code39Check [c, 'B'] = 'L')) = ['A'] := by decide

/-- C133. Code 11 with one check character (up to ten characters): of the 11ᵏ readings exactly 11ᵏ⁻¹ pass. -/
theorem C133_code11 (b : Build) (u : List Char) (huA : ∀ c ∈ u, c ∈ code11Alphabet) (h1 : 2 ≤ u.length) (h2 : u.length ≤ 11)
    (K : List Nat) (h0 : K ≠ []) (hK : K.Nodup) (hl : ∀ i ∈ K, i < u.length) :
    Exactly (11 ^ K.length) (fun t => AgreeOff K u t ∧ ∃ ms, readCode11 ms = some t) ∧
    Exactly (11 ^ (K.length - 1)) (fun t => AgreeOff K u t ∧ ∃ s ms, Drawn b .code11 s ms ∧ readCode11 ms = some t) := by
  have hA : code11Alphabet.Nodup := by decide
  refine ⟨exactly_congr (exactly_fill _ hA u huA K hK hl) (fun t => ?_), ?_⟩
  · rw [and_comm]
    exact and_congr_right (fun _ => ⟨fun h => ⟨_, readCode11_paint t h⟩, fun ⟨ms, h⟩ => readCode11_chars ms t h⟩)
  obtain ⟨i, K, rfl⟩ : ∃ i K', K = i :: K' := by
    cases K with
    | nil => exact absurd rfl h0
    | cons i K' => exact ⟨i, K', rfl⟩
  obtain ⟨n, hn⟩ : ∃ n, u.length = n + 1 := ⟨u.length - 1, by omega⟩
  rw [hn] at hl
  rw [List.length_cons, Nat.add_sub_cancel]
  have hval : ∀ t, (t.length = n + 1 ∧ ∃ s ms, Drawn b .code11 s ms ∧ readCode11 ms = some t) ↔
      ∃ s, s.length = n ∧ (∀ c ∈ s, c ∈ code11Alphabet) ∧ code11Text s = t := by
    intro t
    constructor
    · rintro ⟨htl, s, ms, ⟨x, hx, he⟩, ht⟩
      obtain ⟨h3, h4⟩ := code11_symbol s x hx
      rw [he, Outcome.ok.injEq] at h4
      rw [h4, readCode11_paint _ h3, Option.some.injEq] at ht
      subst ht
      refine ⟨s, ?_, (code11_new_ok s x hx).2, rfl⟩
      rw [code11Text_length] at htl
      split at htl <;> omega
    · rintro ⟨s, hsl, hs, rfl⟩
      obtain ⟨x, hx⟩ := (C19_code11_accepts s (by rw [code11_byteLen s hs]; omega)).mpr ⟨by omega, by omega, hs⟩
      obtain ⟨h3, h4⟩ := code11_symbol s x hx
      exact ⟨by rw [code11Text_length, if_neg (by omega), hsl], s, _, ⟨x, hx, h4⟩, readCode11_paint _ h3⟩
  refine exactly_congr (many_texts code11Alphabet hA (by decide) _ code11Text n 1 hval ?_ ?_ [i] K rfl ?_ hK hl u hn huA)
    (fun t => ?_)
  · intro s hs hsA
    exact ⟨by rw [code11Text_length, if_neg (by omega), hs], code11_text_mem s hsA⟩
  · intro s s' hs hs' h
    rw [← code11Text_eq, ← code11Text_eq] at h
    exact (List.append_inj h (by omega)).1
  · rintro t t' ⟨htl, s, ms, ⟨x, hx, he⟩, ht⟩ ⟨htl', s', ms', ⟨x', hx', he'⟩, ht'⟩ hag
    obtain ⟨p, q, a, c, rfl, rfl, -⟩ := agreeOff_one t t' i (by rw [htl]; exact hl i (by simp)) hag
    by_cases hca : c = a
    · rw [hca]
    · have := C21_code11_single_error s x hx ms he p q a c ht (readCode11_chars ms' _ ht' c (by simp)) hca ms' ht'
      obtain ⟨bits, e1, e3⟩ := C20_code11_scan s' x' hx'
      rw [he', Outcome.ok.injEq] at e1
      subst e1
      rw [this] at e3
      cases e3
  · exact and_congr_right (fun hag => ⟨fun h => h.2, fun h => ⟨by rw [hag.1, hn], h⟩⟩)

example : (code11Alphabet.flatMap (fun a => code11Alphabet.map (fun c => (a, c)))).countP
    (fun p => code11Check 10 [p.1, '2', p.2] = '5') = 11 := by decide +kernel

/-- C133. Code 93 up to fourteen characters: of the 47ᵏ readings that agree with a given one off `k ≥ 2` places (check characters
included), exactly 47ᵏ⁻² pass, one in 2209. -/
theorem C133_code93 (b : Build) (u : List Char) (huA : ∀ c ∈ u, c ∈ code93Alphabet) (h1 : 3 ≤ u.length) (h2 : u.length ≤ 16)
    (K : List Nat) (h0 : 2 ≤ K.length) (hK : K.Nodup) (hl : ∀ i ∈ K, i < u.length) :
    Exactly (47 ^ K.length) (fun t => AgreeOff K u t ∧ ∃ ms, readCode93 ms = some t) ∧
    Exactly (47 ^ (K.length - 2)) (fun t => AgreeOff K u t ∧ ∃ s ms, Drawn b .code93 s ms ∧ readCode93 ms = some t) := by
  have hA : code93Alphabet.Nodup := by decide
  refine ⟨exactly_congr (exactly_fill _ hA u huA K hK hl) (fun t => ?_), ?_⟩
  · rw [and_comm]
    exact and_congr_right (fun _ => ⟨fun h => ⟨_, readCode93_paint t h⟩, fun ⟨ms, h⟩ => readCode93_chars ms t h⟩)
  obtain ⟨i, j, K, rfl⟩ : ∃ i j K', K = i :: j :: K' := by
    match K, h0 with
    | i :: j :: K', _ => exact ⟨i, j, K', rfl⟩
  obtain ⟨n, hn⟩ : ∃ n, u.length = n + 2 := ⟨u.length - 2, by omega⟩
  rw [hn] at hl
  rw [show (i :: j :: K).length - 2 = K.length by simp]
  have hval : ∀ t, (t.length = n + 2 ∧ ∃ s ms, Drawn b .code93 s ms ∧ readCode93 ms = some t) ↔
      ∃ s, s.length = n ∧ (∀ c ∈ s, c ∈ code93Alphabet) ∧ code93Text s = t := by
    intro t
    constructor
    · rintro ⟨htl, s, ms, ⟨x, hx, he⟩, ht⟩
      obtain ⟨h3, h4⟩ := code93_symbol s x hx
      rw [he, Outcome.ok.injEq] at h4
      rw [h4, readCode93_paint _ h3, Option.some.injEq] at ht
      subst ht
      rw [code93Text_length] at htl
      exact ⟨s, by omega, (code93_new_ok s x hx).2, rfl⟩
    · rintro ⟨s, hsl, hs, rfl⟩
      obtain ⟨x, hx⟩ := (C16_code93_accepts s (by rw [code93_byteLen s hs]; omega)).mpr ⟨by omega, by omega, hs⟩
      obtain ⟨h3, h4⟩ := code93_symbol s x hx
      exact ⟨by rw [code93Text_length, hsl], s, _, ⟨x, hx, h4⟩, readCode93_paint _ h3⟩
  have hij : i ≠ j := by
    rw [List.nodup_cons, List.mem_cons, not_or] at hK
    exact hK.1.1
  have two : ∀ t t' : List Char, ∀ i' j' : Nat, i' < j' → j' < n + 2 →
      (t.length = n + 2 ∧ ∃ s ms, Drawn b .code93 s ms ∧ readCode93 ms = some t) →
      (t'.length = n + 2 ∧ ∃ s ms, Drawn b .code93 s ms ∧ readCode93 ms = some t') → AgreeOff [i', j'] t t' → t = t' := by
    rintro t t' i' j' hlt hj ⟨htl, s, ms, ⟨x, hx, he⟩, ht⟩ ⟨htl', s', ms', ⟨x', hx', he'⟩, ht'⟩ hag
    obtain ⟨p, m, q, a, c, a', c', rfl, rfl⟩ := agreeOff_two t t' i' j' hlt (by omega) hag
    have hsl : s.length ≤ 14 := by
      obtain ⟨h3, h4⟩ := code93_symbol s x hx
      rw [he, Outcome.ok.injEq] at h4
      have ht2 := ht
      rw [h4, readCode93_paint _ h3, Option.some.injEq] at ht2
      rw [← ht2, code93Text_length] at htl
      omega
    obtain ⟨-, rfl, rfl⟩ := C112_code93 s s' x x' hx hx' hsl ms ms' he he' p m q a c a' c' ht ht'
    rfl
  refine exactly_congr (many_texts code93Alphabet hA (by decide) _ code93Text n 2 hval ?_ ?_ [i, j] K rfl ?_ hK hl u hn huA)
    (fun t => ?_)
  · intro s hs hsA
    exact ⟨by rw [code93Text_length, hs], code93_text_mem s hsA⟩
  · intro s s' hs hs' h
    exact (List.append_inj h (by omega)).1
  · intro t t' ht ht' hag
    have hi := hl i (by simp)
    have hj := hl j (by simp)
    rcases Nat.lt_or_gt_of_ne hij with h | h
    · exact two t t' i j h hj ht ht' hag
    · refine two t t' j i h hi ht ht' ⟨hag.1, fun k hk => hag.2 k ?_⟩
      simp only [List.mem_cons, List.not_mem_nil, or_false] at hk ⊢
      omega
  · exact and_congr_right (fun hag => ⟨fun h => h.2, fun h => ⟨by rw [hag.1, hn], h⟩⟩)

/-- Given the two check characters of `AB`, no other two characters have them. -/
example : ((code93Alphabet.flatMap (fun a => code93Alphabet.map (fun c => [a, c]))).filter
    (fun s => code93Text s = s ++ "V-".toList)) = ["AB".toList] := by decide +kernel

/-! ## Code 128 -/

/-- C133. Code 128: of the 103ᵏ readings that agree with a given one off `k ≥ 1` places behind the start symbol (check symbol
included), exactly 103ᵏ⁻¹ pass, if one of the places is not the 103rd, 206th, … data symbol. -/
theorem C133_code128 (b : Build) (set : CodeSet) (n : Nat) (hn : n ≤ 3244) (u : List Nat) (huA : ∀ v ∈ u, v < 103)
    (hu : u.length = n + 1) (K : List Nat) (hK : K.Nodup) (hl : ∀ i ∈ K, i < n + 1) (hw : ∃ i ∈ K, i = n ∨ (i + 1) % 103 ≠ 0) :
    Exactly (103 ^ K.length) (fun t => AgreeOff K u t ∧ (∀ v ∈ t, v < 103) ∧ ∃ ms, readCode128 ms = some (set.start :: t)) ∧
    Exactly (103 ^ (K.length - 1)) (fun t => AgreeOff K u t ∧ (∀ v ∈ t, v < 103) ∧
      ∃ s ms, s.length ≤ 6489 ∧ Drawn b .code128 s ms ∧ readCode128 ms = some (set.start :: t)) := by
  have hA : (List.range 103).Nodup := List.nodup_range
  have hA103 : (List.range 103).length = 103 := List.length_range
  have hmem : ∀ t : List Nat, (∀ v ∈ t, v ∈ List.range 103) ↔ ∀ v ∈ t, v < 103 := fun t =>
    forall_congr' (fun v => forall_congr' (fun _ => List.mem_range))
  have hread : ∀ t : List Nat, (∀ v ∈ t, v < 103) →
      readCode128 (paint (code128Widths (set.start :: t))) = some (set.start :: t) := by
    intro t h
    refine readCode128_paint _ (fun v hv => ?_)
    rcases List.mem_cons.mp hv with rfl | hv
    · exact start_lt set
    · have := h v hv; omega
  constructor
  · have h := exactly_fill _ hA u ((hmem u).mpr huA) K hK (by rw [hu]; exact hl)
    rw [hA103] at h
    refine exactly_congr h (fun t => ?_)
    rw [hmem]
    exact ⟨fun ⟨h1, h2⟩ => ⟨h2, h1, _, hread t h1⟩, fun ⟨h1, h2, _⟩ => ⟨h2, h1⟩⟩
  have hval : ∀ t : List Nat, (t.length = n + 1 ∧ (∀ v ∈ t, v < 103) ∧
        ∃ s ms, s.length ≤ 6489 ∧ Drawn b .code128 s ms ∧ readCode128 ms = some (set.start :: t)) ↔
      ∃ data : List Nat, data.length = n ∧ (∀ v ∈ data, v < 103) ∧ data ++ [code128Sum set.start data % 103] = t := by
    intro t
    constructor
    · rintro ⟨htl, htA, s, ms, hs, ⟨x, hx, he⟩, hr⟩
      obtain ⟨ms', set', data, -, -, he', hr'⟩ := C29_code128_check_partial b s x hx hs
      rw [he, Outcome.ok.injEq] at he'
      subst he'
      rw [hr, Option.some.injEq, List.cons_append] at hr'
      obtain ⟨h2, h3⟩ := List.cons.inj hr'
      have := start_inj _ _ h2
      subst this
      subst h3
      exact ⟨data, by simpa using htl, fun v hv => htA v (by simp [hv]), rfl⟩
    · rintro ⟨data, hdl, hd, rfl⟩
      have hvs : ∀ v ∈ data ++ [code128Sum set.start data % 103], v < 103 := by
        intro v hv
        rcases List.mem_append.mp hv with hv | hv
        · exact hd v hv
        · rw [List.mem_singleton.mp hv]; exact Nat.mod_lt _ (by omega)
      have hr := hread _ hvs
      obtain ⟨t, ht, htl⟩ := code128Decode_all set data hd
      have hscan := scan128_if _ set.start _ data hr
      rw [if_pos rfl, start_set, Option.bind_some, ht, Option.map_some] at hscan
      have hlen : (set.char :: t).length ≤ 6489 := by rw [List.length_cons]; omega
      exact ⟨by simp [hdl], hvs, _, _, hlen, C75_code128 b _ _ hlen hscan, hr⟩
  -- bring the place in front
  obtain ⟨i, hiK, hi⟩ := hw
  have hil := hl i hiK
  have hcount : Exactly (103 ^ n) (fun t : List Nat => t.length = n + 1 ∧ (∀ v ∈ t, v < 103) ∧
        ∃ s ms, s.length ≤ 6489 ∧ Drawn b .code128 s ms ∧ readCode128 ms = some (set.start :: t)) := by
    have h := exactly_image (exactly_lists _ hA n) (fun data => data ++ [code128Sum set.start data % 103])
      (fun d d' h h' e => (List.append_inj e (by rw [h.1, h'.1])).1)
    rw [hA103] at h
    refine exactly_congr h (fun t => ?_)
    rw [hval]
    exact ⟨fun ⟨d, ⟨h1, h2⟩, e⟩ => ⟨d, h1, (hmem d).mp h2, e⟩, fun ⟨d, h1, h2, e⟩ => ⟨d, ⟨h1, (hmem d).mpr h2⟩, e⟩⟩
  obtain ⟨K1, K2, rfl⟩ := List.append_of_mem hiK
  have hperm : (i :: (K1 ++ K2)).Perm (K1 ++ i :: K2) := List.perm_middle.symm
  have h := exactly_separable (List.range 103) hA 0 (by simp) (fun t : List Nat => t.length = n + 1 ∧ (∀ v ∈ t, v < 103) ∧
        ∃ s ms, s.length ≤ 6489 ∧ Drawn b .code128 s ms ∧ readCode128 ms = some (set.start :: t)) (n + 1) (fun t ht => ⟨ht.1, (hmem t).mpr ht.2.1⟩) [i] (K1 ++ K2)
    (by rw [hA103, List.length_singleton, Nat.add_sub_cancel]; exact hcount)
    (by
      intro t t' ht ht' hag
      rcases hi with rfl | hi
      · obtain ⟨d, h1, h2, rfl⟩ := (hval t).mp ht
        obtain ⟨d', h1', h2', rfl⟩ := (hval t').mp ht'
        have : d = d' := by
          apply List.ext_getElem?
          intro j
          by_cases hj : j < i
          · have := hag.2 j (by simp; omega)
            rw [List.getElem?_append_left (by omega), List.getElem?_append_left (by omega)] at this
            exact this.symm
          · rw [List.getElem?_eq_none (by omega), List.getElem?_eq_none (by omega)]
        rw [this]
      · obtain ⟨htl, htA, s, ms, hs, ⟨x, hx, he⟩, hr⟩ := ht
        obtain ⟨htl', htA', s', ms', hs', ⟨x', hx', he'⟩, hr'⟩ := ht'
        obtain ⟨p, q, a, c, rfl, rfl, hp⟩ := agreeOff_one t t' i (by omega) hag
        by_cases hq : q = []
        · subst hq
          obtain ⟨d, h1, h2, e⟩ := (hval _).mp ⟨htl, htA, s, ms, hs, ⟨x, hx, he⟩, hr⟩
          obtain ⟨d', h1', h2', e'⟩ := (hval _).mp ⟨htl', htA', s', ms', hs', ⟨x', hx', he'⟩, hr'⟩
          have hd : d = p := (List.append_inj' e rfl).1
          have hd' : d' = p := (List.append_inj' e' rfl).1
          rw [← e, ← e', hd, hd']
        · obtain ⟨r, k, rfl⟩ : ∃ r k, q = r ++ [k] := ⟨_, _, (List.dropLast_concat_getLast hq).symm⟩
          have := C112_code128 b b s s' x x' hx hx' hs hs' ms ms' he he' set.start k a c p r (by rw [hp]; exact hi)
            (by rw [hr]; simp) (by rw [hr']; simp)
          rw [this])
    (hperm.nodup_iff.mpr hK) (fun j hj => hl j (hperm.mem_iff.mp hj)) u hu ((hmem u).mpr huA)
  rw [hA103] at h
  have hlen : (K1 ++ i :: K2).length - 1 = (K1 ++ K2).length := by simp
  rw [hlen]
  refine exactly_congr h (fun t => ?_)
  have hag : AgreeOff ([i] ++ (K1 ++ K2)) u t ↔ AgreeOff (K1 ++ i :: K2) u t :=
    and_congr_right (fun _ => forall_congr' (fun j => by
      rw [show ([i] ++ (K1 ++ K2)) = i :: (K1 ++ K2) from rfl, hperm.mem_iff]))
  rw [hag]
  exact and_congr_right (fun h => ⟨fun h' => h'.2, fun h' => ⟨by rw [h.1, hu], h'⟩⟩)

example : (List.range 103).countP (fun v => code128Sum 104 [33, v] % 103 = 102) = 1 := by decide +kernel

end Barcoders
