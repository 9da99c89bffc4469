import Verif.Spec.Bookland
import Verif.Props.Distinct

/-!
# C99: book and serial numbers
-/

set_option autoImplicit false

namespace Barcoders
open Spec

theorem fallingSum_append (k : Nat) (vs : List Nat) (v : Nat) :
    fallingSum k (vs ++ [v]) = fallingSum k vs + (k - vs.length) * v := by
  induction vs generalizing k with
  | nil => simp [fallingSum]
  | cons w vs ih =>
    rw [List.cons_append, fallingSum, ih, fallingSum, List.length_cons, Nat.add_assoc, show k - 1 - vs.length = k - (vs.length + 1) by omega]

theorem digitsOf_back (d : List Char) (h : AllDigits d) : (digitsOf d).map (fun v => Char.ofNat (48 + v)) = d := by
  induction d with
  | nil => rfl
  | cons c d ih =>
    have hc := (toNat_isDigit c).mp (h c (by simp))
    rw [digitsOf, List.map_cons, List.map_cons]
    congr 1
    · rw [digitValue, show '0'.toNat = 48 from rfl, show 48 + (c.toNat - 48) = c.toNat by omega, Char.ofNat_toNat]
    · exact ih (fun x hx => h x (by simp [hx]))

theorem find_unique {β : Type} (l : List β) (p : β → Bool) (c : β) (hm : c ∈ l) (hp : p c = true)
    (hu : ∀ e ∈ l, p e = true → e = c) : l.find? p = some c := by
  cases h : l.find? p with
  | none => exact absurd hp (by rw [List.find?_eq_none] at h; exact h c hm)
  | some e => rw [hu e (List.mem_of_find?_eq_some h) (List.find?_some h)]

theorem bookChars (c : Char) : (c.isDigit = true ∨ c = 'X') ↔ c ∈ "0123456789X".toList := by
  constructor
  · rintro (h | rfl)
    · have h1 := (toNat_isDigit c).mp h
      have key : ∀ n < 10, Char.ofNat (48 + n) ∈ "0123456789X".toList := by decide
      have := key (c.toNat - 48) (by omega)
      rwa [show 48 + (c.toNat - 48) = c.toNat by omega, Char.ofNat_toNat] at this
    · decide
  · intro h
    have key : ∀ c ∈ "0123456789X".toList, c.isDigit = true ∨ c = 'X' := by decide
    exact key c h

/-- The check character is the only one that fits, so it can be put back. -/
theorem completeBook_back (n : Nat) (d : List Char) (c : Char) (hn : d.length = n) (hd : AllDigits d)
    (hc : c.isDigit = true ∨ c = 'X') (hs : fallingSum (n + 1) ((d ++ [c]).map bookValue) % 11 = 0) :
    completeBook (digitsOf d) = some (d ++ [c]) := by
  have hlen : (digitsOf d).length = n := by rw [digitsOf, List.length_map, hn]
  have hsum : ∀ e, fallingSum (n + 1) ((d ++ [e]).map bookValue) = fallingSum (n + 1) (d.map bookValue) + bookValue e := by
    intro e
    rw [List.map_append, List.map_singleton, fallingSum_append, List.length_map, hn, show n + 1 - n = 1 by omega, Nat.one_mul]
  have hv : ∀ a ∈ "0123456789X".toList, ∀ e ∈ "0123456789X".toList, bookValue a = bookValue e → a = e := by decide
  have hlt : ∀ a ∈ "0123456789X".toList, bookValue a < 11 := by decide
  have hm := (bookChars c).mp hc
  unfold completeBook
  rw [digitsOf_back d hd, hlen]
  show Option.map _ _ = _
  rw [find_unique _ _ c hm (by rw [decide_eq_true_eq]; exact hs) ?_, Option.map_some]
  intro e he hp
  rw [decide_eq_true_eq, hsum] at hp
  rw [hsum] at hs
  have h1 := hlt c hm
  have h2 := hlt e he
  exact hv e he c hm (by omega)

theorem allDigits_append (s t : List Char) (hs : AllDigits s) (ht : AllDigits t) : AllDigits (s ++ t) := by
  intro c hc
  rcases List.mem_append.mp hc with h | h
  · exact hs c h
  · exact ht c h

/-- Twelve digits are accepted, drawn and read. -/
theorem ean13_twelve (b : Build) (s : List Char) (hD : AllDigits s) (hl : s.length = 12) :
    ∃ x ms, Ean13.new b s = .ok x ∧ Ean13.encode b x = .ok ms ∧
      scanEan13 ms = some (digitsOf s ++ [gs1Digit (digitsOf s)]) := by
  have hb := digits_byteLen s hD
  obtain ⟨x, hx⟩ : ∃ x, Ean13.new b s = .ok x := by
    rw [C01_ean13_new b s (by omega), if_neg (by omega), if_neg (not_not_intro hD), if_neg (by omega)]
    exact ⟨_, rfl⟩
  obtain ⟨ms, he, hs⟩ := C02_ean13_scan b s x hx
  rw [show (digitsOf s).take 12 = digitsOf s by rw [← hl, show s.length = (digitsOf s).length by simp [digitsOf], List.take_length]] at hs
  exact ⟨x, ms, hx, he, hs⟩

/-- C99. Every ISBN with its check character replaced by the prefix 978 is accepted, and the ISBN is got back from the symbol,
check character and all. -/
theorem C99_isbn (b : Build) (s : List Char) (h : Isbn10 s) :
    ∃ x ms, Ean13.new b ("978".toList ++ s.take 9) = .ok x ∧ Ean13.encode b x = .ok ms ∧ (scanEan13 ms).bind isbnOf = some s := by
  obtain ⟨d, c, rfl, hl, hd, hc, hs⟩ := h
  have ht : (d ++ [c]).take 9 = d := by rw [← hl, List.take_left]
  rw [ht]
  obtain ⟨x, ms, hx, he, hr⟩ := ean13_twelve b ("978".toList ++ d) (allDigits_append _ _ (by decide) hd) (by simp [hl])
  refine ⟨x, ms, hx, he, ?_⟩
  have e : digitsOf ("978".toList ++ d) = 9 :: 7 :: 8 :: digitsOf d := rfl
  have e9 : (digitsOf d).length = 9 := by rw [digitsOf, List.length_map, hl]
  rw [hr, Option.bind_some, e, isbnOf, if_pos (by rfl)]
  show completeBook ((digitsOf d ++ _).take 9) = _
  rw [← e9, List.take_left]
  exact completeBook_back 9 d c hl hd hc hs

example : Isbn10 "0306406152".toList := ⟨"030640615".toList, '2', rfl, rfl, by decide, by decide, by decide⟩
example : ∃ x ms, Ean13.new .release "978030640615".toList = .ok x ∧ Ean13.encode .release x = .ok ms ∧
    (scanEan13 ms).bind isbnOf = some "0306406152".toList := ⟨_, _, rfl, rfl, by decide⟩

/-- C99. The same for journals, with any two digits for the price variant or issue. -/
theorem C99_issn (b : Build) (s v : List Char) (h : Issn s) (hv : AllDigits v) (hl2 : v.length = 2) :
    ∃ x ms, Ean13.new b ("977".toList ++ s.take 7 ++ v) = .ok x ∧ Ean13.encode b x = .ok ms ∧
      (scanEan13 ms).bind issnOf = some s := by
  obtain ⟨d, c, rfl, hl, hd, hc, hs⟩ := h
  have ht : (d ++ [c]).take 7 = d := by rw [← hl, List.take_left]
  rw [ht]
  obtain ⟨x, ms, hx, he, hr⟩ := ean13_twelve b ("977".toList ++ d ++ v)
    (allDigits_append _ _ (allDigits_append _ _ (by decide) hd) hv) (by simp [hl, hl2])
  refine ⟨x, ms, hx, he, ?_⟩
  have e : digitsOf ("977".toList ++ d ++ v) = 9 :: 7 :: 7 :: (digitsOf d ++ digitsOf v) := by simp [digitsOf]; decide
  have e7 : (digitsOf d).length = 7 := by rw [digitsOf, List.length_map, hl]
  rw [hr, Option.bind_some, e, issnOf, if_pos (by rfl)]
  show completeBook ((digitsOf d ++ digitsOf v ++ _).take 7) = _
  rw [← e7, List.append_assoc, List.take_left]
  exact completeBook_back 7 d c hl hd hc hs

example : ∃ x ms, Ean13.new .release ("977".toList ++ "03178471".toList.take 7 ++ "05".toList) = .ok x ∧
    Ean13.encode .release x = .ok ms ∧ (scanEan13 ms).bind issnOf = some "03178471".toList := ⟨_, _, rfl, rfl, by decide⟩

/-- C99. Conversely every accepted number that begins with 978 is that of exactly one ISBN, and its symbol gives it. -/
theorem C99_every_book (b : Build) (s : List Char) (x : Ean13.EAN13) (ms : List Nat) (h : Ean13.new b s = .ok x)
    (he : Ean13.encode b x = .ok ms) (hp : s.take 3 = "978".toList) :
    ∃ i, Isbn10 i ∧ i.take 9 = (s.drop 3).take 9 ∧ (scanEan13 ms).bind isbnOf = some i ∧
      ∀ j, Isbn10 j → j.take 9 = (s.drop 3).take 9 → j = i := by
  obtain ⟨ms', he', hr⟩ := C02_ean13_scan b s x h
  rw [he, Outcome.ok.injEq] at he'
  subst he'
  rw [ean13_new] at h
  obtain ⟨-, hD, -, hl, -⟩ := decision_ok Ean13.EAN13.mk 12 s x h
  generalize hd0 : (s.drop 3).take 9 = d
  have hd : AllDigits d := by
    intro c hc
    rw [← hd0] at hc
    exact hD c (List.mem_of_mem_drop (List.mem_of_mem_take hc))
  have hlen : d.length = 9 := by
    rw [digitsOf, List.length_take, List.length_map] at hl
    rw [← hd0, List.length_take, List.length_drop]
    omega
  have h12 : s.take 12 = "978".toList ++ d := by rw [← hp, ← hd0, ← List.take_add]
  have key : ∀ r < 11, ∃ e ∈ "0123456789X".toList, bookValue e = r := by decide
  obtain ⟨c, hc, hv⟩ := key ((11 - fallingSum 10 (d.map bookValue) % 11) % 11) (Nat.mod_lt _ (by omega))
  have hc' := (bookChars c).mpr hc
  have hs : fallingSum 10 ((d ++ [c]).map bookValue) % 11 = 0 := by
    rw [List.map_append, List.map_singleton, fallingSum_append, List.length_map, hlen, hv]
    omega
  have hi : Isbn10 (d ++ [c]) := ⟨d, c, rfl, hlen, hd, hc', hs⟩
  have hback := completeBook_back 9 d c hlen hd hc' hs
  refine ⟨d ++ [c], hi, by rw [← hlen, List.take_left], ?_, ?_⟩
  · have e : (digitsOf s).take 12 = 9 :: 7 :: 8 :: digitsOf d := by
      rw [digitsOf, ← List.map_take, h12]; rfl
    have e9 : (digitsOf d).length = 9 := by rw [digitsOf, List.length_map, hlen]
    rw [hr, Option.bind_some, e, isbnOf, if_pos (by rfl)]
    show completeBook ((digitsOf d ++ _).take 9) = _
    rw [← e9, List.take_left, hback]
  · rintro j ⟨d', c', rfl, hl', hd', hcc, hs'⟩ hj
    rw [← hl', List.take_left] at hj
    subst hj
    have := completeBook_back 9 d' c' hl' hd' hcc hs'
    rw [hback, Option.some.injEq] at this
    exact this.symm

example : ∃ x ms, Ean13.new .debug "978080442957".toList = .ok x ∧ Ean13.encode .debug x = .ok ms ∧
    "978080442957".toList.take 3 = "978".toList ∧ (scanEan13 ms).bind isbnOf = some "080442957X".toList :=
  ⟨_, _, rfl, rfl, by decide, by decide⟩

/-- C99. Books are told apart: different ISBNs have different symbols. -/
theorem C99_different_books (b : Build) (s t : List Char) (hs : Isbn10 s) (ht : Isbn10 t) (hne : s ≠ t) (ms mt : List Nat)
    (h1 : Drawn b .ean13 ("978".toList ++ s.take 9) ms) (h2 : Drawn b .ean13 ("978".toList ++ t.take 9) mt) : ms ≠ mt := by
  rintro rfl
  obtain ⟨x, m1, hx, he, hr⟩ := C99_isbn b s hs
  obtain ⟨y, m2, hy, he2, hr2⟩ := C99_isbn b t ht
  obtain ⟨x', hx', he'⟩ := h1
  obtain ⟨y', hy', he2'⟩ := h2
  rw [hx, Outcome.ok.injEq] at hx'
  subst hx'
  rw [hy, Outcome.ok.injEq] at hy'
  subst hy'
  rw [he, Outcome.ok.injEq] at he'
  rw [he2, Outcome.ok.injEq] at he2'
  subst he'
  subst he2'
  rw [hr, Option.some.injEq] at hr2
  exact hne hr2

example : Isbn10 "080442957X".toList := ⟨"080442957".toList, 'X', rfl, rfl, by decide, by decide, by decide⟩
example : ∃ x ms, Ean13.new .debug "978080442957".toList = .ok x ∧ Ean13.encode .debug x = .ok ms ∧
    scanEan13 ms = some [9, 7, 8, 0, 8, 0, 4, 4, 2, 9, 5, 7, 3] ∧ (scanEan13 ms).bind isbnOf = some "080442957X".toList :=
  ⟨_, _, rfl, rfl, by decide, by decide⟩
example : ∃ x ms, Ean13.new .debug "977031784700".toList = .ok x ∧ Ean13.encode .debug x = .ok ms ∧
    (scanEan13 ms).bind issnOf = some "03178471".toList := ⟨_, _, rfl, rfl, by decide⟩

end Barcoders
