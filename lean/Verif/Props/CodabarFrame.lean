import Verif.Spec.CodabarFrame
import Verif.Props.InkSpread
import Verif.Props.ExactCodabar

/-!
# C93: framed Codabar symbols
-/

set_option autoImplicit false

namespace Barcoders
open Spec

theorem codabarSym_gap (us : List Codabar.Unit) (u : Codabar.Unit) :
    (codabarSymWidths us u).reverse ++ [1] = (us ++ [u]).reverse.flatMap (fun u => (wU u).reverse ++ [1]) := by
  induction us with
  | nil => simp [codabarSymWidths]
  | cons v us ih =>
    rw [codabarSymWidths] at ih
    rw [codabarSymWidths, List.flatMap_cons, List.append_assoc, List.reverse_append, List.reverse_append, List.cons_append,
      List.reverse_cons, List.flatMap_append, ← ih]
    simp

/-- No start or stop letter is another character turned round, in neither of the charts. -/
theorem letters_mirror : ∀ c ∈ codabarLetters, readCodabarChar ((wU (unitOf c)).reverse ++ [1]) = none ∧
    readOwnCodabarChar ((wU (unitOf c)).reverse ++ [1]) = none := by decide

/-- A symbol with a start or stop letter cannot be read from the right. -/
theorem codabar_backwards (s : List Char) (ms : List Nat) (b : Build) (h : Drawn b .codabar s ms)
    (hl : ∃ c ∈ s, c ∈ codabarLetters) : scanCodabar ms.reverse = none ∧ scanOwnCodabar ms.reverse = none := by
  obtain ⟨x, hx, rfl⟩ := h
  obtain ⟨cs, c, rfl, hA, e⟩ := codabar_symbol s x hx
  have hlen : (codabarSymWidths (cs.map unitOf) (unitOf c)).length % 2 = 1 := by
    have : ((cs.map unitOf).flatMap (fun u => wU u ++ [1])).length = 8 * (cs.map unitOf).length :=
      flatMap_length 8 _ _ (fun u _ => by rw [List.length_append, (wU_spec u).2.1]; rfl)
    rw [codabarSymWidths, List.length_append, this, (wU_spec _).2.1]
    omega
  have hpos := fun w h => (codabar_widths_pos (cs.map unitOf) (unitOf c) w h).1
  have hne : codabarSymWidths (cs.map unitOf) (unitOf c) ≠ [] := by intro h0; rw [h0] at hlen; simp at hlen
  have hel : elements (Codabar.encode x).reverse = some (codabarSymWidths (cs.map unitOf) (unitOf c)).reverse := by
    rw [e, paint_reverse_odd _ hlen, elements_paint _ (fun w h => hpos w (List.mem_reverse.mp h)) (by simpa using hne)]
  obtain ⟨a, ha, hal⟩ := hl
  have hmem : unitOf a ∈ ((cs.map unitOf) ++ [unitOf c]).reverse := by
    rw [List.mem_reverse, ← List.map_singleton (f := unitOf), ← List.map_append]
    exact List.mem_map_of_mem ha
  have h8 : ∀ u ∈ ((cs.map unitOf) ++ [unitOf c]).reverse, ((wU u).reverse ++ [1]).length = 8 := by
    intro u _
    rw [List.length_append, List.length_reverse, (wU_spec u).2.1]; rfl
  obtain ⟨m1, m2⟩ := letters_mirror a hal
  constructor
  · rw [scanCodabar, hel]
    simp only [Option.bind_eq_bind, Option.bind_some]
    rw [codabarSym_gap]
    exact readAll_none 8 (by omega) _ _ _ h8 (unitOf a) hmem m1
  · rw [scanOwnCodabar, hel]
    simp only [Option.bind_eq_bind, Option.bind_some]
    rw [codabarSym_gap]
    exact readAll_none 8 (by omega) _ _ _ h8 (unitOf a) hmem m2

theorem core_plain {α : Type} (b : Build) (k : Kind) (s : List Char) (ms : List Nat) (h : Drawn b k s ms)
    (hl : ms.getLast? = some 1) (scan : List Nat → Option α) (t : α) (hs : scan ms = some t)
    (hn : scan ms.reverse = none) : HasCore scan ms t := by
  obtain ⟨ws, rfl, hne, hp, h1, h0⟩ := drawn_narrow b k s ms h
  exact ⟨ws, 0, by simp, odd_of_last ws hp hl, hp, h1, h0, hs, hn⟩

/-- C93. Any text with a start or stop letter, for a reader held either way: a standard reader gets the text up to the
exchange of `B` and `C`, unless there is a `+`; a reader with the library's own chart gets the text. -/
theorem C93_codabar_letters (b : Build) (s : List Char) (ms : List Nat) (h : Drawn b .codabar s ms)
    (hl : ∃ c ∈ s, c ∈ codabarLetters) :
    ('+' ∉ s → Readable scanCodabar ms (s.map fun c => if c = 'B' then 'C' else if c = 'C' then 'B' else c) ∧
      ReadableInked scanCodabar ms (s.map fun c => if c = 'B' then 'C' else if c = 'C' then 'B' else c)) ∧
    Readable scanOwnCodabar ms s ∧ ReadableInked scanOwnCodabar ms s := by
  obtain ⟨n1, n2⟩ := codabar_backwards s ms b h hl
  obtain ⟨x, hx, e⟩ := h
  have hrow := C32_codabar_row s x hx
  have h1 := C54_codabar_scan s x hx
  have h2 := C54_codabar_own_scan s x hx
  rw [e] at hrow h1 h2
  refine ⟨fun hp => ?_, ?_⟩
  · rw [if_neg hp] at h1
    have c := core_plain b .codabar s ms ⟨x, hx, e⟩ hrow.last scanCodabar _ h1 n1
    exact ⟨readable_of c, inked_of c⟩
  · have c := core_plain b .codabar s ms ⟨x, hx, e⟩ hrow.last scanOwnCodabar _ h2 n2
    exact ⟨readable_of c, inked_of c⟩

example : ∃ ms, Drawn .debug .codabar "A401B".toList ms ∧ handScan scanCodabar (onPaper 5 2 3 ms).reverse = some "A401C".toList ∧
    handScan scanOwnCodabar (onPaper 5 2 3 ms).reverse = some "A401B".toList :=
  ⟨_, ⟨_, rfl, rfl⟩, by decide +kernel, by decide +kernel⟩

theorem core_codabar_data (b : Build) (a z : Char) (d : List Char) (ms : List Nat) (ha : a ∈ codabarLetters)
    (hz : z ∈ codabarLetters) (hd : ∀ c ∈ d, c ∉ codabarLetters) (hp : '+' ∉ d) (h : Drawn b .codabar (a :: d ++ [z]) ms) :
    HasCore scanCodabarData ms d := by
  have hl : ∃ c ∈ a :: d ++ [z], c ∈ codabarLetters := ⟨a, by simp, ha⟩
  obtain ⟨n1, -⟩ := codabar_backwards _ ms b h hl
  obtain ⟨x, hx, e⟩ := h
  have hrow := C32_codabar_row _ x hx
  have h1 := C54_codabar_scan _ x hx
  rw [e] at hrow h1
  have hpl : ∀ c ∈ codabarLetters, c ≠ '+' ∧ (if c = 'B' then 'C' else if c = 'C' then 'B' else c) ∈ codabarLetters := by decide
  rw [if_neg (by
    intro hm
    rw [List.cons_append, List.mem_cons, List.mem_append, List.mem_singleton] at hm
    rcases hm with hm | hm | hm
    · exact (hpl a ha).1 hm.symm
    · exact hp hm
    · exact (hpl z hz).1 hm.symm)] at h1
  have hdata : (d.map fun c => if c = 'B' then 'C' else if c = 'C' then 'B' else c) = d := by
    conv => rhs; rw [← List.map_id d]
    apply List.map_congr_left
    intro c hc
    have h1 : c ≠ 'B' := by rintro rfl; exact hd _ hc (by decide)
    have h2 : c ≠ 'C' := by rintro rfl; exact hd _ hc (by decide)
    rw [if_neg h1, if_neg h2]; rfl
  have hs : scanCodabarData ms = some d := by
    rw [scanCodabarData, h1, Option.bind_some, List.cons_append, List.map_cons, List.map_append, hdata, List.map_singleton,
      codabarData, List.getLast?_concat]
    simp only [List.dropLast_concat]
    rw [if_pos ⟨(hpl a ha).2, (hpl z hz).2, hd⟩]
  exact core_plain b .codabar _ ms ⟨x, hx, e⟩ hrow.last scanCodabarData d hs (by rw [scanCodabarData, n1]; rfl)

/-- C93. Data framed as the standard demands: a standard reader held either way gets exactly the data, unless there is a `+`.
The exchange of `B` and `C` does not touch it. -/
theorem C93_codabar_data (b : Build) (a z : Char) (d : List Char) (ms : List Nat) (ha : a ∈ codabarLetters)
    (hz : z ∈ codabarLetters) (hd : ∀ c ∈ d, c ∉ codabarLetters) (hp : '+' ∉ d) (h : Drawn b .codabar (a :: d ++ [z]) ms) :
    Readable scanCodabarData ms d ∧ ReadableInked scanCodabarData ms d := by
  have c := core_codabar_data b a z d ms ha hz hd hp h
  exact ⟨readable_of c, inked_of c⟩

example : ∃ ms, Drawn .debug .codabar ('A' :: "40-1".toList ++ ['D']) ms ∧
    handScan scanCodabarData (onPaper 5 2 3 ms) = some "40-1".toList := ⟨_, ⟨_, rfl, rfl⟩, by decide +kernel⟩

/-- C93. Without the letters the direction is lost: `00`, turned round, is the symbol of `33`. -/
theorem C93_letters_needed : ∃ m n, Drawn .debug .codabar "00".toList m ∧ Drawn .debug .codabar "33".toList n ∧ m.reverse = n ∧
    handScan scanCodabar m.reverse = some "33".toList :=
  ⟨_, _, ⟨_, rfl, rfl⟩, ⟨_, rfl, rfl⟩, by decide +kernel, by decide +kernel⟩

/-- A library card, held upside down, the ink running by one of two cells. -/
example : ∃ ms, Drawn .debug .codabar "B401-7C".toList ms ∧
    handScan scanCodabarData (onPaper 5 2 3 ms).reverse = some "401-7".toList ∧
    spreadScan scanCodabarData (smear 1 (onPaper 5 2 3 ms)).reverse = some "401-7".toList :=
  ⟨_, ⟨_, rfl, rfl⟩, by decide +kernel, by decide +kernel⟩

end Barcoders
