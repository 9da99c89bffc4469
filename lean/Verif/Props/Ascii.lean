import Verif.Lemmas.Basic
import Verif.Lemmas.Elements
import Verif.Model.Ascii
import Verif.Spec.AsciiArt

/-!
# ASCII output (C35)
-/

set_option autoImplicit false

namespace Barcoders
open Spec

theorem ascii_row (g : Ascii.ASCII) (bits : List Nat) (h : ∀ b ∈ bits, b = 0 ∨ b = 1) :
    Ascii.generateRow g bits = .ok (asciiRow g.xdim bits) := by
  unfold Ascii.generateRow
  rw [mapO_ok _ (fun b => List.replicate g.xdim (if b = 1 then '#' else ' '))]
  · simp [asciiRow, List.flatMap_def]
  · intro b hb
    rcases h b hb with rfl | rfl <;> rfl

theorem ascii_rows (height : Nat) (row : List Char) (n : Nat) (hn : n < height) :
    (List.range n).foldl (Ascii.pushRows height row) [] = (List.replicate n (row ++ ['\n'])).flatten := by
  induction n with
  | zero => rfl
  | succ n ih =>
    rw [List.range_succ, List.foldl_append, ih (by omega)]
    simp only [List.foldl_cons, List.foldl_nil, Ascii.pushRows]
    rw [if_pos (by omega), List.replicate_succ', List.flatten_append]
    simp

theorem joinLines_replicate (row : List Char) (n : Nat) :
    joinLines (List.replicate (n + 1) row) = (List.replicate n (row ++ ['\n'])).flatten ++ row := by
  induction n with
  | zero => simp [joinLines]
  | succ n ih =>
    rw [List.replicate_succ, List.replicate_succ, joinLines, ← List.replicate_succ, ih]
    · simp [List.replicate_succ]
    · simp

theorem ascii_generate (g : Ascii.ASCII) (row : List Char) :
    (List.range g.height).foldl (Ascii.pushRows g.height row) [] = joinLines (List.replicate g.height row) := by
  cases h : g.height with
  | zero => rfl
  | succ n =>
    rw [joinLines_replicate, List.range_succ, List.foldl_append, ascii_rows (n + 1) row n (by omega)]
    simp only [List.foldl_cons, List.foldl_nil, Ascii.pushRows]
    rw [if_neg (by omega)]

/-- C35: the output, for every height, xdim and 0/1 slice. -/
theorem C35_ascii_output (g : Ascii.ASCII) (bits : List Nat) (h : ∀ b ∈ bits, b = 0 ∨ b = 1) :
    Ascii.generate g bits = .ok (joinLines (List.replicate g.height (asciiRow g.xdim bits))) := by
  unfold Ascii.generate
  rw [ascii_row g bits h, Outcome.ok_bind, ascii_generate]

example : (∀ b ∈ [1, 0, 1], b = 0 ∨ b = 1) ∧
    joinLines (List.replicate 2 (asciiRow 3 [1, 0, 1])) = "###   ###\n###   ###".toList := by decide

theorem mapO_panic {α β : Type} (f : α → Outcome β) (l : List α) (p : Panic)
    (h : ∀ a ∈ l, (∃ b, f a = .ok b) ∨ f a = .panic p) (he : ∃ a ∈ l, f a = .panic p) : mapO f l = .panic p := by
  induction l with
  | nil => obtain ⟨a, ha, _⟩ := he; cases ha
  | cons a l ih =>
    rw [mapO]
    rcases h a (by simp) with ⟨b, hb⟩ | hb
    · rw [hb, Outcome.ok_bind, ih (fun c hc => h c (by simp [hc]))]
      · rfl
      · obtain ⟨c, hc, hp⟩ := he
        rw [List.mem_cons] at hc
        rcases hc with rfl | hc
        · rw [hb] at hp; cases hp
        · exact ⟨c, hc, hp⟩
    · rw [hb]; rfl

/-- C35: it panics exactly when some value exceeds 1, and never returns an error. -/
theorem C35_ascii_panics_iff (g : Ascii.ASCII) (bits : List Nat) :
    ((∃ p, Ascii.generate g bits = .panic p) ↔ ∃ b ∈ bits, 1 < b) ∧ (∀ e, Ascii.generate g bits ≠ .err e) := by
  by_cases h : ∃ b ∈ bits, 1 < b
  · have hp : Ascii.generate g bits = .panic .bounds := by
      unfold Ascii.generate Ascii.generateRow
      rw [mapO_panic _ bits .bounds]
      · rfl
      · intro b _
        by_cases hb : b < 2
        · left
          rw [idx_ok Ascii.CHARS b hb]
          exact ⟨_, rfl⟩
        · right
          rw [idx_panic Ascii.CHARS b (by have : Ascii.CHARS.length = 2 := rfl; omega)]
          rfl
      · obtain ⟨b, hb, h1⟩ := h
        refine ⟨b, hb, ?_⟩
        rw [idx_panic Ascii.CHARS b (by have : Ascii.CHARS.length = 2 := rfl; omega)]
        rfl
    rw [hp]
    exact ⟨⟨fun _ => h, fun _ => ⟨_, rfl⟩⟩, by simp⟩
  · have hb : ∀ b ∈ bits, b = 0 ∨ b = 1 := by
      intro b hb
      have : ¬ 1 < b := fun h1 => h ⟨b, hb, h1⟩
      omega
    rw [C35_ascii_output g bits hb]
    exact ⟨⟨fun ⟨p, hp⟩ => (by cases hp), fun h' => absurd h' h⟩, by simp⟩

example : (∃ b ∈ [1, 0, 2], 1 < b) ∧ Ascii.generate ⟨1, 1⟩ [1, 0, 2] = .panic .bounds := by decide

theorem splitLines_line (l : List Char) (h : '\n' ∉ l) : splitLines l = [l] := by
  induction l with
  | nil => rfl
  | cons c l ih =>
    have hc : c ≠ '\n' := by rintro rfl; simp at h
    rw [splitLines, if_neg hc, ih (fun h' => h (by simp [h']))]

theorem splitLines_append (l rest : List Char) (h : '\n' ∉ l) :
    splitLines (l ++ '\n' :: rest) = l :: splitLines rest := by
  induction l with
  | nil => simp [splitLines]
  | cons c l ih =>
    have hc : c ≠ '\n' := by rintro rfl; simp at h
    rw [List.cons_append, splitLines, if_neg hc, ih (fun h' => h (by simp [h']))]

theorem splitLines_join (l : List Char) (n : Nat) (h : '\n' ∉ l) :
    splitLines (joinLines (List.replicate (n + 1) l)) = List.replicate (n + 1) l := by
  induction n with
  | zero => simp [joinLines, splitLines_line l h]
  | succ n ih =>
    rw [List.replicate_succ, List.replicate_succ, joinLines, splitLines_append _ _ h, ← List.replicate_succ, ih]
    simp

theorem asciiRow_no_newline (x : Nat) (bits : List Nat) : '\n' ∉ asciiRow x bits := by
  intro h
  rw [asciiRow, List.mem_flatMap] at h
  obtain ⟨b, _, h⟩ := h
  rw [List.mem_replicate] at h
  have := h.2
  split at this <;> revert this <;> decide

theorem asciiRow_cells (x : Nat) (bits : List Nat) (h : ∀ b ∈ bits, b = 0 ∨ b = 1) :
    (asciiRow x bits).mapM readCell = some (bits.flatMap (List.replicate x)) := by
  have hm : ∀ (l : List Char) (f : Char → Nat), (∀ c ∈ l, readCell c = some (f c)) → l.mapM readCell = some (l.map f) := by
    intro l f
    induction l with
    | nil => intro _; rfl
    | cons c l ih =>
      intro hc
      rw [List.mapM_cons, hc c (by simp), ih (fun d hd => hc d (by simp [hd]))]
      rfl
  rw [hm _ (fun c => if c = '#' then 1 else 0)]
  · congr 1
    rw [asciiRow, List.map_flatMap]
    induction bits with
    | nil => rfl
    | cons b bits ih =>
      rw [List.flatMap_cons, List.flatMap_cons, ih (fun b hb => h b (by simp [hb]))]
      congr 1
      rw [List.map_replicate]
      rcases h b (by simp) with rfl | rfl <;> rfl
  · intro c hc
    rw [asciiRow, List.mem_flatMap] at hc
    obtain ⟨b, _, hc⟩ := hc
    rw [List.mem_replicate] at hc
    rw [hc.2]
    split <;> rfl

theorem readAll_uniform (x : Nat) (hx : 0 < x) (bits : List Nat) :
    readAll x uniform (bits.flatMap (List.replicate x)) = some bits := by
  have := readAll_flatMap x hx uniform (List.replicate x) id bits (by
    intro b _
    refine ⟨by simp, ?_⟩
    cases x with
    | zero => omega
    | succ n => simp [List.replicate_succ, uniform])
  rw [this, List.map_id]

/-- C35: from the output, the height and xdim the modules can be read back. -/
theorem C35_ascii_read (g : Ascii.ASCII) (bits : List Nat) (h : ∀ b ∈ bits, b = 0 ∨ b = 1) (hh : 0 < g.height)
    (hx : 0 < g.xdim) :
    ∃ out, Ascii.generate g bits = .ok out ∧ readAscii g.height g.xdim out = some bits := by
  refine ⟨_, C35_ascii_output g bits h, ?_⟩
  obtain ⟨n, hn⟩ : ∃ n, g.height = n + 1 := ⟨g.height - 1, by omega⟩
  rw [readAscii, hn, splitLines_join _ n (asciiRow_no_newline _ _), List.replicate_succ]
  simp only [List.length_replicate]
  rw [if_pos ⟨trivial, by simp⟩, asciiRow_cells _ _ h, Option.bind_some, readAll_uniform _ hx]

example : Ascii.generate ⟨2, 3⟩ [1, 0, 1] = .ok "###   ###\n###   ###".toList := by decide
example : readAscii 2 3 "###   ###\n###   ###".toList = some [1, 0, 1] := by decide
example : Ascii.generate ⟨2, 3⟩ [1, 2, 1] = .panic .bounds := by decide
example : Ascii.generate ⟨0, 3⟩ [1, 0, 1] = .ok [] := by decide

end Barcoders
