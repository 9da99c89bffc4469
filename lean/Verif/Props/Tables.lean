import Verif.Spec.Tables
import Verif.Lemmas.Symbols
set_option autoImplicit false

/-! C117: the public tables and guards of `ean13` and `upca`. -/

namespace Barcoders
open Spec

/-- C117. The published tables are those of the standard: set 0 of `ean13::ENCODINGS` has the widths of number set A, beginning
light, set 1 the same widths in reverse order (set B), set 2 the same widths beginning dark (set C). `upca::ENCODINGS` has the
sets A and C, and the guards are the same in both. -/
theorem C117_tables :
    (∀ d < 10, tableEntry Ean13.ENCODINGS 0 d = modulesOf 0 (eanWidths.getD d []) ∧
      tableEntry Ean13.ENCODINGS 1 d = modulesOf 0 (eanWidths.getD d []).reverse ∧
      tableEntry Ean13.ENCODINGS 2 d = modulesOf 1 (eanWidths.getD d []) ∧
      tableEntry Upca.ENCODINGS 0 d = tableEntry Ean13.ENCODINGS 0 d ∧
      tableEntry Upca.ENCODINGS 1 d = tableEntry Ean13.ENCODINGS 2 d) ∧
    Ean13.LEFT_GUARD = modulesOf 1 [1, 1, 1] ∧ Ean13.MIDDLE_GUARD = modulesOf 0 [1, 1, 1, 1, 1] ∧
    Ean13.RIGHT_GUARD = modulesOf 1 [1, 1, 1] ∧
    Upca.LEFT_GUARD = Ean13.LEFT_GUARD ∧ Upca.MIDDLE_GUARD = Ean13.MIDDLE_GUARD ∧ Upca.RIGHT_GUARD = Ean13.RIGHT_GUARD := by
  decide

/-- C117. No pattern stands twice in a table, so looking one up finds its set and its digit. -/
theorem C117_look_up :
    (∀ set < 3, ∀ d < 10, lookUp Ean13.ENCODINGS (tableEntry Ean13.ENCODINGS set d) = some (set, d)) ∧
    (∀ set < 2, ∀ d < 10, lookUp Upca.ENCODINGS (tableEntry Upca.ENCODINGS set d) = some (set, d)) := by
  decide +kernel

example : lookUp Ean13.ENCODINGS [0, 1, 0, 0, 1, 1, 1] = some (1, 0) ∧ lookUp Upca.ENCODINGS [0, 1, 0, 0, 1, 1, 1] = none := by
  decide

theorem entry_left : ∀ d < 10, ∀ p : Bool, paintFrom 0 (wAB (p, d)) = tableEntry Ean13.ENCODINGS (if p then 1 else 0) d := by decide
theorem entry_a : ∀ d < 10, paintFrom 0 (wA d) = tableEntry Ean13.ENCODINGS 0 d ∧ paintFrom 0 (wA d) = tableEntry Upca.ENCODINGS 0 d := by
  decide
theorem entry_c : ∀ d < 10, paintFrom 1 (wA d) = tableEntry Ean13.ENCODINGS 2 d ∧ paintFrom 1 (wA d) = tableEntry Upca.ENCODINGS 1 d := by
  decide
theorem entry_length : (∀ set < 3, ∀ d < 10, (tableEntry Ean13.ENCODINGS set d).length = 7) ∧
    ∀ set < 2, ∀ d < 10, (tableEntry Upca.ENCODINGS set d).length = 7 := by decide

theorem flatMap_congr_mem {α β : Type} (f g : α → List β) (l : List α) (h : ∀ a ∈ l, f a = g a) : l.flatMap f = l.flatMap g := by
  induction l with
  | nil => rfl
  | cons a l ih => rw [List.flatMap_cons, List.flatMap_cons, h a (by simp), ih (fun x hx => h x (by simp [hx]))]

/-- C117. Every EAN-13 symbol is put together from the published constants: guards, the left digits from sets 0 and 1 as the
leading digit asks, the right digits from set 2. -/
theorem C117_ean13 (b b' : Build) (s : List Char) (x : Ean13.EAN13) (h : Ean13.new b s = .ok x) :
    ∃ d0 ls rs, d0 :: (ls ++ rs) = (digitsOf s).take 12 ++ [gs1Digit ((digitsOf s).take 12)] ∧ ls.length = 6 ∧ rs.length = 6 ∧
      Ean13.encode b' x = .ok (Ean13.LEFT_GUARD ++
        ((ean13Sets.getD d0 []).zip ls).flatMap (fun p => tableEntry Ean13.ENCODINGS (if p.1 then 1 else 0) p.2) ++
        Ean13.MIDDLE_GUARD ++ rs.flatMap (tableEntry Ean13.ENCODINGS 2) ++ Ean13.RIGHT_GUARD) := by
  obtain ⟨d0, ls, rs, -, hls, hrs, ll, lr, hd, he⟩ := ean13_symbol b s x h
  refine ⟨d0, ls, rs, hd, ll, lr, ?_⟩
  have hz := zip_snd_lt (setsOf d0) ls hls
  rw [he b', ean13Widths, paint_halves _ _ (by rw [wAB_length_of _ hz]; omega) (by rw [wA_length_of _ hrs]; omega),
    paintFrom_flatMap 0 (by omega) wAB _ (fun p hp => by rw [(wAB_spec p.2 (hz p hp) p.1).1]),
    paintFrom_flatMap 1 (by omega) wA _ (fun d hd => by rw [(wA_spec d (hrs d hd)).1]),
    flatMap_congr_mem _ _ _ (fun p hp => entry_left p.2 (hz p hp) p.1),
    flatMap_congr_mem _ _ _ (fun d hd => (entry_c d (hrs d hd)).1)]
  rfl

/-- C117. The same for EAN-8, with sets 0 and 2 of `ean13::ENCODINGS`. -/
theorem C117_ean8 (b b' : Build) (s : List Char) (x : Ean8.EAN8) (h : Ean8.new b s = .ok x) :
    ∃ ls rs, ls ++ rs = (digitsOf s).take 7 ++ [gs1Digit ((digitsOf s).take 7)] ∧ ls.length = 4 ∧ rs.length = 4 ∧
      Ean8.encode b' x = .ok (Ean13.LEFT_GUARD ++ ls.flatMap (tableEntry Ean13.ENCODINGS 0) ++ Ean13.MIDDLE_GUARD ++
        rs.flatMap (tableEntry Ean13.ENCODINGS 2) ++ Ean13.RIGHT_GUARD) := by
  obtain ⟨ls, rs, hls, hrs, ll, lr, hd, he⟩ := ean8_symbol b s x h
  refine ⟨ls, rs, hd, ll, lr, ?_⟩
  rw [he b', paint_halves _ _ (by rw [wA_length_of _ hls]; omega) (by rw [wA_length_of _ hrs]; omega),
    paintFrom_flatMap 0 (by omega) wA _ (fun d hd => by rw [(wA_spec d (hls d hd)).1]),
    paintFrom_flatMap 1 (by omega) wA _ (fun d hd => by rw [(wA_spec d (hrs d hd)).1]),
    flatMap_congr_mem _ _ _ (fun d hd => (entry_a d (hls d hd)).1),
    flatMap_congr_mem _ _ _ (fun d hd => (entry_c d (hrs d hd)).1)]
  rfl

/-- C117. The same for UPC-A, with `upca::ENCODINGS`. -/
theorem C117_upca (b b' : Build) (s : List Char) (x : Upca.UPCA) (h : Upca.new b s = .ok x) :
    ∃ ls rs, ls ++ rs = (digitsOf s).take 11 ++ [gs1Digit ((digitsOf s).take 11)] ∧ ls.length = 6 ∧ rs.length = 6 ∧
      Upca.encode b' x = .ok (Upca.LEFT_GUARD ++ ls.flatMap (tableEntry Upca.ENCODINGS 0) ++ Upca.MIDDLE_GUARD ++
        rs.flatMap (tableEntry Upca.ENCODINGS 1) ++ Upca.RIGHT_GUARD) := by
  obtain ⟨ls, rs, hls, hrs, ll, lr, hd, he⟩ := upca_symbol b s x h
  refine ⟨ls, rs, hd, ll, lr, ?_⟩
  rw [he b', paint_halves _ _ (by rw [wA_length_of _ hls]; omega) (by rw [wA_length_of _ hrs]; omega),
    paintFrom_flatMap 0 (by omega) wA _ (fun d hd => by rw [(wA_spec d (hls d hd)).1]),
    paintFrom_flatMap 1 (by omega) wA _ (fun d hd => by rw [(wA_spec d (hrs d hd)).1]),
    flatMap_congr_mem _ _ _ (fun d hd => (entry_a d (hls d hd)).2),
    flatMap_congr_mem _ _ _ (fun d hd => (entry_c d (hrs d hd)).2)]
  rfl

theorem cells_of {α : Type} (f : α → List Nat) (pre post : List Nat) (l : List α) (h : ∀ a ∈ l, (f a).length = 7) :
    cellsFrom pre.length l.length (pre ++ l.flatMap f ++ post) = l.map f := by
  apply List.ext_getElem?
  intro i
  rw [cellsFrom, List.getElem?_map, List.getElem?_map]
  by_cases hi : i < l.length
  · rw [List.getElem?_range hi, List.getElem?_eq_getElem hi]
    simp only [Option.map_some, Option.some.injEq]
    have key : ∀ (l : List α) (i : Nat) (hi : i < l.length), (∀ a ∈ l, (f a).length = 7) →
        ((l.flatMap f ++ post).drop (7 * i)).take 7 = f l[i] := by
      intro l
      induction l with
      | nil => intro i hi; simp at hi
      | cons a l ih =>
        intro i hi h
        have ha := h a (by simp)
        cases i with
        | zero => rw [List.flatMap_cons, List.append_assoc, Nat.mul_zero, List.drop_zero, List.take_left' ha]; rfl
        | succ i =>
          rw [List.flatMap_cons, List.append_assoc, show 7 * (i + 1) = (f a).length + 7 * i by omega, List.drop_append]
          have : ((f a).drop ((f a).length + 7 * i)) = [] := List.drop_eq_nil_of_le (by omega)
          rw [this, List.nil_append, Nat.add_sub_cancel_left]
          exact ih i (by simpa using hi) (fun x hx => h x (by simp [hx]))
    rw [List.append_assoc, List.drop_append, List.drop_eq_nil_of_le (by omega), List.nil_append, Nat.add_sub_cancel_left]
    exact key l i hi h
  · rw [List.getElem?_eq_none (by simpa using hi), List.getElem?_eq_none (by omega)]
    rfl

theorem map_lookUp {α : Type} (table : List (List (List Nat))) (f : α → List Nat) (g : α → Nat × Nat) (l : List α)
    (h : ∀ a ∈ l, lookUp table (f a) = some (g a)) : (l.map f).map (lookUp table) = l.map (fun a => some (g a)) := by
  rw [List.map_map]
  exact List.map_congr_left h

/-- C117. So an EAN-13 row can be read with the published table alone: the twelve cells stand in it, their digits are the last
twelve of the number, and their sets tell the leading digit. -/
theorem C117_read_ean13 (b b' : Build) (s : List Char) (x : Ean13.EAN13) (h : Ean13.new b s = .ok x) (ms : List Nat)
    (he : Ean13.encode b' x = .ok ms) :
    ∃ d0 ls rs, d0 :: (ls ++ rs) = (digitsOf s).take 12 ++ [gs1Digit ((digitsOf s).take 12)] ∧
      (cellsFrom 3 6 ms).map (lookUp Ean13.ENCODINGS) =
        ((ean13Sets.getD d0 []).zip ls).map (fun p => some (if p.1 then 1 else 0, p.2)) ∧
      (cellsFrom 50 6 ms).map (lookUp Ean13.ENCODINGS) = rs.map (fun d => some (2, d)) ∧
      ∀ d < 10, ean13Sets.getD d [] = ean13Sets.getD d0 [] → d = d0 := by
  obtain ⟨d0, ls, rs, h0', hls', hrs', ll', lr', hd', -⟩ := ean13_symbol b s x h
  obtain ⟨d1, ls1, rs1, hd, ll, lr, he'⟩ := C117_ean13 b b' s x h
  have e := hd'.trans hd.symm
  rw [List.cons.injEq] at e
  obtain ⟨e1, e2⟩ := List.append_inj e.2 (by omega)
  have e0 := e.1
  subst e0 e1 e2
  rw [he', Outcome.ok.injEq] at he
  have hz := zip_snd_lt (setsOf d0) ls hls'
  have hzl : ((ean13Sets.getD d0 []).zip ls).length = 6 := by
    have := (parity_spec d0 h0').2.2.2.2.2
    rw [setsOf] at this
    rw [List.length_zip, this, ll]
    rfl
  have hf : ∀ p ∈ (ean13Sets.getD d0 []).zip ls, (tableEntry Ean13.ENCODINGS (if p.1 then 1 else 0) p.2).length = 7 := fun p hp =>
    entry_length.1 _ (by split <;> omega) _ (hz p hp)
  have hg : ∀ d ∈ rs, (tableEntry Ean13.ENCODINGS 2 d).length = 7 := fun d hd => entry_length.1 2 (by omega) d (hrs' d hd)
  have c1 := cells_of _ Ean13.LEFT_GUARD
    (Ean13.MIDDLE_GUARD ++ (rs.flatMap (tableEntry Ean13.ENCODINGS 2) ++ Ean13.RIGHT_GUARD)) _ hf
  have c2 := cells_of _ (Ean13.LEFT_GUARD ++
    ((ean13Sets.getD d0 []).zip ls).flatMap (fun p => tableEntry Ean13.ENCODINGS (if p.1 then 1 else 0) p.2) ++ Ean13.MIDDLE_GUARD)
    Ean13.RIGHT_GUARD _ hg
  have hlen : (Ean13.LEFT_GUARD ++
    ((ean13Sets.getD d0 []).zip ls).flatMap (fun p => tableEntry Ean13.ENCODINGS (if p.1 then 1 else 0) p.2) ++
      Ean13.MIDDLE_GUARD).length = 50 := by
    rw [List.length_append, List.length_append, flatMap_length 7 _ _ hf, hzl]
    rfl
  rw [hlen, lr, he] at c2
  rw [hzl, show Ean13.LEFT_GUARD.length = 3 from rfl] at c1
  rw [← List.append_assoc, ← List.append_assoc, he] at c1
  refine ⟨d0, ls, rs, hd, ?_, ?_, ?_⟩
  · rw [c1]
    exact map_lookUp _ _ (fun p => (if p.1 then 1 else 0, p.2)) _ (fun p hp => C117_look_up.1 _ (by split <;> omega) _ (hz p hp))
  · rw [c2]
    exact map_lookUp _ _ (fun d => (2, d)) _ (fun d hd => C117_look_up.1 2 (by omega) d (hrs' d hd))
  · exact (by decide : ∀ d0 < 10, ∀ d < 10, ean13Sets.getD d [] = ean13Sets.getD d0 [] → d = d0) d0 h0'

theorem read_halves (table : List (List (List Nat))) (g m g' : List Nat) (c n : Nat) (ls rs : List Nat) (hls : Digits ls)
    (hrs : Digits rs) (ll : ls.length = n) (lr : rs.length = n) (hg : g.length = 3) (hm : m.length = 5)
    (hlen : ∀ d < 10, (tableEntry table 0 d).length = 7 ∧ (tableEntry table c d).length = 7)
    (hlook : ∀ d < 10, lookUp table (tableEntry table 0 d) = some (0, d) ∧ lookUp table (tableEntry table c d) = some (c, d)) :
    (cellsFrom 3 n (g ++ ls.flatMap (tableEntry table 0) ++ m ++ rs.flatMap (tableEntry table c) ++ g')).map (lookUp table) =
      ls.map (fun d => some (0, d)) ∧
    (cellsFrom (8 + 7 * n) n (g ++ ls.flatMap (tableEntry table 0) ++ m ++ rs.flatMap (tableEntry table c) ++ g')).map
      (lookUp table) = rs.map (fun d => some (c, d)) := by
  have hf : ∀ d ∈ ls, (tableEntry table 0 d).length = 7 := fun d hd => (hlen d (hls d hd)).1
  have hf' : ∀ d ∈ rs, (tableEntry table c d).length = 7 := fun d hd => (hlen d (hrs d hd)).2
  have c1 := cells_of _ g (m ++ (rs.flatMap (tableEntry table c) ++ g')) _ hf
  have c2 := cells_of _ (g ++ ls.flatMap (tableEntry table 0) ++ m) g' _ hf'
  have hl : (g ++ ls.flatMap (tableEntry table 0) ++ m).length = 8 + 7 * n := by
    rw [List.length_append, List.length_append, flatMap_length 7 _ _ hf, ll]
    omega
  rw [hl, lr] at c2
  rw [hg, ll, ← List.append_assoc, ← List.append_assoc] at c1
  rw [c1, c2]
  exact ⟨map_lookUp _ _ (fun d => (0, d)) _ (fun d hd => (hlook d (hls d hd)).1),
    map_lookUp _ _ (fun d => (c, d)) _ (fun d hd => (hlook d (hrs d hd)).2)⟩

/-- C117. EAN-8 and UPC-A rows are read in the same way. -/
theorem C117_read_halves (b b' : Build) (s : List Char) (ms : List Nat) :
    (∀ x, Ean8.new b s = .ok x → Ean8.encode b' x = .ok ms →
      ∃ ls rs, ls ++ rs = (digitsOf s).take 7 ++ [gs1Digit ((digitsOf s).take 7)] ∧
        (cellsFrom 3 4 ms).map (lookUp Ean13.ENCODINGS) = ls.map (fun d => some (0, d)) ∧
        (cellsFrom 36 4 ms).map (lookUp Ean13.ENCODINGS) = rs.map (fun d => some (2, d))) ∧
    (∀ x, Upca.new b s = .ok x → Upca.encode b' x = .ok ms →
      ∃ ls rs, ls ++ rs = (digitsOf s).take 11 ++ [gs1Digit ((digitsOf s).take 11)] ∧
        (cellsFrom 3 6 ms).map (lookUp Upca.ENCODINGS) = ls.map (fun d => some (0, d)) ∧
        (cellsFrom 50 6 ms).map (lookUp Upca.ENCODINGS) = rs.map (fun d => some (1, d))) := by
  constructor
  · intro x hx he
    obtain ⟨ls', rs', hls, hrs, ll', lr', hd', -⟩ := ean8_symbol b s x hx
    obtain ⟨ls, rs, hd, ll, lr, he'⟩ := C117_ean8 b b' s x hx
    obtain ⟨rfl, rfl⟩ := List.append_inj (hd'.trans hd.symm) (by omega)
    rw [he', Outcome.ok.injEq] at he
    subst he
    exact ⟨_, _, hd, read_halves Ean13.ENCODINGS Ean13.LEFT_GUARD Ean13.MIDDLE_GUARD Ean13.RIGHT_GUARD 2 4 _ _ hls hrs ll lr rfl rfl
      (fun d h => ⟨entry_length.1 0 (by omega) d h, entry_length.1 2 (by omega) d h⟩)
      (fun d h => ⟨C117_look_up.1 0 (by omega) d h, C117_look_up.1 2 (by omega) d h⟩)⟩
  · intro x hx he
    obtain ⟨ls', rs', hls, hrs, ll', lr', hd', -⟩ := upca_symbol b s x hx
    obtain ⟨ls, rs, hd, ll, lr, he'⟩ := C117_upca b b' s x hx
    obtain ⟨rfl, rfl⟩ := List.append_inj (hd'.trans hd.symm) (by omega)
    rw [he', Outcome.ok.injEq] at he
    subst he
    exact ⟨_, _, hd, read_halves Upca.ENCODINGS Upca.LEFT_GUARD Upca.MIDDLE_GUARD Upca.RIGHT_GUARD 1 6 _ _ hls hrs ll lr rfl rfl
      (fun d h => ⟨entry_length.2 0 (by omega) d h, entry_length.2 1 (by omega) d h⟩)
      (fun d h => ⟨C117_look_up.2 0 (by omega) d h, C117_look_up.2 1 (by omega) d h⟩)⟩

example : ∃ ms, (Ean13.new .debug "750103131130".toList >>= Ean13.encode .debug) = .ok ms ∧
    (cellsFrom 3 6 ms).map (lookUp Ean13.ENCODINGS) =
      [some (0, 5), some (1, 0), some (0, 1), some (1, 0), some (0, 3), some (1, 1)] ∧
    (cellsFrom 50 6 ms).map (lookUp Ean13.ENCODINGS) =
      [some (2, 3), some (2, 1), some (2, 1), some (2, 3), some (2, 0), some (2, 9)] := ⟨_, rfl, by decide +kernel⟩
example : ∃ ms, (Upca.new .release "61234567890".toList >>= Upca.encode .release) = .ok ms ∧
    (cellsFrom 3 6 ms).map (lookUp Upca.ENCODINGS) =
      [some (0, 6), some (0, 1), some (0, 2), some (0, 3), some (0, 4), some (0, 5)] := ⟨_, rfl, by decide +kernel⟩

end Barcoders
