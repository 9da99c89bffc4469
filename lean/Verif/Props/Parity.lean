import Verif.Spec.Parity
import Verif.Props.FewModules
import Verif.Props.Tables
import Verif.Props.Scratch
import Verif.Props.AddOnErrors

/-!
# C128: an odd number of wrong modules

In most symbologies every character has a number of dark modules of the same parity, so that two symbols of the same length differ in
an even number of modules.
-/

set_option autoImplicit false

namespace Barcoders

open Spec

/-! ## Counting -/

theorem dark_append (a c : List Nat) : darkModules (a ++ c) = darkModules a + darkModules c := List.count_append

/-- The number of differing places has the parity of the difference in dark modules. -/
theorem dist_dark (a c : List Nat) (hl : a.length = c.length) (ha : ∀ m ∈ a, m = 0 ∨ m = 1) (hc : ∀ m ∈ c, m = 0 ∨ m = 1) :
    (dist a c + darkModules a + darkModules c) % 2 = 0 := by
  induction a generalizing c with
  | nil => cases c with
    | nil => rfl
    | cons => simp at hl
  | cons x a ih => cases c with
    | nil => simp at hl
    | cons y c =>
      have := ih c (by simpa using hl) (fun m hm => ha m (by simp [hm])) (fun m hm => hc m (by simp [hm]))
      have e : ∀ (z : Nat) (l : List Nat), darkModules (z :: l) = darkModules l + (if z = 1 then 1 else 0) := by
        intro z l
        unfold darkModules
        rw [List.count_cons]
        by_cases hz : z = 1 <;> simp [hz]
      have d : dist (x :: a) (y :: c) = dist a c + (if x = y then 0 else 1) := by
        unfold dist
        rw [List.zip_cons_cons, List.countP_cons]
        by_cases hxy : x = y <;> simp [hxy]
      rw [e, e, d]
      rcases ha x (by simp) with rfl | rfl <;> rcases hc y (by simp) with rfl | rfl <;> simp <;> omega

/-- Rows with numbers of dark modules of the same parity are not an odd number of modules apart. -/
theorem not_oddly (ms ms' : List Nat) (h : OddlyWrong ms ms') (ha : ∀ m ∈ ms, m = 0 ∨ m = 1) (hc : ∀ m ∈ ms', m = 0 ∨ m = 1) :
    darkModules ms % 2 ≠ darkModules ms' % 2 := by
  obtain ⟨n, hn, hl, hd⟩ := h
  have h1 := dist_dark ms ms' hl ha hc
  have h2 : dist ms ms' = n := hd
  omega

theorem dark_flatMap {α : Type} (f : α → List Nat) (g : α → Nat) (l : List α) (h : ∀ a ∈ l, darkModules (f a) = g a) :
    darkModules (l.flatMap f) = (l.map g).sum := by
  induction l with
  | nil => rfl
  | cons a l ih =>
    rw [List.flatMap_cons, dark_append, List.map_cons, List.sum_cons, h a (by simp), ih (fun x hx => h x (by simp [hx]))]

theorem sum_parity {α : Type} (g : α → Nat) (k : Nat) (l : List α) (h : ∀ a ∈ l, g a % 2 = k % 2) :
    (l.map g).sum % 2 = (k * l.length) % 2 := by
  induction l with
  | nil => simp
  | cons a l ih =>
    have h1 := ih (fun x hx => h x (by simp [hx]))
    have h2 := h a (by simp)
    rw [List.map_cons, List.sum_cons, List.length_cons, Nat.mul_add, Nat.mul_one]
    omega

theorem dark_parity {α : Type} (f : α → List Nat) (k : Nat) (l : List α) (h : ∀ a ∈ l, darkModules (f a) % 2 = k % 2) :
    darkModules (l.flatMap f) % 2 = (k * l.length) % 2 := by
  rw [dark_flatMap f (fun a => darkModules (f a)) l (fun _ _ => rfl)]
  exact sum_parity _ k l h

theorem paint_binary (ws : List Nat) : ∀ m ∈ paint ws, m = 0 ∨ m = 1 := paintFrom_binary 1 (by omega) ws

/-! ## EAN and UPC -/

theorem entry_dark : (∀ d < 10, darkModules (tableEntry Ean13.ENCODINGS 0 d) % 2 = 1 ∧ darkModules (tableEntry Ean13.ENCODINGS 1 d) % 2 = 0 ∧
    darkModules (tableEntry Ean13.ENCODINGS 2 d) % 2 = 0 ∧ darkModules (tableEntry Upca.ENCODINGS 0 d) % 2 = 1 ∧
    darkModules (tableEntry Upca.ENCODINGS 1 d) % 2 = 0) := by decide

theorem wA_dark : ∀ d < 10, darkModules (paintFrom 0 (wA d)) % 2 = 1 ∧ darkModules (paintFrom 1 (wA d)) % 2 = 0 := by decide
theorem wAB_dark : ∀ d < 10, ∀ p : Bool, darkModules (paintFrom 0 (wAB (p, d))) % 2 = (if p then 0 else 1) := by decide

theorem halves_dark (left right : List Nat) (hl : left.length % 2 = 0) (hr : right.length % 2 = 0) :
    darkModules (paint (halvesWidths left right)) = darkModules (paintFrom 0 left) + darkModules (paintFrom 1 right) + 6 := by
  rw [paint_halves left right hl hr, dark_append, dark_append, dark_append, dark_append]
  have h1 : darkModules [1, 0, 1] = 2 := by decide
  have h2 : darkModules [0, 1, 0, 1, 0] = 2 := by decide
  omega

theorem wA_half_dark (ds : List Nat) (h : Digits ds) :
    darkModules (paintFrom 0 (ds.flatMap wA)) % 2 = ds.length % 2 ∧ darkModules (paintFrom 1 (ds.flatMap wA)) % 2 = 0 := by
  have ev : ∀ d ∈ ds, (wA d).length % 2 = 0 := fun d hd => by rw [(wA_spec d (h d hd)).1]
  rw [paintFrom_flatMap 0 (by omega) wA ds ev, paintFrom_flatMap 1 (by omega) wA ds ev]
  have h1 := dark_parity (fun a => paintFrom 0 (wA a)) 1 ds (fun d hd => (wA_dark d (h d hd)).1)
  have h2 := dark_parity (fun a => paintFrom 1 (wA a)) 0 ds (fun d hd => (wA_dark d (h d hd)).2)
  rw [Nat.one_mul] at h1
  rw [Nat.zero_mul] at h2
  exact ⟨h1, h2⟩

theorem same_sets_dark (ls rs : List Nat) (hls : Digits ls) (hrs : Digits rs) :
    darkModules (paint (halvesWidths (ls.flatMap wA) (rs.flatMap wA))) % 2 = ls.length % 2 := by
  rw [halves_dark _ _ (by rw [wA_length_of _ hls]; omega) (by rw [wA_length_of _ hrs]; omega)]
  have h1 := (wA_half_dark ls hls).1
  have h2 := (wA_half_dark rs hrs).2
  omega

theorem set_parity : ∀ d < 10, (((setsOf d).map (fun p => if p then 0 else 1)).sum % 2 = if d = 0 then 0 else 1) := by decide

theorem wAB_half_dark (ss : List Bool) (ls : List Nat) (h : Digits ls) (hl : ss.length = ls.length) :
    darkModules (paintFrom 0 ((ss.zip ls).flatMap wAB)) % 2 = (ss.map (fun p => if p then 0 else 1)).sum % 2 := by
  have hz := zip_snd_lt ss ls h
  rw [paintFrom_flatMap 0 (by omega) wAB _ (fun p hp => by rw [(wAB_spec p.2 (hz p hp) p.1).1])]
  induction ss generalizing ls with
  | nil => rfl
  | cons s ss ih => cases ls with
    | nil => simp at hl
    | cons l ls =>
      have h1 := ih ls (digits_tail h) (by simpa using hl) (zip_snd_lt ss ls (digits_tail h))
      have h2 := wAB_dark l (digits_head h) s
      rw [List.zip_cons_cons, List.flatMap_cons, dark_append, List.map_cons, List.sum_cons]
      omega

theorem ean13_dark (d0 : Nat) (ls rs : List Nat) (h0 : d0 < 10) (hls : Digits ls) (hrs : Digits rs) (ll : ls.length = 6) :
    darkModules (paint (ean13Widths d0 ls rs)) % 2 = if d0 = 0 then 0 else 1 := by
  have hz := zip_snd_lt (setsOf d0) ls hls
  rw [ean13Widths, halves_dark _ _ (by rw [wAB_length_of _ hz]; omega) (by rw [wA_length_of _ hrs]; omega)]
  have h1 := wAB_half_dark (setsOf d0) ls hls (by rw [(parity_spec d0 h0).2.2.2.2.2, ll])
  have h2 := (wA_half_dark rs hrs).2
  have h3 := set_parity d0 h0
  omega

/-- C128. An odd number of wrong modules in a UPC-A symbol: nothing is read. -/
theorem C128_upca (b : Build) (s : List Char) (ms : List Nat) (h : Drawn b .upca s ms) (ms' : List Nat) (hd : OddlyWrong ms ms') :
    scanUpca ms' = none := by
  obtain ⟨x, hx, he⟩ := h
  obtain ⟨ls, rs, hls, hrs, ll, -, -, e1⟩ := upca_symbol b s x hx
  rw [e1, Outcome.ok.injEq] at he
  cases hs : scanUpca ms' with
  | none => rfl
  | some es =>
    exfalso
    obtain ⟨ls', rs', b1, b2, b3, -, -, b6⟩ := upca_read_symbol ms' es hs
    refine not_oddly ms ms' hd (he ▸ paint_binary _) (b6 ▸ paint_binary _) ?_
    rw [← he, b6, same_sets_dark _ _ hls hrs, same_sets_dark _ _ b1 b2, ll, b3]

/-- Three wrong modules, in the second and third left digit. -/
example : ∃ ms, Drawn .debug .upca "01234567890".toList ms ∧
    OddlyWrong ms (ms.take 10 ++ [0, 1, 1, 1, 0, 1, 1] ++ [1] ++ ms.drop 18) ∧
    scanUpca (ms.take 10 ++ [0, 1, 1, 1, 0, 1, 1] ++ [1] ++ ms.drop 18) = none :=
  ⟨_, ⟨_, rfl, rfl⟩, ⟨3, by decide, by decide +kernel, by decide +kernel⟩, by decide +kernel⟩

/-- C128. An odd number of wrong modules in an EAN-8 symbol: nothing is read. -/
theorem C128_ean8 (b : Build) (s : List Char) (ms : List Nat) (h : Drawn b .ean8 s ms) (ms' : List Nat) (hd : OddlyWrong ms ms') :
    scanEan8 ms' = none := by
  obtain ⟨x, hx, he⟩ := h
  obtain ⟨ls, rs, hls, hrs, ll, -, -, e1⟩ := ean8_symbol b s x hx
  rw [e1, Outcome.ok.injEq] at he
  cases hs : scanEan8 ms' with
  | none => rfl
  | some es =>
    exfalso
    obtain ⟨ls', rs', b1, b2, b3, -, -, b6⟩ := ean8_read_symbol ms' es hs
    refine not_oddly ms ms' hd (he ▸ paint_binary _) (b6 ▸ paint_binary _) ?_
    rw [← he, b6, same_sets_dark _ _ hls hrs, same_sets_dark _ _ b1 b2, ll, b3]

example : ∃ ms, Drawn .debug .ean8 "5512345".toList ms ∧ OddlyWrong ms (ms.map (1 - ·)) ∧ scanEan8 (ms.map (1 - ·)) = none :=
  ⟨_, ⟨_, rfl, rfl⟩, ⟨67, by decide, by decide +kernel, by decide +kernel⟩, by decide +kernel⟩

/-- C128. EAN-13: if something is read in spite of an odd number of wrong modules, then of the number printed and the number read
exactly one begins with `0`. -/
theorem C128_ean13 (b : Build) (s : List Char) (ms : List Nat) (h : Drawn b .ean13 s ms) (ms' : List Nat) (hd : OddlyWrong ms ms')
    (es : List Nat) (hs : scanEan13 ms' = some es) : (digitsOf s).head? = some 0 ↔ es.head? ≠ some 0 := by
  obtain ⟨x, hx, he⟩ := h
  obtain ⟨d0, ls, rs, h0, hls, hrs, ll, lr, e, e1⟩ := ean13_symbol b s x hx
  rw [e1, Outcome.ok.injEq] at he
  obtain ⟨d0', ls', rs', b0, b1, b2, b3, b4, b5, b6⟩ := ean13_read_symbol ms' es hs
  have hne := not_oddly ms ms' hd (he ▸ paint_binary _) (b6 ▸ paint_binary _)
  rw [← he, b6, ean13_dark _ _ _ h0 hls hrs ll, ean13_dark _ _ _ b0 b1 b2 b3] at hne
  have hh : (digitsOf s).head? = some d0 := by
    cases hds : digitsOf s with
    | nil =>
      rw [hds] at e
      have := congrArg List.length e
      simp [ll, lr] at this
    | cons a r =>
      rw [hds, List.take_succ_cons, List.cons_append, List.cons.injEq] at e
      rw [List.head?_cons, e.1]
  rw [hh, b5, List.head?_cons]
  by_cases h1 : d0 = 0 <;> by_cases h2 : d0' = 0 <;> simp [h1, h2] at hne ⊢

/-- It happens: three modules turn a number beginning with 0 into one beginning with 7. -/
example : ∃ ms ms', Drawn .debug .ean13 "059640235925".toList ms ∧ Drawn .debug .ean13 "758610935925".toList ms' ∧ OddlyWrong ms ms' :=
  ⟨_, _, ⟨_, rfl, rfl⟩, ⟨_, rfl, rfl⟩, 3, by decide, by decide +kernel, by decide +kernel⟩

/-! ## The parity of single digits -/

theorem lookUp_mem (table : List (List (List Nat))) (c : List Nat) (set d : Nat) (h : lookUp table c = some (set, d)) :
    c ∈ table.getD set [] ∧ set < table.length := by
  unfold lookUp at h
  rw [Option.bind_eq_some_iff] at h
  obtain ⟨i, h1, h2⟩ := h
  rw [Option.map_eq_some_iff] at h2
  obtain ⟨j, -, h3⟩ := h2
  rw [Prod.mk.injEq] at h3
  obtain ⟨rfl, -⟩ := h3
  obtain ⟨hi, hc, -⟩ := List.findIdx?_eq_some_iff_getElem.mp h1
  rw [List.getD, List.getElem?_eq_getElem hi]
  exact ⟨by simpa using hc, hi⟩

theorem table_dark : (∀ set < 3, ∀ c ∈ Ean13.ENCODINGS.getD set [], darkModules c % 2 = if set = 0 then 1 else 0) ∧
    ∀ set < 2, ∀ c ∈ Upca.ENCODINGS.getD set [], darkModules c % 2 = if set = 0 then 1 else 0 := by decide

theorem lookUp_dark (table : List (List (List Nat)))
    (ht : ∀ set < table.length, ∀ c ∈ table.getD set [], darkModules c % 2 = if set = 0 then 1 else 0) {α : Type}
    (cells : List (List Nat)) (l : List α) (g : α → Nat × Nat) (h : cells.map (lookUp table) = l.map (fun a => some (g a))) :
    cells.map (fun c => darkModules c % 2) = l.map (fun a => if (g a).1 = 0 then 1 else 0) := by
  induction cells generalizing l with
  | nil => cases l with
    | nil => rfl
    | cons => simp at h
  | cons c cells ih => cases l with
    | nil => simp at h
    | cons a l =>
      rw [List.map_cons, List.map_cons, List.cons.injEq] at h
      obtain ⟨h1, h2⟩ := lookUp_mem table c (g a).1 (g a).2 h.1
      rw [List.map_cons, List.map_cons, ih l h.2, ht _ h2 c h1]

/-- C128. The leading digit of an EAN-13 symbol, which has no bars of its own, can be told by counting: the parities of the six
left digits are the sets of the standard (odd for A, even for B), and no two leading digits have the same parities. The right digits
are all even. -/
theorem C128_ean13_digits (b b' : Build) (s : List Char) (x : Ean13.EAN13) (h : Ean13.new b s = .ok x) (ms : List Nat)
    (he : Ean13.encode b' x = .ok ms) :
    ∃ d0, (digitsOf s).head? = some d0 ∧
      (cellsFrom 3 6 ms).map (fun c => darkModules c % 2) = (ean13Sets.getD d0 []).map (fun setB => if setB then 0 else 1) ∧
      (cellsFrom 50 6 ms).map (fun c => darkModules c % 2) = [0, 0, 0, 0, 0, 0] ∧
      ∀ d < 10, (ean13Sets.getD d []).map (fun setB => if setB then 0 else 1) = (cellsFrom 3 6 ms).map (fun c => darkModules c % 2) →
        d = d0 := by
  obtain ⟨d0, ls, rs, h0', hls', hrs', ll', lr', hd', -⟩ := ean13_symbol b s x h
  obtain ⟨d1, ls1, rs1, hd, c1, c2, -⟩ := C117_read_ean13 b b' s x h ms he
  have e := hd'.trans hd.symm
  rw [List.cons.injEq] at e
  obtain ⟨rfl, e1⟩ := e
  have n1 : rs1.length = 6 := by
    have := congrArg List.length c2
    simpa [cellsFrom] using this.symm
  have n2 : ls1.length = 6 := by
    have := congrArg List.length e1
    rw [List.length_append, List.length_append] at this
    omega
  have hh : (digitsOf s).head? = some d0 := by
    cases hds : digitsOf s with
    | nil =>
      rw [hds] at hd'
      have := congrArg List.length hd'
      simp [ll', lr'] at this
    | cons a r =>
      rw [hds, List.take_succ_cons, List.cons_append, List.cons.injEq] at hd'
      rw [List.head?_cons, hd'.1]
  have p1 := lookUp_dark Ean13.ENCODINGS table_dark.1 _ _ (fun p : Bool × Nat => (if p.1 then 1 else 0, p.2)) c1
  have p2 := lookUp_dark Ean13.ENCODINGS table_dark.1 _ _ (fun d : Nat => (2, d)) c2
  have l6 : (ean13Sets.getD d0 []).length = 6 := (parity_spec d0 h0').2.2.2.2.2
  have q1 : ((ean13Sets.getD d0 []).zip ls1).map (fun p : Bool × Nat => if (if p.1 then 1 else 0) = 0 then 1 else 0) =
      (ean13Sets.getD d0 []).map (fun setB => if setB then 0 else 1) := by
    have hz := List.map_fst_zip (l₁ := ean13Sets.getD d0 []) (l₂ := ls1) (by omega)
    conv => rhs; rw [← hz]
    rw [List.map_map]
    apply List.map_congr_left
    intro p _
    cases hp : p.1 <;> simp [hp]
  rw [q1] at p1
  refine ⟨d0, hh, p1, ?_, ?_⟩
  · rw [p2]
    match rs1, n1 with
    | [_, _, _, _, _, _], _ => rfl
  · rw [p1]
    exact (by decide : ∀ d0 < 10, ∀ d < 10, (ean13Sets.getD d []).map (fun setB => if setB then 0 else 1) =
      (ean13Sets.getD d0 []).map (fun setB => if setB then 0 else 1) → d = d0) d0 h0'

example : ∃ x ms, Ean13.new .debug "750103131130".toList = .ok x ∧ Ean13.encode .debug x = .ok ms ∧
    (cellsFrom 3 6 ms).map (fun c => darkModules c % 2) = [1, 0, 1, 0, 1, 0] := ⟨_, _, rfl, rfl, by decide +kernel⟩

/-- C128. In UPC-A and EAN-8 symbols the left digits are odd and the right ones even, so that one digit is enough to tell which way
round the symbol is held. -/
theorem C128_halves_digits (b b' : Build) (s : List Char) (ms : List Nat) :
    (∀ x, Upca.new b s = .ok x → Upca.encode b' x = .ok ms →
      (cellsFrom 3 6 ms).map (fun c => darkModules c % 2) = [1, 1, 1, 1, 1, 1] ∧
      (cellsFrom 50 6 ms).map (fun c => darkModules c % 2) = [0, 0, 0, 0, 0, 0]) ∧
    (∀ x, Ean8.new b s = .ok x → Ean8.encode b' x = .ok ms →
      (cellsFrom 3 4 ms).map (fun c => darkModules c % 2) = [1, 1, 1, 1] ∧
      (cellsFrom 36 4 ms).map (fun c => darkModules c % 2) = [0, 0, 0, 0]) := by
  have six : ∀ (l : List Nat) (k : Nat), l.length = 6 → l.map (fun _ => k) = [k, k, k, k, k, k] := by
    intro l k h
    match l, h with
    | [_, _, _, _, _, _], _ => rfl
  have four : ∀ (l : List Nat) (k : Nat), l.length = 4 → l.map (fun _ => k) = [k, k, k, k] := by
    intro l k h
    match l, h with
    | [_, _, _, _], _ => rfl
  constructor
  · intro x hx he
    obtain ⟨ls, rs, -, c1, c2⟩ := (C117_read_halves b b' s ms).2 x hx he
    have n1 : ls.length = 6 := by simpa [cellsFrom] using (congrArg List.length c1).symm
    have n2 : rs.length = 6 := by simpa [cellsFrom] using (congrArg List.length c2).symm
    have p1 := lookUp_dark Upca.ENCODINGS table_dark.2 _ _ (fun d : Nat => (0, d)) c1
    have p2 := lookUp_dark Upca.ENCODINGS table_dark.2 _ _ (fun d : Nat => (1, d)) c2
    exact ⟨p1.trans (six ls 1 n1), p2.trans (six rs 0 n2)⟩
  · intro x hx he
    obtain ⟨ls, rs, -, c1, c2⟩ := (C117_read_halves b b' s ms).1 x hx he
    have n1 : ls.length = 4 := by simpa [cellsFrom] using (congrArg List.length c1).symm
    have n2 : rs.length = 4 := by simpa [cellsFrom] using (congrArg List.length c2).symm
    have p1 := lookUp_dark Ean13.ENCODINGS table_dark.1 _ _ (fun d : Nat => (0, d)) c1
    have p2 := lookUp_dark Ean13.ENCODINGS table_dark.1 _ _ (fun d : Nat => (2, d)) c2
    exact ⟨p1.trans (four ls 1 n1), p2.trans (four rs 0 n2)⟩

/-- Held upside down, the even digits come first. -/
example : ∃ x ms, Upca.new .debug "01234567890".toList = .ok x ∧ Upca.encode .debug x = .ok ms ∧
    (cellsFrom 3 6 ms.reverse).map (fun c => darkModules c % 2) = [0, 0, 0, 0, 0, 0] := ⟨_, _, rfl, rfl, by decide +kernel⟩

/-! ## Add-ons -/

theorem addOn_dark (ws : List (Bool × Nat)) (h : ∀ p ∈ ws, p.2 < 10) (h0 : ws ≠ []) :
    (darkModules (paint (suppWidths ws)) + (ws.filter (fun p => p.1)).length) % 2 = 0 := by
  match ws, h0 with
  | p :: ps, _ =>
    have hl := wAB_spec p.2 (h p (by simp)) p.1
    rw [suppWidths, paint, paintFrom_append_odd 1 (by omega) _ _ (by decide),
      paintFrom_append_even _ (by omega) _ _ (by rw [hl.1]), paintFrom_flatMap _ (by omega)]
    · rw [dark_append, dark_append]
      have g : darkModules (paintFrom 1 [1, 1, 2]) = 3 := by decide
      have hp := wAB_dark p.2 (h p (by simp)) p.1
      have hps : ∀ l : List (Bool × Nat), (∀ q ∈ l, q.2 < 10) →
          (darkModules (l.flatMap (fun q => paintFrom (1 - 1) ([1, 1] ++ wAB q))) + (l.filter (fun p => p.1)).length) % 2 = 0 := by
        intro l hl
        induction l with
        | nil => rfl
        | cons q l ih =>
          have h1 := ih (fun r hr => hl r (by simp [hr]))
          have h2 := wAB_dark q.2 (hl q (by simp)) q.1
          have h3 : darkModules (paintFrom (1 - 1) ([1, 1] ++ wAB q)) = 1 + darkModules (paintFrom 0 (wAB q)) := by
            rw [paintFrom_append_even _ (by omega) _ _ (by decide), dark_append]
            rfl
          have e : wAB (q.1, q.2) = wAB q := rfl
          rw [e] at h2
          rw [List.flatMap_cons, dark_append, h3, List.filter_cons]
          generalize darkModules (l.flatMap (fun q => paintFrom (1 - 1) ([1, 1] ++ wAB q))) = A at h1 ⊢
          cases hq : q.1 <;> simp [hq] at h2 ⊢ <;> omega
      have h4 := hps ps (fun q hq => h q (by simp [hq]))
      have e : wAB (p.1, p.2) = wAB p := rfl
      rw [e] at hp
      rw [g, List.filter_cons]
      generalize darkModules (ps.flatMap (fun q => paintFrom (1 - 1) ([1, 1] ++ wAB q))) = A at h4 ⊢
      simp only [Nat.sub_self] at h4 ⊢
      cases hq : p.1 <;> simp [hq] at hp ⊢ <;> omega
    · intro q hq
      have := wAB_spec q.2 (h q (by simp [hq])) q.1
      rw [List.length_append, this.1]; rfl

theorem addOn5_dark (b : Build) (s : List Char) (x : EanSupp.EANSUPP) (ms : List Nat) (hx : EanSupp.new s = .ok x)
    (he : EanSupp.encode b x = .ok ms) (h5 : s.length = 5) : darkModules ms % 2 = 0 ∧ ∀ m ∈ ms, m = 0 ∨ m = 1 := by
  obtain ⟨ws, h1, h2, h3, -, -, -⟩ := supp_symbol s x hx
  have hm := h1 b
  rw [he, Outcome.ok.injEq] at hm
  have n0 : ws ≠ [] := by rintro rfl; simp [h5] at h2
  have h4 := addOn_drawn b s x ms hx he ws (by rw [hm]; exact addOnCharacters_paint ws h3 n0)
  have h6 := addOnOk_five ws h4.1 (by omega)
  have h7 := addOn_dark ws h3 n0
  have h8 : (ws.filter (fun p => p.1)).length = ((ws.map Prod.fst).filter id).length := by
    rw [List.filter_map, List.length_map]; rfl
  rw [hm]
  exact ⟨by omega, paint_binary _⟩

/-- C128. An odd number of wrong modules in a five-digit add-on: nothing is read. -/
theorem C128_addon (b : Build) (s : List Char) (h5 : s.length = 5) (ms : List Nat) (h : Drawn b .supp s ms) (ms' : List Nat)
    (hd : OddlyWrong ms ms') : scanAddOn ms' = none := by
  obtain ⟨x, hx, he⟩ := h
  cases hs : scanAddOn ms' with
  | none => rfl
  | some es =>
    exfalso
    obtain ⟨t, -, y, hy, he'⟩ := (C75_supp b ms' es).mp hs
    have hl : t.length = 5 := by
      obtain ⟨n, -, hl, -⟩ := hd
      obtain ⟨-, -, -, -, -, -, k4⟩ := supp_symbol t y hy
      rw [(C32_supp_row b s x ms hx he).length, (C32_supp_row b t y ms' hy he').length, h5] at hl
      rcases k4 with k4 | k4
      · rw [k4] at hl; simp at hl
      · exact k4
    obtain ⟨d1, b1⟩ := addOn5_dark b s x ms hx he h5
    obtain ⟨d2, b2⟩ := addOn5_dark b t y ms' hy he' hl
    exact not_oddly ms ms' hd b1 b2 (by omega)

/-- Not so with two digits: 23 and 93 differ in one module. -/
example : ∃ ms ms', Drawn .debug .supp "23".toList ms ∧ Drawn .debug .supp "93".toList ms' ∧ OddlyWrong ms ms' :=
  ⟨_, _, ⟨_, rfl, rfl⟩, ⟨_, rfl, rfl⟩, 1, by decide, by decide +kernel, by decide +kernel⟩

example : ∃ ms, Drawn .debug .supp "51499".toList ms ∧ OddlyWrong ms (ms.map (1 - ·)) ∧ scanAddOn (ms.map (1 - ·)) = none :=
  ⟨_, ⟨_, rfl, rfl⟩, ⟨47, by decide, by decide +kernel, by decide +kernel⟩, by decide +kernel⟩

/-! ## Code 39 -/

theorem w39_dark : ∀ c ∈ '*' :: code39Alphabet, darkModules (paintFrom 1 (w39 c ++ [1])) = if c ∈ ['$', '/', '+', '%'] then 5 else 7 := by
  decide

theorem code39_dark (t : List Char) (h : ∀ c ∈ t, c ∈ code39Alphabet) :
    darkModules (paint (code39Widths t)) + 2 * (t.filter (fun c => ['$', '/', '+', '%'].contains c)).length = 7 * t.length + 14 := by
  have hm := star_cons_mem _ _ h
  rw [paint39 t h, dark_append, List.flatMap_cons, dark_append]
  have h1 : darkModules (paintFrom 1 (w39 '*')) = 7 := by decide
  have h2 : darkModules (paintFrom 1 (w39 '*' ++ [1])) = 7 := by decide
  have h3 : ∀ t : List Char, (∀ c ∈ t, c ∈ code39Alphabet) → darkModules (t.flatMap (fun c => paintFrom 1 (w39 c ++ [1]))) +
      2 * (t.filter (fun c => ['$', '/', '+', '%'].contains c)).length = 7 * t.length := by
    intro t ht
    induction t with
    | nil => rfl
    | cons c t ih =>
      have h4 := ih (fun d hd => ht d (by simp [hd]))
      have h5 := w39_dark c (List.mem_cons_of_mem _ (ht c (by simp)))
      rw [List.flatMap_cons, dark_append, h5, List.filter_cons, List.length_cons]
      by_cases hc : c ∈ ['$', '/', '+', '%']
      · rw [if_pos hc, if_pos (by simpa using hc), List.length_cons]; omega
      · rw [if_neg hc, if_neg (by simpa using hc)]; omega
  have := h3 t h
  omega

/-- C128. A Code 39 symbol has seven dark modules for each character, start and stop included, or five if it is one of `$`, `/`, `+`
and `%`. -/
theorem C128_code39_ink (s : List Char) (k : Bool) (x : Code39.Code39) (hx : Code39.init s k = .ok x) (ms : List Nat)
    (he : Code39.encode x = .ok ms) (t : List Char) (ht : t = if k then s ++ [code39Check s] else s) :
    darkModules ms + 2 * (t.filter (fun c => ['$', '/', '+', '%'].contains c)).length = 7 * (t.length + 2) := by
  obtain ⟨h1, h2⟩ := code39_symbol s k x hx
  rw [h2, Outcome.ok.injEq] at he
  rw [← he, ht, code39_dark _ h1]
  omega

example : ∃ x ms, Code39.new "A$".toList = .ok x ∧ Code39.encode x = .ok ms ∧ darkModules ms = 26 := ⟨_, _, rfl, rfl, by decide +kernel⟩

/-- C128. An odd number of wrong modules in a Code 39 symbol, with or without check character: nothing is read. -/
theorem C128_code39 (s : List Char) (k : Bool) (x : Code39.Code39) (hx : Code39.init s k = .ok x) (ms : List Nat)
    (he : Code39.encode x = .ok ms) (ms' : List Nat) (hd : OddlyWrong ms ms') :
    scanCode39 ms' = none ∧ scanCode39Checked ms' = none := by
  obtain ⟨h1, h2⟩ := code39_symbol s k x hx
  rw [h2, Outcome.ok.injEq] at he
  generalize (if k then s ++ [code39Check s] else s) = t at *
  have key : ∀ u, scanCode39 ms' = some u → False := by
    intro u hu
    have b1 := scanCode39_chars _ _ hu
    have b2 := code39_read_symbol _ _ hu
    have a3 := code39_dark t h1
    have b3 := code39_dark u b1
    rw [he] at a3
    rw [← b2] at b3
    have hl : ms.length = ms'.length := by obtain ⟨n, -, hl, -⟩ := hd; exact hl
    have hl' := hl
    rw [← he, b2, (code39_row _ h1).length, (code39_row _ b1).length] at hl'
    exact not_oddly ms ms' hd (he ▸ paint_binary _) (b2 ▸ paint_binary _) (by omega)
  constructor
  · cases hs : scanCode39 ms' with
    | none => rfl
    | some u => exact (key u hs).elim
  · cases hs : scanCode39Checked ms' with
    | none => rfl
    | some u => exact (key _ (scanCode39Checked_inv _ _ hs)).elim

/-- Three modules in a row wrong, in a symbol without check character. -/
example : ∃ x ms, Code39.init "1A".toList false = .ok x ∧ Code39.encode x = .ok ms ∧
    OddlyWrong ms (ms.take 20 ++ [1 - ms.getD 20 0, 1 - ms.getD 21 0, 1 - ms.getD 22 0] ++ ms.drop 23) :=
  ⟨_, _, rfl, rfl, 3, by decide, by decide +kernel, by decide +kernel⟩

/-! ## Code 128 -/

theorem w128_dark : ∀ v < 106, darkModules (paintFrom 1 (w128 v)) % 2 = 0 := by decide +kernel

theorem code128_dark (vs : List Nat) (h : ∀ v ∈ vs, v < 106) : darkModules (paint (code128Widths vs)) % 2 = 0 := by
  rw [code128Widths, paint, paintFrom_append_even 1 (by omega) _ _ (by rw [w128_length vs h]; omega), dark_append,
    paintFrom_flatMap 1 (by omega) _ _ (fun v hv => by rw [(w128_spec v (h v hv)).1])]
  have h1 := dark_parity (fun v => paintFrom 1 (w128 v)) 0 vs (fun v hv => w128_dark v (h v hv))
  have h2 : darkModules (paintFrom 1 code128Stop) = 8 := by decide
  omega

/-- C128. An odd number of wrong modules in a Code 128 symbol, however long: nothing is read, neither as characters nor as a
message. -/
theorem C128_code128 (b : Build) (s : List Char) (ms : List Nat) (h : Drawn b .code128 s ms) (ms' : List Nat)
    (hd : OddlyWrong ms ms') : readCode128 ms' = none ∧ scanCode128 ms' = none ∧ receiveCode128 ms' = none := by
  obtain ⟨x, hx, he⟩ := h
  obtain ⟨set, data, c, -, -, h3, h4⟩ := code128_symbol b s x ms hx he
  have key : ∀ vs, readCode128 ms' = some vs → False := by
    intro vs hv
    obtain ⟨b1, b2⟩ := code128_read_symbol _ _ hv
    have a3 := code128_dark _ h3
    have b3 := code128_dark _ b1
    rw [← h4] at a3
    rw [← b2] at b3
    exact not_oddly ms ms' hd (h4 ▸ paint_binary _) (b2 ▸ paint_binary _) (by omega)
  refine ⟨?_, ?_, ?_⟩
  · cases hs : readCode128 ms' with
    | none => rfl
    | some u => exact (key u hs).elim
  · cases hs : scanCode128 ms' with
    | none => rfl
    | some u => obtain ⟨_, _, _, r⟩ := received128 ms' (.inl ⟨u, hs⟩); exact (key _ r).elim
  · cases hs : receiveCode128 ms' with
    | none => rfl
    | some u => obtain ⟨_, _, _, r⟩ := received128 ms' (.inr ⟨u, hs⟩); exact (key _ r).elim

/-- All 57 modules wrong. -/
example : ∃ ms, Drawn .debug .code128 "ƁAB".toList ms ∧ ms.length = 57 ∧ OddlyWrong ms (ms.map (1 - ·)) ∧
    readCode128 (ms.map (1 - ·)) = none :=
  ⟨_, ⟨_, rfl, rfl⟩, by decide +kernel, ⟨57, by decide, by decide +kernel, by decide +kernel⟩, by decide +kernel⟩

/-! ## The 2 of 5 codes -/

theorem wStf_dark : ∀ d < 10, darkModules (paintFrom 1 (wStf d)) = 9 := by decide
theorem wItf_dark : ∀ a < 10, ∀ c < 10, darkModules (paintFrom 1 (wItf (a, c))) = 9 := by decide

theorem dark_const {α : Type} (f : α → List Nat) (k : Nat) (l : List α) (h : ∀ a ∈ l, darkModules (f a) = k) :
    darkModules (l.flatMap f) = k * l.length := by
  induction l with
  | nil => rfl
  | cons a l ih =>
    rw [List.flatMap_cons, dark_append, h a (by simp), ih (fun x hx => h x (by simp [hx])), List.length_cons, Nat.mul_add]
    omega

/-- C128. The 2 of 5 codes: how much of a symbol is dark depends on nothing but the number of digits, so that symbols of the same
length differ in as many modules that are dark in one as are dark in the other. -/
theorem C128_two_of_five (s : List Char) (b : Build) (ms : List Nat) :
    (Drawn b .stf s ms → darkModules ms = 9 * s.length + 10) ∧
    (Drawn b .itf s ms → darkModules ms = 9 * ((s.length + 1) / 2) + 5) := by
  constructor
  · rintro ⟨x, hx, he⟩
    obtain ⟨h1, h2⟩ := stf_symbol s x hx
    rw [h2, Outcome.ok.injEq] at he
    have hD := digits_lt s h1
    rw [← he, stfWidths, paint, paintFrom_append_even 1 (by omega) _ _ (by decide),
      paintFrom_append_even 1 (by omega) _ _ (by rw [flatMap_length_eq 10 _ _ (fun d h => (wStf_spec d (hD d h)).1)]; omega),
      paintFrom_flatMap 1 (by omega) _ _ (fun d h => by rw [(wStf_spec d (hD d h)).1]), dark_append, dark_append,
      dark_const _ 9 _ (fun d h => wStf_dark d (hD d h))]
    have e1 : darkModules (paintFrom 1 [2, 1, 2, 1, 1, 1]) = 5 := by decide
    have e2 : darkModules (paintFrom 1 [2, 1, 1, 1, 2, 1]) = 5 := by decide
    have e3 : (digitsOf s).length = s.length := by simp [digitsOf]
    omega
  · rintro ⟨x, hx, he⟩
    obtain ⟨ds, hD, hev, hlen, -, -, h2⟩ := itf_symbol b s x hx
    rw [h2, Outcome.ok.injEq] at he
    have hp := pairs_lt ds hD
    rw [← he, itfWidths, paint, paintFrom_append_even 1 (by omega) _ _ (by decide),
      paintFrom_append_even 1 (by omega) _ _
        (by rw [flatMap_length_eq 10 _ _ (fun p h => (wItf_spec p.1 (hp p h).1 p.2 (hp p h).2).1)]; omega),
      paintFrom_flatMap 1 (by omega) _ _ (fun p h => by
        have := (wItf_spec p.1 (hp p h).1 p.2 (hp p h).2).1
        rw [show wItf p = wItf (p.1, p.2) from rfl, this]), dark_append, dark_append,
      dark_const _ 9 _ (fun p h => wItf_dark p.1 (hp p h).1 p.2 (hp p h).2)]
    have e1 : darkModules (paintFrom 1 [1, 1, 1, 1]) = 2 := by decide
    have e2 : darkModules (paintFrom 1 [2, 1, 1]) = 3 := by decide
    have e3 := pairs_length ds
    omega

example : ∃ ms ms', Drawn .debug .itf "1234".toList ms ∧ Drawn .debug .itf "0987".toList ms' ∧ darkModules ms = 23 ∧ darkModules ms' = 23 ∧
    ms ≠ ms' := ⟨_, _, ⟨_, rfl, rfl⟩, ⟨_, rfl, rfl⟩, by decide +kernel, by decide +kernel, by decide +kernel⟩

example : ∃ ms, Drawn .debug .stf "123".toList ms ∧ darkModules ms = 37 := ⟨_, ⟨_, rfl, rfl⟩, by decide +kernel⟩

end Barcoders
