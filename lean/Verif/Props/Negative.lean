import Verif.Spec.Negative
import Verif.Props.EveryReading

/-!
# C103: light bars on dark paper
-/

set_option autoImplicit false

namespace Barcoders
open Spec

theorem negative_paintFrom (c : Nat) (hc : c < 2) (ws : List Nat) : negative (paintFrom c ws) = paintFrom (1 - c) ws := by
  induction ws generalizing c with
  | nil => rfl
  | cons w ws ih =>
    have : negative (paintFrom (1 - c) ws) = paintFrom (1 - (1 - c)) ws := ih (1 - c) (by omega)
    rw [paintFrom, paintFrom, negative, List.map_append, List.map_replicate, ← negative, this]

theorem negative_reverse (l : List Nat) : negative l.reverse = (negative l).reverse := by
  rw [negative, negative, List.map_reverse]

theorem negative_negative (l : List Nat) (h : ∀ m ∈ l, m = 0 ∨ m = 1) : negative (negative l) = l := by
  rw [negative, negative, List.map_map]
  conv => rhs; rw [← List.map_id l]
  refine List.map_congr_left (fun m hm => ?_)
  rcases h m hm with rfl | rfl <;> rfl

theorem getD_between (a c : Nat) (us : List Nat) (i : Nat) :
    (i < us.length ∧ (a :: us ++ [c]).getD (i + 1) 0 = us.getD i 0) ∨ (us.length ≤ i ∧ us.getD i 0 = 0) := by
  by_cases h : i < us.length
  · refine Or.inl ⟨h, ?_⟩
    rw [List.cons_append, List.getD_cons_succ, getD_append_lt _ _ _ h]
  · refine Or.inr ⟨by omega, ?_⟩
    rw [List.getD, List.getElem?_eq_none (by omega)]
    rfl

/-- Between two wide dark margins no row looks like a symbol. -/
theorem not_look (y y' : Symbology) (us : List Nat) (a c : Nat) (ha : 2 < a) (h : Look y us ∨ Look y us.reverse) :
    ¬ Look y' (a :: us ++ [c]) := by
  intro h'
  have a0 : (a :: us ++ [c]).getD 0 0 = a := rfl
  by_cases hy : y' = .stf
  · subst hy
    have r : (a :: us ++ [c]).reverse = c :: us.reverse ++ [a] := by simp
    simp only [Look, r] at h'
    have f0 := getD_between a c us 0
    have f1 := getD_between a c us 1
    have f2 := getD_between a c us 2
    have f3 := getD_between a c us 3
    have f4 := getD_between a c us 4
    have f5 := getD_between a c us 5
    have f6 := getD_between a c us 6
    have g0 := getD_between c a us.reverse 0
    have g1 := getD_between c a us.reverse 1
    have g2 := getD_between c a us.reverse 2
    have g3 := getD_between c a us.reverse 3
    have g4 := getD_between c a us.reverse 4
    have g5 := getD_between c a us.reverse 5
    have g6 := getD_between c a us.reverse 6
    simp only [List.length_reverse, Nat.reduceAdd] at f0 f1 f2 f3 f4 f5 f6 g0 g1 g2 g3 g4 g5 g6
    rcases h with h | h
    · have k := lookAt_of y us h
      clear h a0 r
      cases y <;> simp only [LookAt, reduceCtorEq, if_true, if_false, Look, LookCodabar] at k <;> omega
    · have k := lookAt_of y us.reverse h
      clear h a0 r
      cases y <;> simp only [LookAt, reduceCtorEq, if_true, if_false, Look, LookCodabar, List.reverse_reverse,
        List.length_reverse] at k <;> omega
  · have k := lookAt_of y' _ h'
    cases y' <;> simp only [LookAt, reduceCtorEq, if_true, if_false, Look, LookCodabar, a0] at k hy <;>
      first | omega | exact hy trivial | exact absurd rfl hy

/-- A symbol in negative, between dark margins of more than two modules. -/
theorem negative_unread (y y' : Symbology) (us : List Nat) (ho : us.length % 2 = 1) (hp : ∀ w ∈ us, 0 < w) (h1 : 1 ∈ us)
    (h : Look y us ∨ Look y us.reverse) (q x r : Nat) (hx : 0 < x) (hq : 2 * x < q) (hr : 2 * x < r) :
    readLine (scanAs y') (paint (q :: us.map (· * x) ++ [r])) = none := by
  have hpos : ∀ v ∈ q :: us.map (· * x) ++ [r], x ≤ v := by
    intro v hv
    rcases List.mem_append.mp hv with hv | hv
    · rcases List.mem_cons.mp hv with rfl | hv
      · omega
      · obtain ⟨u, hu, rfl⟩ := List.mem_map.mp hv
        exact Nat.le_mul_of_pos_left x (hp u hu)
    · rw [List.mem_singleton.mp hv]; omega
  have hpos' : ∀ v ∈ q :: us.map (· * x) ++ [r], 0 < v := fun v hv => by have := hpos v hv; omega
  have hodd : (q :: us.map (· * x) ++ [r]).length % 2 = 1 := by simp; omega
  obtain ⟨c, hc⟩ := paint_head (q :: us.map (· * x) ++ [r]) (by simp) hpos'
  obtain ⟨d, hd⟩ := paint_head (q :: us.map (· * x) ++ [r]).reverse (by simp) (fun v hv => hpos' v (List.mem_reverse.mp hv))
  have hs := strip_core 0 0 _ c d hc (by rw [paint_reverse_odd _ hodd, hd])
  rw [List.replicate_zero, List.nil_append, List.append_nil] at hs
  rw [readLine, hs]
  by_cases hm : q % x = 0 ∧ r % x = 0
  · obtain ⟨a, rfl⟩ := Nat.dvd_of_mod_eq_zero hm.1
    obtain ⟨e, rfl⟩ := Nat.dvd_of_mod_eq_zero hm.2
    have ha : 2 < a := by
      rw [Nat.mul_comm] at hq
      exact Nat.lt_of_mul_lt_mul_left hq
    have he : 2 < e := by
      rw [Nat.mul_comm] at hr
      exact Nat.lt_of_mul_lt_mul_left hr
    have e1 : paint ((x * a) :: us.map (· * x) ++ [x * e]) = stretch x (paint (a :: us ++ [e])) := by
      rw [paint, paint, stretch_paintFrom, List.map_append, List.map_cons]
      simp [Nat.mul_comm]
    have hp2 : ∀ w ∈ a :: us ++ [e], 0 < w := by
      intro w hw
      rcases List.mem_append.mp hw with hw | hw
      · rcases List.mem_cons.mp hw with rfl | hw
        · omega
        · exact hp w hw
      · rw [List.mem_singleton.mp hw]; omega
    rw [e1, measure_stretch x hx (a :: us ++ [e]) hp2 (by simp [h1]), Option.bind_some]
    refine none_of_not _ fun t ht => ?_
    exact not_look y y' us a e ha h (seen y' _ t ht _ (elements_paint _ hp2 (by simp)) (by simp; omega))
  · have : measureRow (paint (q :: us.map (· * x) ++ [r])) = none := by
      simp only [measureRow]
      rw [paint, runs_paintFrom 1 (by omega) _ hpos', colours_snd, narrowest_eq _ x (by
        refine List.mem_append_left _ (List.mem_cons_of_mem _ ?_)
        exact List.mem_map.mpr ⟨1, h1, by omega⟩) hpos, if_neg]
      rintro ⟨-, hall⟩
      rw [List.all_eq_true] at hall
      have hv : ∀ v ∈ q :: us.map (· * x) ++ [r], v % x = 0 := by
        intro v hv
        rw [← colours_snd 1 (q :: us.map (· * x) ++ [r])] at hv
        obtain ⟨p, hp, rfl⟩ := List.mem_map.mp hv
        simpa using hall p hp
      exact hm ⟨hv q (by simp), hv r (by simp)⟩
    rw [this]
    rfl

/-- The elements of a drawn row, without white behind the last bar. -/
theorem drawn_core (b : Build) (k : Kind) (s : List Char) (ms : List Nat) (h : Drawn b k s ms) :
    ∃ us z, ms = paint us ++ List.replicate z 0 ∧ us.length % 2 = 1 ∧ (∀ u ∈ us, 0 < u) ∧ 1 ∈ us := by
  obtain ⟨ws, rfl, hne, hp, h1, -⟩ := drawn_narrow b k s ms h
  have mem : ∀ us : List Nat, (1, 1) ∈ colours 1 us → 1 ∈ us := by
    intro us h
    have := List.mem_map_of_mem (f := Prod.snd) h
    rwa [colours_snd] at this
  by_cases ho : ws.length % 2 = 1
  · exact ⟨ws, 0, by simp, ho, hp, mem ws h1⟩
  · have hd := List.dropLast_concat_getLast hne
    have hlen : ws.dropLast.length % 2 = 1 := by
      rw [List.length_dropLast]; have := List.length_pos_iff.mpr hne; omega
    refine ⟨ws.dropLast, ws.getLast hne, ?_, hlen, fun u hu => hp u (List.dropLast_subset ws hu), mem _ ?_⟩
    · conv => lhs; rw [← hd]
      rw [paint, paintFrom_append_odd 1 (by omega) _ _ hlen]
      simp [paintFrom, paint]
    · rw [← hd, colours_append 1 (by omega)] at h1
      rcases List.mem_append.mp h1 with h1 | h1
      · exact h1
      · rw [Spec.flip, if_neg (by omega)] at h1
        simp [colours] at h1

theorem everyReading_nil (line : List Nat) (h : ∀ y, readLine (scanAs y) line = none ∧ readLine (scanAs y) line.reverse = none) :
    everyReading line = [] := by
  unfold everyReading
  rw [List.flatMap_eq_nil_iff]
  intro y _
  rw [(h y).1, (h y).2]
  rfl

/-- C103. A symbol printed light on dark, with dark margins of more than two modules, is not misread: nothing is read. -/
theorem C103_unread (b : Build) (k : Kind) (s : List Char) (ms : List Nat) (hd : Drawn b k s ms) (y : Symbology) (t : List Char)
    (ho : OnlyReading ms y t) (q x r : Nat) (hx : 0 < x) (hq : 2 * x < q) (hr : 2 * x < r) :
    everyReading (negative (onPaper q x r ms)) = [] ∧ everyReading (negative (onPaper q x r ms)).reverse = [] := by
  obtain ⟨us, z, rfl, hodd, hp, h1⟩ := drawn_core b k s ms hd
  have hne : us ≠ [] := by intro h; rw [h] at hodd; simp at hodd
  have hrev : ∀ w ∈ us.reverse, 0 < w := fun w hw => hp w (List.mem_reverse.mp hw)
  have look : Look y us ∨ Look y us.reverse := by
    have hm : (y, t) ∈ everyReading (onPaper 0 1 0 (paint us ++ List.replicate z 0)) := by
      rw [(ho 0 1 0 (by omega)).1]; simp
    unfold everyReading at hm
    obtain ⟨y', -, hm⟩ := List.mem_flatMap.mp hm
    obtain ⟨t', ht, e⟩ := List.mem_map.mp hm
    cases e
    obtain ⟨e1, e2⟩ := readLine_both (scanAs y) us z hodd hp h1 0 1 0 (by omega)
    rw [e1, e2] at ht
    rcases List.mem_append.mp ht with ht | ht
    · exact Or.inl (seen y _ t (by simpa using ht) us (elements_paint us hp hne) hodd)
    · exact Or.inr (seen y _ t (by simpa using ht) us.reverse (elements_paint _ hrev (by simpa using hne))
        (by rw [List.length_reverse]; exact hodd))
  have hline : negative (onPaper q x r (paint us ++ List.replicate z 0)) =
      paint (q :: us.map (· * x) ++ [z * x + r]) := by
    rw [onPaper, stretch_append, stretch_zeros, paint, stretch_paintFrom, List.append_assoc, List.append_assoc,
      List.replicate_append_replicate, paint, List.cons_append, paintFrom, paintFrom_append_odd 0 (by omega) _ _ (by
        rw [List.length_map]; exact hodd)]
    have e0 := negative_paintFrom 1 (by omega) (us.map (· * x))
    simp only [negative] at e0 ⊢
    rw [List.map_append, List.map_append, e0]
    simp [paintFrom]
  have hback : (paint (q :: us.map (· * x) ++ [z * x + r])).reverse =
      paint ((z * x + r) :: us.reverse.map (· * x) ++ [q]) := by
    rw [paint_reverse_odd _ (by simp; omega)]
    simp
  have look' : Look y us.reverse ∨ Look y us.reverse.reverse := by
    rw [List.reverse_reverse]; exact look.symm
  have n1 := fun y' => negative_unread y y' us hodd hp h1 look q x (z * x + r) hx hq (by omega)
  have n2 := fun y' => negative_unread y y' us.reverse (by rw [List.length_reverse]; exact hodd) hrev
    (List.mem_reverse.mpr h1) look' (z * x + r) x q hx (by omega) hq
  rw [hline]
  constructor
  · exact everyReading_nil _ (fun y' => ⟨n1 y', by rw [hback]; exact n2 y'⟩)
  · exact everyReading_nil _ (fun y' => ⟨by rw [hback]; exact n2 y', by rw [List.reverse_reverse]; exact n1 y'⟩)

example : ∃ ms, Drawn .debug .ean8 "5512345".toList ms ∧ everyReading (onPaper 14 2 20 ms) = [(.ean8, "55123457".toList)] ∧
    everyReading (negative (onPaper 14 2 20 ms)) = [] := ⟨_, ⟨_, rfl, rfl⟩, by decide +kernel, by decide +kernel⟩

/-- C103. A reader that tries the line and its negative reads a symbol exactly once, whether it is printed dark on light or light
on dark, and from either end. -/
theorem C103_polarity (b : Build) (k : Kind) (s : List Char) (ms : List Nat) (hd : Drawn b k s ms) (y : Symbology) (t : List Char)
    (ho : OnlyReading ms y t) (q x r : Nat) (hx : 0 < x) (hq : 2 * x < q) (hr : 2 * x < r) :
    eitherPolarity (onPaper q x r ms) = [(y, t)] ∧ eitherPolarity (onPaper q x r ms).reverse = [(y, t)] ∧
    eitherPolarity (negative (onPaper q x r ms)) = [(y, t)] ∧
    eitherPolarity (negative (onPaper q x r ms)).reverse = [(y, t)] := by
  obtain ⟨h1, h2⟩ := C103_unread b k s ms hd y t ho q x r hx hq hr
  obtain ⟨g1, g2⟩ := ho q x r hx
  have hb : ∀ m ∈ onPaper q x r ms, m = 0 ∨ m = 1 := by
    intro m hm
    rw [onPaper] at hm
    rcases List.mem_append.mp hm with hm | hm
    · rcases List.mem_append.mp hm with hm | hm
      · exact Or.inl (List.mem_replicate.mp hm).2
      · rw [stretch] at hm
        obtain ⟨c, hc, hm⟩ := List.mem_flatMap.mp hm
        rw [(List.mem_replicate.mp hm).2]
        exact drawn_binary b k s ms hd c hc
    · exact Or.inl (List.mem_replicate.mp hm).2
  have nn := negative_negative _ hb
  unfold eitherPolarity
  refine ⟨?_, ?_, ?_, ?_⟩
  · rw [g1, h1]; rfl
  · rw [negative_reverse, g2, h2]; rfl
  · rw [h1, nn, g1]; rfl
  · rw [h2, negative_reverse, nn, g2]; rfl

/-- An EAN-8 in white on black, held upside down. -/
example : ∃ ms, Drawn .debug .ean8 "5512345".toList ms ∧ everyReading (negative (onPaper 14 2 20 ms)) = [] ∧
    eitherPolarity (negative (onPaper 14 2 20 ms)).reverse = [(.ean8, "55123457".toList)] :=
  ⟨_, ⟨_, rfl, rfl⟩, by decide +kernel, by decide +kernel⟩

end Barcoders
