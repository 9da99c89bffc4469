import Verif.Spec.Shape
import Verif.Lemmas.CheckedNew
import Verif.Lemmas.EanSupp
import Verif.Props.Code39
import Verif.Props.Code93
import Verif.Props.Code11
import Verif.Props.Codabar
import Verif.Props.TF
import Verif.Props.Code128

/-! # The element widths of every constructed symbol -/

set_option autoImplicit false

namespace Barcoders

open Spec

/-! ## Rows painted from widths -/

theorem paintFrom_head (c w : Nat) (ws : List Nat) (h : 0 < w) : (paintFrom c (w :: ws)).head? = some c := by
  obtain ⟨w, rfl⟩ := Nat.exists_eq_succ_of_ne_zero (by omega : w ≠ 0)
  simp [paintFrom, List.replicate_succ]

theorem paint_row (ws : List Nat) (n k e : Nat) (hp : ∀ w ∈ ws, 0 < w ∧ w ≤ k) (hn : ws.sum = n) (hne : ws ≠ [])
    (he : ws.length % 2 = e) : Row n e k (paint ws) where
  binary := paintFrom_binary 1 (by omega) ws
  first := by
    obtain ⟨w, r, rfl⟩ := List.exists_cons_of_ne_nil hne
    exact paintFrom_head 1 w r (hp w (by simp)).1
  last := by
    have hr := paintFrom_reverse 1 (by omega) ws
    rw [← List.head?_reverse]
    unfold paint
    rw [hr]
    have hne' : ws.reverse ≠ [] := by simpa using hne
    obtain ⟨w, r, hw⟩ := List.exists_cons_of_ne_nil hne'
    have : w ∈ ws := by rw [← List.mem_reverse, hw]; simp
    rw [hw, paintFrom_head _ w r (hp w this).1]
    unfold Spec.flip
    split <;> congr 1 <;> omega
  length := by rw [paint, paintFrom_length, hn]
  widest := by
    intro r hr
    rw [paint, runs_paintFrom 1 (by omega) ws (fun w hw => (hp w hw).1)] at hr
    have : r.2 ∈ (colours 1 ws).map Prod.snd := List.mem_map_of_mem hr
    rw [colours_snd] at this
    exact (hp _ this).2

theorem flatMap_sum {α : Type} (k : Nat) (f : α → List Nat) (l : List α) (h : ∀ a ∈ l, (f a).sum = k) :
    (l.flatMap f).sum = k * l.length := by
  induction l with
  | nil => rfl
  | cons a l ih =>
    rw [List.flatMap_cons, List.sum_append, h a (by simp), ih (fun x hx => h x (by simp [hx])), List.length_cons,
      Nat.mul_succ, Nat.add_comm]

/-! ## EAN and UPC -/

theorem ean13_symbol (b : Build) (s : List Char) (x : Ean13.EAN13) (h : Ean13.new b s = .ok x) :
    ∃ d0 ls rs, d0 < 10 ∧ Digits ls ∧ Digits rs ∧ ls.length = 6 ∧ rs.length = 6 ∧
      d0 :: (ls ++ rs) = (digitsOf s).take 12 ++ [gs1Digit ((digitsOf s).take 12)] ∧
      ∀ b', Ean13.encode b' x = .ok (paint (ean13Widths d0 ls rs)) := by
  rw [ean13_new] at h
  obtain ⟨rfl, hD, -, hl, -⟩ := decision_ok Ean13.EAN13.mk 12 s x h
  have hd := digits_take _ 12 (digits_lt s hD)
  generalize (digitsOf s).take 12 = ds at *
  obtain ⟨d0, d1, ls, rs, rfl, hll, hlr⟩ := split12 ds hl
  exact ⟨d0, d1 :: ls, rs ++ [gs1Digit (d0 :: d1 :: (ls ++ rs))], digits_head hd,
    digits_append (digits_single (digits_head (digits_tail hd))) (digits_left (digits_tail (digits_tail hd))),
    digits_append (digits_right (digits_tail (digits_tail hd))) (digits_single (gs1Digit_lt _)), by simp [hll],
    by simp [hlr], by simp, fun b' => ean13_encode_eq b' d0 d1 ls rs hll hlr hd⟩

theorem ean8_symbol (b : Build) (s : List Char) (x : Ean8.EAN8) (h : Ean8.new b s = .ok x) :
    ∃ ls rs, Digits ls ∧ Digits rs ∧ ls.length = 4 ∧ rs.length = 4 ∧
      ls ++ rs = (digitsOf s).take 7 ++ [gs1Digit ((digitsOf s).take 7)] ∧
      ∀ b', Ean8.encode b' x = .ok (paint (halvesWidths (ls.flatMap wA) (rs.flatMap wA))) := by
  rw [ean8_new] at h
  obtain ⟨rfl, hD, -, hl, -⟩ := decision_ok Ean8.EAN8.mk 7 s x h
  have hd := digits_take _ 7 (digits_lt s hD)
  generalize (digitsOf s).take 7 = ds at *
  obtain ⟨ns, ls, rs, rfl, hn, hll, hlr⟩ := split7 ds hl
  exact ⟨ns ++ ls, rs ++ [gs1Digit (ns ++ (ls ++ rs))], digits_append (digits_left hd) (digits_left (digits_right hd)),
    digits_append (digits_right (digits_right hd)) (digits_single (gs1Digit_lt _)), by simp [hn, hll], by simp [hlr],
    by simp, fun b' => ean8_encode_eq b' ns ls rs hn hll hlr hd⟩

theorem upca_symbol (b : Build) (s : List Char) (x : Upca.UPCA) (h : Upca.new b s = .ok x) :
    ∃ ls rs, Digits ls ∧ Digits rs ∧ ls.length = 6 ∧ rs.length = 6 ∧
      ls ++ rs = (digitsOf s).take 11 ++ [gs1Digit ((digitsOf s).take 11)] ∧
      ∀ b', Upca.encode b' x = .ok (paint (halvesWidths (ls.flatMap wA) (rs.flatMap wA))) := by
  rw [upca_new] at h
  obtain ⟨rfl, hD, -, hl, -⟩ := decision_ok Upca.UPCA.mk 11 s x h
  have hd := digits_take _ 11 (digits_lt s hD)
  generalize (digitsOf s).take 11 = ds at *
  obtain ⟨ls, rs, rfl, hll, hlr⟩ := split11 ds hl
  exact ⟨ls, rs ++ [gs1Digit (ls ++ rs)], digits_left hd, digits_append (digits_right hd) (digits_single (gs1Digit_lt _)),
    hll, by simp [hlr], by simp, fun b' => upca_encode_eq b' ls rs hll hlr hd⟩

theorem wA_sum : ∀ d < 10, (wA d).sum = 7 := by decide

theorem wAB_sum : ∀ d < 10, ∀ s, (wAB (s, d)).sum = 7 := by decide

theorem wA_flatMap_sum (ds : List Nat) (h : Digits ds) : (ds.flatMap wA).sum = 7 * ds.length :=
  flatMap_sum 7 wA ds (fun d hd => wA_sum d (h d hd))

theorem wAB_flatMap_sum (ps : List (Bool × Nat)) (h : ∀ p ∈ ps, p.2 < 10) : (ps.flatMap wAB).sum = 7 * ps.length :=
  flatMap_sum 7 wAB ps (fun p hp => wAB_sum p.2 (h p hp) p.1)

theorem halves_row (left right : List Nat) (n : Nat) (hl : ∀ w ∈ left, 0 < w ∧ w ≤ 4) (hr : ∀ w ∈ right, 0 < w ∧ w ≤ 4)
    (he : left.length % 2 = 0) (he' : right.length % 2 = 0) (hn : left.sum + right.sum + 11 = n) :
    Row n 1 4 (paint (halvesWidths left right)) :=
  paint_row _ n 4 1 (halves_pos _ _ hl hr) (by simp [halvesWidths]; omega) (halves_ne_nil _ _)
    (by simp [halvesWidths]; omega)

theorem ean13_row (d0 : Nat) (ls rs : List Nat) (h0 : d0 < 10) (hls : Digits ls) (hrs : Digits rs) (ll : ls.length = 6)
    (lr : rs.length = 6) : Row 95 1 4 (paint (ean13Widths d0 ls rs)) := by
  have hz := zip_snd_lt (setsOf d0) ls hls
  have hlen : ((setsOf d0).zip ls).length = 6 := by simp [(parity_spec d0 h0).2.2.2.2.2, ll]
  exact halves_row _ _ 95 (flatMap_wAB_pos _ hz) (flatMap_wA_pos _ hrs) (by rw [wAB_length_of _ hz]; omega)
    (by rw [wA_length_of _ hrs]; omega) (by rw [wAB_flatMap_sum _ hz, wA_flatMap_sum _ hrs]; omega)

theorem halvesA_row (n : Nat) (ls rs : List Nat) (hls : Digits ls) (hrs : Digits rs)
    (hn : 7 * (ls.length + rs.length) + 11 = n) : Row n 1 4 (paint (halvesWidths (ls.flatMap wA) (rs.flatMap wA))) :=
  halves_row _ _ n (flatMap_wA_pos _ hls) (flatMap_wA_pos _ hrs) (by rw [wA_length_of _ hls]; omega)
    (by rw [wA_length_of _ hrs]; omega) (by rw [wA_flatMap_sum _ hls, wA_flatMap_sum _ hrs]; omega)

theorem suppWidths_row (ps : List (Bool × Nat)) (h : ∀ p ∈ ps, p.2 < 10) (hne : ps ≠ []) :
    Row (9 * ps.length + 2) 1 4 (paint (suppWidths ps)) := by
  obtain ⟨p, ps, rfl⟩ := List.exists_cons_of_ne_nil hne
  have hp := h p (by simp)
  have hps : ∀ q ∈ ps, q.2 < 10 := fun q hq => h q (by simp [hq])
  have hs : (ps.flatMap (fun q => [1, 1] ++ wAB q)).sum = 9 * ps.length :=
    flatMap_sum 9 _ ps (fun q hq => by
      rw [List.sum_append, wAB_sum q.2 (hps q hq) q.1]; rfl)
  have hl : (ps.flatMap (fun q => [1, 1] ++ wAB q)).length = 6 * ps.length :=
    flatMap_length 6 _ ps (fun q hq => by
      rw [List.length_append, (wAB_spec q.2 (hps q hq) q.1).1]; rfl)
  have h7 : (wAB p).sum = 7 := wAB_sum p.2 hp p.1
  have h4 : (wAB p).length = 4 := (wAB_spec p.2 hp p.1).1
  refine paint_row _ _ 4 1 ?_ ?_ ?_ ?_
  · intro w hw
    simp only [suppWidths, List.mem_append, List.mem_flatMap, List.mem_cons, List.not_mem_nil, or_false] at hw
    rcases hw with hw | hw | ⟨q, hq, hw | hw⟩
    · omega
    · exact wAB_pos p.2 hp p.1 w hw
    · omega
    · exact wAB_pos q.2 (hps q hq) q.1 w hw
  · simp only [suppWidths, List.sum_append, h7, hs, List.length_cons]
    simp; omega
  · simp [suppWidths]
  · simp only [suppWidths, List.length_append, h4, hl]
    simp; omega

/-! ## Code 39, Code 93, Code 11 -/

theorem code39_symbol (s : List Char) (k : Bool) (x : Code39.Code39) (h : Code39.init s k = .ok x) :
    (∀ c ∈ (if k then s ++ [code39Check s] else s), c ∈ code39Alphabet) ∧
      Code39.encode x = .ok (paint (code39Widths (if k then s ++ [code39Check s] else s))) := by
  obtain ⟨rfl, hA⟩ := code39_init_ok s k x h
  exact ⟨code39_text_mem ⟨s, k⟩ hA, code39_encode_eq ⟨s, k⟩ hA⟩

theorem w39_sum : ∀ c ∈ '*' :: code39Alphabet, (w39 c).sum = 12 := by decide

theorem code39_row (t : List Char) (h : ∀ c ∈ t, c ∈ code39Alphabet) :
    Row (13 * t.length + 25) 1 2 (paint (code39Widths t)) := by
  have hm := star_cons_mem _ _ h
  have hs := flatMap_sum 13 (fun c => w39 c ++ [1]) ('*' :: t) (fun c hc => by
    rw [List.sum_append, w39_sum c (hm c hc)]; rfl)
  have hl := flatMap_length 10 (fun c => w39 c ++ [1]) ('*' :: t) (fun c hc => by
    rw [List.length_append, (w39_spec c (hm c hc)).1]; rfl)
  have h9 : (w39 '*').length = 9 := by decide
  refine paint_row _ _ 2 1 (code39_widths_pos t h) ?_ ?_ ?_
  · rw [code39Widths, List.sum_append, hs, w39_sum '*' (by simp), List.length_cons]; omega
  · intro h0
    have := congrArg List.length h0
    rw [code39Widths, List.length_append, h9] at this
    simp at this
  · rw [code39Widths, List.length_append, hl, h9]; omega

theorem code93_symbol (s : List Char) (x : Code93.Code93) (h : Code93.new s = .ok x) :
    (∀ c ∈ code93Text s, c ∈ code93Alphabet) ∧ Code93.encode x = .ok (paint (code93SymWidths (code93Text s))) := by
  obtain ⟨rfl, hA⟩ := code93_new_ok s x h
  exact ⟨code93_text_mem _ hA, code93_encode_eq _ hA⟩

theorem w93_sum : ∀ c ∈ '*' :: code93Alphabet, (w93 c).sum = 9 := by decide

theorem code93_row (t : List Char) (h : ∀ c ∈ t, c ∈ code93Alphabet) :
    Row (9 * t.length + 19) 1 4 (paint (code93SymWidths t)) := by
  have hm := star_text_mem _ _ h
  have hs := flatMap_sum 9 w93 ('*' :: (t ++ ['*'])) (fun c hc => w93_sum c (hm c hc))
  have hl := flatMap_length 6 w93 ('*' :: (t ++ ['*'])) (fun c hc => (w93_spec c (hm c hc)).1)
  refine paint_row _ _ 4 1 (code93_widths_pos t h) ?_ ?_ ?_
  · rw [code93SymWidths, List.sum_append, hs]; simp; omega
  · simp [code93SymWidths]
  · rw [code93SymWidths, List.length_append, hl]; simp; omega

theorem code93Text_length (s : List Char) : (code93Text s).length = s.length + 2 := by simp [code93Text]

theorem code11_symbol (s : List Char) (x : Code11.Code11) (h : Code11.new s = .ok x) :
    (∀ c ∈ code11Text s, c ∈ code11Alphabet) ∧ Code11.encode x = .ok (paint (code11SymWidths (code11Text s))) := by
  obtain ⟨rfl, hA⟩ := code11_new_ok s x h
  exact ⟨code11_text_mem _ hA, code11_encode_eq _ hA⟩

theorem w11_sum : ∀ c ∈ code11Alphabet, (w11 c).sum + (if c = '0' ∨ c = '9' ∨ c = '-' then 1 else 0) = 7 := by decide

theorem code11_flatMap_sum (t : List Char) (h : ∀ c ∈ t, c ∈ code11Alphabet) :
    (t.flatMap (fun c => w11 c ++ [1])).sum + t.countP (fun c => c = '0' ∨ c = '9' ∨ c = '-') = 8 * t.length := by
  induction t with
  | nil => rfl
  | cons c t ih =>
    have h1 := w11_sum c (h c (by simp))
    have h2 := ih (fun c hc => h c (by simp [hc]))
    simp only [List.flatMap_cons, List.sum_append, List.countP_cons, List.length_cons]
    simp only [decide_eq_true_eq]
    simp only [List.sum_cons, List.sum_nil]
    omega

theorem code11_row (t : List Char) (h : ∀ c ∈ t, c ∈ code11Alphabet) :
    Row (8 * t.length + 15 - t.countP (fun c => c = '0' ∨ c = '9' ∨ c = '-')) 1 2 (paint (code11SymWidths t)) := by
  have hm := star_cons_mem _ _ h
  have hs := code11_flatMap_sum t h
  have hl := flatMap_length 6 (fun c => w11 c ++ [1]) ('*' :: t) (fun c hc => by
    rw [List.length_append, (w11_spec c (hm c hc)).1]; rfl)
  have h9 : (w11 '*').length = 5 := by decide
  have h7 : (w11 '*').sum = 7 := by decide
  have hcnt : t.countP (fun c => c = '0' ∨ c = '9' ∨ c = '-') ≤ t.length := List.countP_le_length
  refine paint_row _ _ 2 1 (code11_widths_pos t h) ?_ ?_ ?_
  · rw [code11SymWidths, List.sum_append, List.flatMap_cons, List.sum_append, List.sum_append, h7]
    simp only [List.sum_cons, List.sum_nil]
    omega
  · intro h0
    have := congrArg List.length h0
    rw [code11SymWidths, List.length_append, h9] at this
    simp at this
  · rw [code11SymWidths, List.length_append, hl, h9]; omega

/-! ## Codabar -/

theorem codabar_symbol (s : List Char) (x : Codabar.Codabar) (h : Codabar.new s = .ok x) :
    ∃ cs c, s = cs ++ [c] ∧ (∀ d ∈ s, d ∈ codabarAlphabet) ∧
      Codabar.encode x = paint (codabarSymWidths (cs.map unitOf) (unitOf c)) := by
  obtain ⟨rfl, hA, hne⟩ := codabar_new_ok s x h
  have hcs := List.dropLast_concat_getLast hne
  refine ⟨s.dropLast, s.getLast hne, hcs.symm, hA, ?_⟩
  rw [← codabar_encode_eq, ← List.map_singleton, ← List.map_append, hcs]

/-- Modules beyond nine of a Codabar character. -/
def codabarExtra (c : Char) : Nat := if c ∈ ":/.ABCD".toList then 1 else if c = '+' then 3 else 0

theorem wU_sum : ∀ c ∈ codabarAlphabet, (wU (unitOf c)).sum = 9 + codabarExtra c := by decide

theorem codabar_flatMap_sum (t : List Char) (h : ∀ c ∈ t, c ∈ codabarAlphabet) :
    ((t.map unitOf).flatMap (fun u => wU u ++ [1])).sum = 10 * t.length + (t.map codabarExtra).sum := by
  induction t with
  | nil => rfl
  | cons c t ih =>
    have h1 := wU_sum c (h c (by simp))
    have h2 := ih (fun c hc => h c (by simp [hc]))
    simp only [List.map_cons, List.flatMap_cons, List.sum_append, List.sum_cons, List.sum_nil, List.length_cons, h2, h1]
    omega

theorem codabar_row (cs : List Char) (c : Char) (h : ∀ d ∈ cs ++ [c], d ∈ codabarAlphabet) :
    Row (10 * (cs ++ [c]).length - 1 + ((cs ++ [c]).map codabarExtra).sum) 1 2
      (paint (codabarSymWidths (cs.map unitOf) (unitOf c))) := by
  have hs := codabar_flatMap_sum cs (fun d hd => h d (by simp [hd]))
  have hc := wU_sum c (h c (by simp))
  have hl := flatMap_length 8 (fun u => wU u ++ [1]) (cs.map unitOf) (fun u _ => by
    rw [List.length_append, (wU_spec u).2.1]; rfl)
  have h7 := (wU_spec (unitOf c)).2.1
  refine paint_row _ _ 2 1 (codabar_widths_pos _ _) ?_ ?_ ?_
  · rw [codabarSymWidths, List.sum_append, hs, hc]
    simp; omega
  · intro h0
    have := congrArg List.length h0
    rw [codabarSymWidths, List.length_append, h7] at this
    simp at this
  · rw [codabarSymWidths, List.length_append, hl, h7]; omega

/-! ## Two of five -/

theorem stf_symbol (s : List Char) (t : TF.TF) (h : TF.standard s = .ok t) :
    AllDigits s ∧ TF.encode t = .ok (paint (stfWidths (digitsOf s))) := by
  rw [stf_new] at h
  split at h
  · cases h
  · split at h
    · cases h
    · rename_i hD
      have hD : AllDigits s := by simpa using hD
      cases h
      exact ⟨hD, stf_encode_eq _ (digits_lt s hD)⟩

theorem itf_symbol (b : Build) (s : List Char) (t : TF.TF) (h : TF.interleaved b s = .ok t) :
    ∃ ds, Digits ds ∧ ds.length % 2 = 0 ∧ ds.length = s.length + s.length % 2 ∧ AllDigits s ∧
      ((s.length % 2 = 0 ∧ ds = digitsOf s) ∨ (s.length % 2 = 1 ∧ ∃ c < 10, ds = digitsOf s ++ [c])) ∧
      TF.encode t = .ok (paint (itfWidths ds)) := by
  have key : ∀ ds, AllDigits s → Digits ds → ds.length % 2 = 0 → ds.length = s.length + s.length % 2 →
      ((s.length % 2 = 0 ∧ ds = digitsOf s) ∨ (s.length % 2 = 1 ∧ ∃ c < 10, ds = digitsOf s ++ [c])) →
      t = .Interleaved ds → _ := fun ds hD hd he hl hc ht =>
    (⟨ds, hd, he, hl, hD, hc, ht ▸ itf_encode_eq ds hd he⟩ :
      ∃ ds, Digits ds ∧ ds.length % 2 = 0 ∧ ds.length = s.length + s.length % 2 ∧ AllDigits s ∧
      ((s.length % 2 = 0 ∧ ds = digitsOf s) ∨ (s.length % 2 = 1 ∧ ∃ c < 10, ds = digitsOf s ++ [c])) ∧
      TF.encode t = .ok (paint (itfWidths ds)))
  have hlen : (digitsOf s).length = s.length := by simp [digitsOf]
  rw [itf_new] at h
  split at h
  · cases h
  · split at h
    · cases h
    · rename_i hD
      have hD : AllDigits s := by simpa using hD
      have hds := digits_lt s hD
      split at h
      · rename_i he
        cases h
        exact key _ hD hds (by omega) (by omega) (Or.inl ⟨he, rfl⟩) rfl
      · have ho : s.length % 2 = 1 := by omega
        split at h
        · cases h
          exact key _ hD (digits_append hds (digits_single (gs1Digit_lt _))) (by simp; omega) (by simp; omega)
            (Or.inr ⟨ho, _, gs1Digit_lt _, rfl⟩) rfl
        · cases b with
          | debug => cases h
          | release =>
            cases h
            have hc : (10 - altSum 3 (digitsOf s).reverse % 256 % 10) % 10 < 10 := by omega
            exact key _ hD (digits_append hds (digits_single hc)) (by simp; omega) (by simp; omega)
              (Or.inr ⟨ho, _, hc, rfl⟩) rfl

theorem wStf_sum : ∀ d < 10, (wStf d).sum = 14 := by decide

theorem wItf_sum : ∀ a < 10, ∀ b < 10, (wItf (a, b)).sum = 18 := by decide

theorem stf_row (ds : List Nat) (hd : Digits ds) : Row (14 * ds.length + 16) 0 3 (paint (stfWidths ds)) := by
  have hs := flatMap_sum 14 wStf ds (fun d h => wStf_sum d (hd d h))
  refine paint_row _ _ 3 0 (stf_pos ds hd) ?_ ?_ (stfWidths_even ds hd)
  · rw [stfWidths, List.sum_append, List.sum_append, hs]; simp; omega
  · simp [stfWidths]

theorem itf_row (ds : List Nat) (hd : Digits ds) (he : ds.length % 2 = 0) :
    Row (9 * ds.length + 8) 1 3 (paint (itfWidths ds)) := by
  have hs := flatMap_sum 18 wItf (pairs ds) (fun p h => wItf_sum p.1 (pairs_lt ds hd p h).1 p.2 (pairs_lt ds hd p h).2)
  have hl := flatMap_length 10 wItf (pairs ds) (fun p h =>
    (wItf_spec p.1 (pairs_lt ds hd p h).1 p.2 (pairs_lt ds hd p h).2).1)
  have hp := pairs_length ds
  refine paint_row _ _ 3 1 (itf_pos ds hd) ?_ ?_ ?_
  · rw [itfWidths, List.sum_append, List.sum_append, hs]; simp; omega
  · simp [itfWidths]
  · rw [itfWidths, List.length_append, List.length_append, hl]; simp; omega

/-! ## Code 128 -/

theorem w128_sum : ∀ v < 106, (w128 v).sum = 11 := by decide

theorem code128_row (vs : List Nat) (h : ∀ v ∈ vs, v < 106) : Row (11 * vs.length + 13) 1 4 (paint (code128Widths vs)) := by
  have hs := flatMap_sum 11 w128 vs (fun v hv => w128_sum v (h v hv))
  have h13 : code128Stop.sum = 13 ∧ code128Stop.length = 7 := by decide
  refine paint_row _ _ 4 1 (code128_widths_pos vs h) ?_ ?_ ?_
  · rw [code128Widths, List.sum_append, hs, h13.1]
  · intro h0
    have := congrArg List.length h0
    rw [code128Widths, List.length_append, h13.2] at this
    simp at this
  · rw [code128Widths, List.length_append, w128_length vs h, h13.2]; omega

/-- Whenever encoding succeeds, whatever the length. -/
theorem code128_symbol_full (b : Build) (s : List Char) (x : Code128.Code128) (ms : List Nat) (h : Code128.new s = .ok x)
    (he : Code128.encode b x = .ok ms) :
    ∃ set data c, code128Decode set data = some (code128Regroup s).tail ∧
      (code128Regroup s).head? = some (CodeSet.char set) ∧ (∀ v ∈ set.start :: data ++ [c], v < 106) ∧
      ms = paint (code128Widths (set.start :: data ++ [c])) ∧ x.units.map Code128.Unit.index = set.start :: data := by
  obtain ⟨set, data, h1, h2, h3, -, h5⟩ := code128_symbols s x h
  have hu : ∀ v ∈ x.units.map Code128.Unit.index, v < 106 := by
    rw [h5]
    intro v hv
    rcases List.mem_cons.mp hv with rfl | hv
    · exact start_lt set
    · exact Nat.lt_trans (h3 v hv) (by omega)
  cases hc : Code128.checksumValue b x with
  | err e => simp [Code128.encode, Code128.checksumEncoding, hc, payload128 x.units hu] at he
  | panic p => simp [Code128.encode, Code128.checksumEncoding, hc, payload128 x.units hu] at he
  | ok c =>
    by_cases hlt : c < 106
    · rw [encode128_ok b x.units c hu hlt hc] at he
      cases he
      refine ⟨set, data, c, h1, h2, ?_, by rw [h5], h5⟩
      intro v hv
      rw [← h5, List.mem_append, List.mem_singleton] at hv
      rcases hv with hv | rfl
      · exact hu v hv
      · exact hlt
    · have := unitEncoding_panic ⟨.A, c⟩ (by simpa using hlt)
      simp [Code128.encode, Code128.checksumEncoding, hc, payload128 x.units hu, this] at he

/-- Whenever encoding succeeds, whatever the length. -/
theorem code128_symbol (b : Build) (s : List Char) (x : Code128.Code128) (ms : List Nat) (h : Code128.new s = .ok x)
    (he : Code128.encode b x = .ok ms) :
    ∃ set data c, code128Decode set data = some (code128Regroup s).tail ∧
      (code128Regroup s).head? = some (CodeSet.char set) ∧ (∀ v ∈ set.start :: data ++ [c], v < 106) ∧
      ms = paint (code128Widths (set.start :: data ++ [c])) := by
  obtain ⟨set, data, c, h1, h2, h3, h4, -⟩ := code128_symbol_full b s x ms h he
  exact ⟨set, data, c, h1, h2, h3, h4⟩

end Barcoders
