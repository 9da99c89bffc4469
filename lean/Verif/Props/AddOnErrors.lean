import Verif.Spec.AddOn
import Verif.Props.Supplemental

/-!
# C74: one misread character of an add-on

An add-on has no check digit; the sets of its characters take that role.
-/

set_option autoImplicit false

namespace Barcoders
open Spec

/-- The scanner is the character reader followed by the test of the sets. -/
theorem scanAddOn_characters (ms : List Nat) :
    scanAddOn ms = (addOnCharacters ms).bind (fun cs =>
      if addOnOk (cs.map Prod.fst) (cs.map Prod.snd) = true then some (cs.map Prod.snd) else none) := by
  unfold scanAddOn addOnCharacters readAddOn
  cases elements ms with
  | none => rfl
  | some es =>
    simp only [Option.bind_eq_bind, Option.bind_some]
    cases expect [1, 1, 2] es with
    | none => rfl
    | some es =>
      simp only [Option.bind_some]
      cases readN 4 readAB 1 es with
      | none => rfl
      | some r =>
        obtain ⟨first, es⟩ := r
        simp only [Option.bind_some]
        cases readAll 6 readAddOnDigit es with
        | none => rfl
        | some more => rfl

/-- The characters of a drawn add-on fit. -/
theorem addOn_drawn (b : Build) (s : List Char) (x : EanSupp.EANSUPP) (ms : List Nat) (hx : EanSupp.new s = .ok x)
    (he : EanSupp.encode b x = .ok ms) (cs : List (Bool × Nat)) (hc : addOnCharacters ms = some cs) :
    addOnOk (cs.map Prod.fst) (cs.map Prod.snd) = true ∧ cs.map Prod.snd = digitsOf s := by
  obtain ⟨ms', h1, h2⟩ := C12_eansupp_scan b s x hx
  rw [he, Outcome.ok.injEq] at h1
  subst h1
  rw [scanAddOn_characters, hc, Option.bind_some] at h2
  split at h2
  · exact ⟨by assumption, Option.some.inj h2⟩
  · cases h2

/-- Two B characters in five. -/
theorem ean5Sets_two : ∀ n < 10, ((ean5Sets.getD n []).filter id).length = 2 := by decide

theorem addOnOk_five (p : List (Bool × Nat)) (h : addOnOk (p.map Prod.fst) (p.map Prod.snd) = true) (h5 : p.length = 5) :
    ((p.map Prod.fst).filter id).length = 2 := by
  match p, h5 with
  | [x1, x2, x3, x4, x5], _ =>
    simp only [List.map_cons, List.map_nil, addOnOk, beq_iff_eq] at h ⊢
    have := ean5Sets_two ((3 * x1.snd + 9 * x2.snd + 3 * x3.snd + 9 * x4.snd + 3 * x5.snd) % 10) (Nat.mod_lt _ (by omega))
    rw [List.getD, h] at this
    exact this

theorem ean5Sets_inj : ∀ n < 10, ∀ m < 10, ean5Sets[n]? = ean5Sets[m]? → n = m := by decide

theorem readN_mem {α : Type} (k : Nat) (f : List Nat → Option α) (n : Nat) (es rest : List Nat) (l : List α)
    (h : readN k f n es = some (l, rest)) : ∀ r ∈ l, ∃ w, f w = some r := by
  induction n generalizing es rest l with
  | zero => rw [readN] at h; cases h; simp
  | succ n ih =>
    rw [readN] at h
    split at h
    · cases h
    · cases h1 : f (es.take k) with
      | none => rw [h1] at h; cases h
      | some x =>
        cases h2 : readN k f n (es.drop k) with
        | none => rw [h1, h2] at h; cases h
        | some y =>
          obtain ⟨l', r'⟩ := y
          rw [h1, h2] at h
          cases h
          intro r hr
          rcases List.mem_cons.mp hr with rfl | hr
          · exact ⟨_, h1⟩
          · exact ih _ _ _ h2 r hr

theorem readAllFrom_mem {α : Type} (k : Nat) (f : List Nat → Option α) (acc es : List Nat) (l : List α)
    (h : readAllFrom k f acc es = some l) : ∀ r ∈ l, ∃ w, f w = some r := by
  induction es generalizing acc l with
  | nil =>
    rw [readAllFrom] at h
    split at h <;> cases h
    simp
  | cons e es ih =>
    rw [readAllFrom] at h
    split at h
    · cases h1 : f (acc ++ [e]) with
      | none => rw [h1] at h; cases h
      | some x =>
        cases h2 : readAllFrom k f [] es with
        | none => rw [h1, h2] at h; cases h
        | some y =>
          rw [h1, h2] at h
          cases h
          intro r hr
          rcases List.mem_cons.mp hr with rfl | hr
          · exact ⟨_, h1⟩
          · exact ih _ _ h2 r hr
    · exact ih _ _ h

theorem readAB_lt (w : List Nat) (r : Bool × Nat) (h : readAB w = some r) : r.2 < 10 := by
  have key : ∀ w d, position eanWidths w = some d → d < 10 := by
    intro w d h
    exact (List.findIdx?_eq_some_iff_getElem.mp h).1
  rw [readAB] at h
  split at h
  · cases h; exact key _ _ (by assumption)
  · rw [Option.map_eq_some_iff] at h
    obtain ⟨d, hd, rfl⟩ := h
    exact key _ _ hd

/-- The characters are digits. -/
theorem addOnCharacters_lt (ms : List Nat) (cs : List (Bool × Nat)) (h : addOnCharacters ms = some cs) : ∀ r ∈ cs, r.2 < 10 := by
  unfold addOnCharacters at h
  simp only [Option.bind_eq_bind, Option.bind_eq_some_iff] at h
  obtain ⟨es, -, es', -, ⟨first, es''⟩, h1, more, h2, h3⟩ := h
  cases h3
  intro r hr
  rcases List.mem_append.mp hr with hr | hr
  · obtain ⟨w, hw⟩ := readN_mem _ _ _ _ _ _ h1 r hr
    exact readAB_lt w r hw
  · obtain ⟨w, hw⟩ := readAllFrom_mem _ _ _ _ _ h2 r hr
    rw [readAddOnDigit, Option.bind_eq_some_iff] at hw
    obtain ⟨w', -, hw⟩ := hw
    exact readAB_lt w' r hw

/-- C74. If exactly one character of a five-digit add-on is misread, whether its digit, its set or both, the scanner notices. -/
theorem C74_ean5_single_error (b : Build) (s : List Char) (x : EanSupp.EANSUPP) (ms ms' : List Nat)
    (hx : EanSupp.new s = .ok x) (he : EanSupp.encode b x = .ok ms) (h5 : s.length = 5)
    (p q : List (Bool × Nat)) (a c : Bool × Nat) (hp : addOnCharacters ms = some (p ++ a :: q))
    (hq : addOnCharacters ms' = some (p ++ c :: q)) (hne : a ≠ c) : scanAddOn ms' = none := by
  obtain ⟨ok1, hd⟩ := addOn_drawn b s x ms hx he _ hp
  have hl : (p ++ a :: q).length = 5 := by
    have := congrArg List.length hd
    simpa [digitsOf, h5] using this
  have hl' : (p ++ c :: q).length = 5 := by simpa using hl
  have ha : a.2 < 10 := addOnCharacters_lt _ _ hp a (by simp)
  have hc : c.2 < 10 := addOnCharacters_lt _ _ hq c (by simp)
  rw [scanAddOn_characters, hq, Option.bind_some, if_neg]
  intro ok2
  by_cases hs : a.1 = c.1
  · have hs2 : a.2 ≠ c.2 := fun h => hne (Prod.ext hs h)
    have hset : (p ++ c :: q).map Prod.fst = (p ++ a :: q).map Prod.fst := by simp [hs]
    rw [hset] at ok2
    match p, q, hl with
    | [], [_, _, _, _], _ =>
      simp only [List.nil_append, List.map_cons, List.map_nil, addOnOk, beq_iff_eq] at ok1 ok2
      have := ean5Sets_inj _ (Nat.mod_lt _ (by omega)) _ (Nat.mod_lt _ (by omega)) (ok1.trans ok2.symm)
      omega
    | [_], [_, _, _], _ =>
      simp only [List.nil_append, List.cons_append, List.map_cons, List.map_nil, addOnOk, beq_iff_eq] at ok1 ok2
      have := ean5Sets_inj _ (Nat.mod_lt _ (by omega)) _ (Nat.mod_lt _ (by omega)) (ok1.trans ok2.symm)
      omega
    | [_, _], [_, _], _ =>
      simp only [List.nil_append, List.cons_append, List.map_cons, List.map_nil, addOnOk, beq_iff_eq] at ok1 ok2
      have := ean5Sets_inj _ (Nat.mod_lt _ (by omega)) _ (Nat.mod_lt _ (by omega)) (ok1.trans ok2.symm)
      omega
    | [_, _, _], [_], _ =>
      simp only [List.nil_append, List.cons_append, List.map_cons, List.map_nil, addOnOk, beq_iff_eq] at ok1 ok2
      have := ean5Sets_inj _ (Nat.mod_lt _ (by omega)) _ (Nat.mod_lt _ (by omega)) (ok1.trans ok2.symm)
      omega
    | [_, _, _, _], [], _ =>
      simp only [List.nil_append, List.cons_append, List.map_cons, List.map_nil, addOnOk, beq_iff_eq] at ok1 ok2
      have := ean5Sets_inj _ (Nat.mod_lt _ (by omega)) _ (Nat.mod_lt _ (by omega)) (ok1.trans ok2.symm)
      omega
    | _ :: _ :: _ :: _ :: _ :: _, _, hl => simp at hl
  · have h1 := addOnOk_five _ ok1 hl
    have h2 := addOnOk_five _ ok2 hl'
    simp only [List.map_append, List.map_cons, List.filter_append, List.length_append, List.filter_cons, id] at h1 h2
    cases h : a.1 <;> cases h' : c.1 <;> simp [h, h'] at h1 h2 hs <;> omega

-- the first character of "05999" replaced by the odd 1
example : ∃ x ms, EanSupp.new "05999".toList = .ok x ∧ EanSupp.encode .debug x = .ok ms ∧ scanAddOn ms = some [0, 5, 9, 9, 9] ∧
    (addOnCharacters (ms.take 4 ++ [0, 0, 1, 1, 0, 0, 1] ++ ms.drop 11)).map (fun l => (l.length, l.head?)) =
      some (5, some (false, 1)) ∧ ((addOnCharacters ms).map List.tail =
    (addOnCharacters (ms.take 4 ++ [0, 0, 1, 1, 0, 0, 1] ++ ms.drop 11)).map List.tail) ∧
    scanAddOn (ms.take 4 ++ [0, 0, 1, 1, 0, 0, 1] ++ ms.drop 11) = none := ⟨_, _, rfl, rfl, by decide +kernel⟩

/-- C74. A two-digit add-on is weaker. A misread first digit in the right set goes unnoticed exactly if it has the right parity, a
misread second digit exactly if it is right modulo 4. -/
theorem C74_ean2_single_error (b : Build) (s : List Char) (x : EanSupp.EANSUPP) (ms ms' : List Nat)
    (hx : EanSupp.new s = .ok x) (he : EanSupp.encode b x = .ok ms)
    (g g' : Bool) (d e d' e' : Nat) (hp : addOnCharacters ms = some [(g, d), (g', e)])
    (hq : addOnCharacters ms' = some [(g, d'), (g', e')]) :
    (e' = e → (scanAddOn ms' = some [d', e] ↔ d' % 2 = d % 2)) ∧
    (d' = d → (scanAddOn ms' = some [d, e'] ↔ e' % 4 = e % 4)) ∧
    (scanAddOn ms' = none ∨ scanAddOn ms' = some [d', e']) := by
  obtain ⟨ok1, -⟩ := addOn_drawn b s x ms hx he _ hp
  have hinj : ∀ n < 4, ∀ m < 4, ean2Sets[n]? = ean2Sets[m]? → n = m := by decide
  have key : addOnOk [g, g'] [d', e'] = true ↔ (10 * d' + e') % 4 = (10 * d + e) % 4 := by
    simp only [List.map_cons, List.map_nil, addOnOk, beq_iff_eq] at ok1 ⊢
    constructor
    · intro h
      exact hinj _ (Nat.mod_lt _ (by omega)) _ (Nat.mod_lt _ (by omega)) (h.trans ok1.symm)
    · intro h
      rw [h, ok1]
  have hscan : scanAddOn ms' = if addOnOk [g, g'] [d', e'] = true then some [d', e'] else none := by
    rw [scanAddOn_characters, hq]; rfl
  have hite : scanAddOn ms' = some [d', e'] ↔ (10 * d' + e') % 4 = (10 * d + e) % 4 := by
    rw [hscan, ← key]
    split <;> simp_all
  refine ⟨?_, ?_, ?_⟩
  · rintro rfl; rw [hite]; omega
  · rintro rfl; rw [hite]; omega
  · rw [hscan]; split <;> simp

example : ∃ x ms, EanSupp.new "05".toList = .ok x ∧ EanSupp.encode .debug x = .ok ms ∧
    addOnCharacters ms = some [(false, 0), (true, 5)] ∧
    addOnCharacters (ms.take 4 ++ [0, 0, 1, 1, 0, 0, 1] ++ ms.drop 11) = some [(false, 1), (true, 5)] ∧
    scanAddOn (ms.take 4 ++ [0, 0, 1, 1, 0, 0, 1] ++ ms.drop 11) = none := ⟨_, _, rfl, rfl, by decide +kernel⟩

/-- C74. An unnoticed error: the first digit of the add-on 05 misread as 2, in the same set, is taken for 25. -/
theorem C74_ean2_unnoticed (b : Build) : ∃ x ms ms', EanSupp.new "05".toList = .ok x ∧ EanSupp.encode b x = .ok ms ∧
    addOnCharacters ms = some [(false, 0), (true, 5)] ∧ addOnCharacters ms' = some [(false, 2), (true, 5)] ∧
    scanAddOn ms' = some [2, 5] := by
  refine ⟨_, _, [1, 0, 1, 1, 0, 0, 1, 0, 0, 1, 1, 0, 1, 0, 1, 1, 1, 0, 0, 1], rfl, by cases b <;> rfl, by decide, by decide, by decide⟩

/-- The third character of 51234, a 2 in set B, misread as a 9 in set B: noticed. -/
example : ∃ x ms, EanSupp.new "51234".toList = .ok x ∧ EanSupp.encode .debug x = .ok ms ∧
    ∃ p q, addOnCharacters ms = some (p ++ (true, 2) :: q) ∧
      addOnCharacters (ms.take 22 ++ [0, 0, 1, 0, 1, 1, 1] ++ ms.drop 29) = some (p ++ (true, 9) :: q) ∧
      scanAddOn (ms.take 22 ++ [0, 0, 1, 0, 1, 1, 1] ++ ms.drop 29) = none := by
  refine ⟨_, _, rfl, rfl, [(false, 5), (false, 1)], [(false, 3), (true, 4)], by decide, by decide, by decide⟩

end Barcoders
