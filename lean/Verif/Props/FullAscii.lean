import Verif.Spec.FullAscii
import Verif.Props.Code39
import Verif.Props.Code93

/-!
# C81: full ASCII text in Code 39 and Code 93
-/

set_option autoImplicit false

namespace Barcoders
open Spec

/-- One character, in front of anything that follows. -/
theorem fullAscii_write (alphabet : List Char) (sh : Shifts) (c : Char)
    (h : (match writeAscii alphabet sh c with
      | [a] => decide (a = c ∧ c ∉ [sh.dollar, sh.percent, sh.slash, sh.plus])
      | [s, l] => decide (s ∈ [sh.dollar, sh.percent, sh.slash, sh.plus] ∧ fullAsciiPair sh s l = some c)
      | _ => false) = true) (r : List Char) :
    fullAscii sh (writeAscii alphabet sh c ++ r) = (fullAscii sh r).map (c :: ·) := by
  split at h
  · next a e =>
    rw [e]
    have := of_decide_eq_true h
    obtain ⟨rfl, hn⟩ := this
    rw [List.singleton_append]
    cases r with
    | nil =>
      show (if a ∈ [sh.dollar, sh.percent, sh.slash, sh.plus] then none else some [a]) = some [a]
      rw [if_neg hn]
    | cons d r => rw [fullAscii, if_neg hn]
  · next s l e =>
    rw [e]
    obtain ⟨hs, hp⟩ := of_decide_eq_true h
    rw [List.cons_append, List.singleton_append, fullAscii, if_pos hs, hp]
    rfl
  · cases h

theorem write_ok (alphabet : List Char) (sh : Shifts)
    (key : ∀ n < 128, (match writeAscii alphabet sh (Char.ofNat n) with
      | [a] => decide (a = Char.ofNat n ∧ Char.ofNat n ∉ [sh.dollar, sh.percent, sh.slash, sh.plus])
      | [s, l] => decide (s ∈ [sh.dollar, sh.percent, sh.slash, sh.plus] ∧ fullAsciiPair sh s l = some (Char.ofNat n))
      | _ => false) = true)
    (mem : ∀ n < 128, ∀ d ∈ writeAscii alphabet sh (Char.ofNat n), d ∈ alphabet)
    (t : List Char) (h : ∀ c ∈ t, c.toNat < 128) :
    fullAscii sh (t.flatMap (writeAscii alphabet sh)) = some t ∧ (∀ d ∈ t.flatMap (writeAscii alphabet sh), d ∈ alphabet) ∧
      t.length ≤ (t.flatMap (writeAscii alphabet sh)).length ∧ (t.flatMap (writeAscii alphabet sh)).length ≤ 2 * t.length := by
  have key' : ∀ c : Char, c.toNat < 128 → _ := fun c hc => key c.toNat hc
  have mem' : ∀ c : Char, c.toNat < 128 → _ := fun c hc => mem c.toNat hc
  simp only [Char.ofNat_toNat] at key' mem'
  induction t with
  | nil => exact ⟨rfl, by simp, by simp, by simp⟩
  | cons c t ih =>
    obtain ⟨h1, h2, h3, h4⟩ := ih (fun c hc => h c (by simp [hc]))
    have hc := h c (by simp)
    have hk := key' c hc
    rw [List.flatMap_cons, fullAscii_write alphabet sh c hk, h1]
    have hl : 1 ≤ (writeAscii alphabet sh c).length ∧ (writeAscii alphabet sh c).length ≤ 2 := by
      split at hk
      · next e => rw [e]; simp
      · next e => rw [e]; simp
      · cases hk
    refine ⟨rfl, ?_, ?_, ?_⟩
    · intro d hd
      rcases List.mem_append.mp hd with hd | hd
      · exact mem' c hc d hd
      · exact h2 d hd
    · rw [List.length_append, List.length_cons]; omega
    · rw [List.length_append, List.length_cons]; omega

theorem write39 (t : List Char) (h : ∀ c ∈ t, c.toNat < 128) :
    fullAscii code39Shifts (t.flatMap (writeAscii code39Alphabet code39Shifts)) = some t ∧
    (∀ d ∈ t.flatMap (writeAscii code39Alphabet code39Shifts), d ∈ code39Alphabet) ∧
    t.length ≤ (t.flatMap (writeAscii code39Alphabet code39Shifts)).length ∧
    (t.flatMap (writeAscii code39Alphabet code39Shifts)).length ≤ 2 * t.length :=
  write_ok code39Alphabet code39Shifts (by decide +kernel) (by decide +kernel) t h

theorem write93 (t : List Char) (h : ∀ c ∈ t, c.toNat < 128) :
    fullAscii code93Shifts (t.flatMap (writeAscii code93Alphabet code93Shifts)) = some t ∧
    (∀ d ∈ t.flatMap (writeAscii code93Alphabet code93Shifts), d ∈ code93Alphabet) ∧
    t.length ≤ (t.flatMap (writeAscii code93Alphabet code93Shifts)).length ∧
    (t.flatMap (writeAscii code93Alphabet code93Shifts)).length ≤ 2 * t.length :=
  write_ok code93Alphabet code93Shifts (by decide +kernel) (by decide +kernel) t h

theorem small_bytes (s : List Char) (h : byteLen s = s.length) (hl : s.length ≤ 256) : byteLen s < 2 ^ 32 := by omega

/-- C81. Every nonempty ASCII text of up to 128 characters, written in shift pairs, is accepted by Code 39, with and without
check character, and a scanner in full ASCII mode reads exactly the text. -/
theorem C81_code39 (t : List Char) (hn : t ≠ []) (hl : t.length ≤ 128) (h : ∀ c ∈ t, c.toNat < 128) :
    (∃ x ms, Code39.new (t.flatMap (writeAscii code39Alphabet code39Shifts)) = .ok x ∧ Code39.encode x = .ok ms ∧
      (scanCode39 ms).bind (fullAscii code39Shifts) = some t) ∧
    (∃ x ms, Code39.withChecksum (t.flatMap (writeAscii code39Alphabet code39Shifts)) = .ok x ∧ Code39.encode x = .ok ms ∧
      (scanCode39Checked ms).bind (fullAscii code39Shifts) = some t) := by
  obtain ⟨h1, h2, h3, h4⟩ := write39 t h
  have hp := List.length_pos_iff.mpr hn
  have hb := C13_code39_accepts _ (small_bytes _ (code39_byteLen _ h2) (by omega))
  obtain ⟨x, hx⟩ := hb.1.mpr ⟨by omega, by omega, h2⟩
  obtain ⟨y, hy⟩ := hb.2.mpr ⟨by omega, by omega, h2⟩
  obtain ⟨ms, he, hs⟩ := C14_code39_scan _ x hx
  obtain ⟨ms', he', -, hs'⟩ := C14_code39_checksum_scan _ y hy
  exact ⟨⟨x, ms, hx, he, by rw [hs, Option.bind_some, h1]⟩, ⟨y, ms', hy, he', by rw [hs', Option.bind_some, h1]⟩⟩

example : "a!".toList.flatMap (writeAscii code39Alphabet code39Shifts) = "+A/A".toList ∧
    ∃ x ms, Code39.new "+A/A".toList = .ok x ∧ Code39.encode x = .ok ms ∧
      (scanCode39 ms).bind (fullAscii code39Shifts) = some "a!".toList := ⟨by decide +kernel, _, _, rfl, rfl, by decide +kernel⟩

/-- C81. The same for Code 93 with its own shift characters. -/
theorem C81_code93 (t : List Char) (hn : t ≠ []) (hl : t.length ≤ 128) (h : ∀ c ∈ t, c.toNat < 128) :
    ∃ x ms, Code93.new (t.flatMap (writeAscii code93Alphabet code93Shifts)) = .ok x ∧ Code93.encode x = .ok ms ∧
      (scanCode93 ms).bind (fullAscii code93Shifts) = some t := by
  obtain ⟨h1, h2, h3, h4⟩ := write93 t h
  have hp := List.length_pos_iff.mpr hn
  obtain ⟨x, hx⟩ := (C16_code93_accepts _ (small_bytes _ (code93_byteLen _ h2) (by omega))).mpr ⟨by omega, by omega, h2⟩
  obtain ⟨ms, he, hs⟩ := C17_code93_scan _ x hx
  exact ⟨x, ms, hx, he, by rw [hs, Option.bind_some, h1]⟩

example : ∃ x ms, Code93.new ("a!".toList.flatMap (writeAscii code93Alphabet code93Shifts)) = .ok x ∧ Code93.encode x = .ok ms ∧
    (scanCode93 ms).bind (fullAscii code93Shifts) = some "a!".toList := by
  refine ⟨⟨"a!".toList.flatMap (writeAscii code93Alphabet code93Shifts)⟩, _, by decide +kernel, rfl, by decide +kernel⟩

theorem fullAscii_common (sh : Shifts) (t : List Char) (h : ∀ c ∈ t, c ∉ [sh.dollar, sh.percent, sh.slash, sh.plus]) :
    fullAscii sh t = some t := by
  induction t with
  | nil => rfl
  | cons c t ih =>
    have ih := ih (fun c hc => h c (by simp [hc]))
    have hc := h c (by simp)
    cases t with
    | nil => rw [fullAscii, if_neg hc]
    | cons d t => rw [fullAscii, if_neg hc, ih]; rfl

/-- C81. Text of the characters both modes have in common is read the same in full ASCII mode: for Code 39 without
`$ % / +`, for Code 93 without the four shift characters. -/
theorem C81_common (s : List Char) :
    (∀ x, Code39.new s = .ok x → (∀ c ∈ s, c ∉ "$%/+".toList) →
      ∃ ms, Code39.encode x = .ok ms ∧ (scanCode39 ms).bind (fullAscii code39Shifts) = some s) ∧
    (∀ x, Code39.withChecksum s = .ok x → (∀ c ∈ s, c ∉ "$%/+".toList) →
      ∃ ms, Code39.encode x = .ok ms ∧ (scanCode39Checked ms).bind (fullAscii code39Shifts) = some s) ∧
    (∀ x, Code93.new s = .ok x → (∀ c ∈ s, c ∉ "()[]".toList) →
      ∃ ms, Code93.encode x = .ok ms ∧ (scanCode93 ms).bind (fullAscii code93Shifts) = some s) := by
  refine ⟨fun x hx h => ?_, fun x hx h => ?_, fun x hx h => ?_⟩
  · obtain ⟨ms, he, hs⟩ := C14_code39_scan s x hx
    exact ⟨ms, he, by rw [hs, Option.bind_some, fullAscii_common code39Shifts s h]⟩
  · obtain ⟨ms, he, -, hs⟩ := C14_code39_checksum_scan s x hx
    exact ⟨ms, he, by rw [hs, Option.bind_some, fullAscii_common code39Shifts s h]⟩
  · obtain ⟨ms, he, hs⟩ := C17_code93_scan s x hx
    exact ⟨ms, he, by rw [hs, Option.bind_some, fullAscii_common code93Shifts s h]⟩

example : ∃ x ms, Code93.new "A$B".toList = .ok x ∧ Code93.encode x = .ok ms ∧
    (scanCode93 ms).bind (fullAscii code93Shifts) = some "A$B".toList := ⟨_, _, rfl, rfl, by decide +kernel⟩
example : "Hi, 50%!\n".toList.flatMap (writeAscii code39Alphabet code39Shifts) = "H+I/L 50/E/A$J".toList := by decide +kernel
example : "Hi, 50%!\n".toList.flatMap (writeAscii code93Alphabet code93Shifts) = "H]I[L 50%[A(J".toList := by decide +kernel
example : ∃ x ms, Code93.new "H]I[L 50%[A(J".toList = .ok x ∧ Code93.encode x = .ok ms ∧
    (scanCode93 ms).bind (fullAscii code93Shifts) = some "Hi, 50%!\n".toList := ⟨_, _, rfl, rfl, by decide +kernel⟩
example : ∃ x ms, Code39.withChecksum "H+I".toList = .ok x ∧ Code39.encode x = .ok ms ∧
    (scanCode39Checked ms).bind (fullAscii code39Shifts) = some "Hi".toList := ⟨_, _, rfl, rfl, by decide +kernel⟩

end Barcoders
