import Verif.Props.Errors
import Verif.Props.Code39
set_option autoImplicit false

/-! C95: two wrong characters in Code 39 and in Code 128, exactly. -/

namespace Barcoders
open Spec

/-! ## Code 39 -/

theorem code39Checked_some (bits : List Nat) (d : List Char) (k : Char) (hk : k ∈ code39Alphabet)
    (h : scanCode39 bits = some (d ++ [k])) :
    (∃ t, scanCode39Checked bits = some t) ↔ (d.map code39Value).sum % 43 = code39Value k := by
  constructor
  · rintro ⟨t, ht⟩
    rw [code39_checked_iff bits _ t h] at ht
    obtain ⟨rfl, h2⟩ := List.append_inj' ht rfl
    rw [← code39Value_check, List.cons.inj h2 |>.1]
  · intro hv
    refine ⟨d, (code39_checked_iff bits _ d h).2 ?_⟩
    have hm : code39Check d ∈ code39Alphabet := by
      have key : ∀ i < 43, code39Alphabet.getD i ' ' ∈ code39Alphabet := by decide
      exact key _ (Nat.mod_lt _ (by omega))
    rw [← code39Value_check] at hv
    rw [code39Value_inj _ _ hm hk hv]

theorem code39_checked_text (s : List Char) (x : Code39.Code39) (hx : Code39.withChecksum s = .ok x) (bits : List Nat)
    (he : Code39.encode x = .ok bits) (d : List Char) (k : Char) (hr : scanCode39 bits = some (d ++ [k])) :
    (d.map code39Value).sum % 43 = code39Value k ∧ (∀ e ∈ d, e ∈ code39Alphabet) ∧ k ∈ code39Alphabet := by
  obtain ⟨bits0, he0, h1, -⟩ := C14_code39_checksum_scan s x hx
  rw [he] at he0
  cases he0
  obtain ⟨-, hA⟩ := code39_init_ok s true x hx
  rw [h1] at hr
  obtain ⟨rfl, h2⟩ := List.append_inj' (Option.some.inj hr) rfl
  have hk := List.cons.inj h2 |>.1
  refine ⟨by rw [← code39Value_check, hk], hA, ?_⟩
  have key : ∀ i < 43, code39Alphabet.getD i ' ' ∈ code39Alphabet := by decide
  rw [← hk]
  exact key _ (Nat.mod_lt _ (by omega))

/-- C95. Replace two data characters of a checksummed Code 39 symbol by any others: the verifying reader accepts the result
exactly when the values of the new ones have the same sum modulo 43. -/
theorem C95_code39_two_data (s : List Char) (x : Code39.Code39) (hx : Code39.withChecksum s = .ok x)
    (bits : List Nat) (he : Code39.encode x = .ok bits) (p m q : List Char) (a c a' c' k : Char)
    (hr : scanCode39 bits = some (p ++ a :: (m ++ c :: q) ++ [k]))
    (bits' : List Nat) (hr' : scanCode39 bits' = some (p ++ a' :: (m ++ c' :: q) ++ [k])) :
    (∃ t, scanCode39Checked bits' = some t) ↔
      (code39Value a' + code39Value c') % 43 = (code39Value a + code39Value c) % 43 := by
  obtain ⟨h1, -, hk⟩ := code39_checked_text s x hx bits he _ k hr
  rw [code39Checked_some bits' _ k hk hr', ← h1]
  simp only [List.map_append, List.map_cons, List.sum_append, List.sum_cons]
  omega

-- "AB" and "9C" have the same sum, so the change is not noticed
example : (code39Value '9' + code39Value 'C') % 43 = (code39Value 'A' + code39Value 'B') % 43 ∧
    ∃ y bits', Code39.new "9CL".toList = .ok y ∧ Code39.encode y = .ok bits' ∧ scanCode39Checked bits' = some "9C".toList :=
  ⟨by decide, _, _, rfl, rfl, by decide⟩

/-- C95. The same with one data character and the check character. -/
theorem C95_code39_data_and_check (s : List Char) (x : Code39.Code39) (hx : Code39.withChecksum s = .ok x)
    (bits : List Nat) (he : Code39.encode x = .ok bits) (p q : List Char) (a a' k k' : Char)
    (hr : scanCode39 bits = some (p ++ a :: q ++ [k])) (hk' : k' ∈ code39Alphabet)
    (bits' : List Nat) (hr' : scanCode39 bits' = some (p ++ a' :: q ++ [k'])) :
    (∃ t, scanCode39Checked bits' = some t) ↔
      (code39Value a' + code39Value k) % 43 = (code39Value a + code39Value k') % 43 := by
  obtain ⟨h1, -, hk⟩ := code39_checked_text s x hx bits he _ k hr
  rw [code39Checked_some bits' _ k' hk' hr']
  have l1 := code39Value_lt k hk
  have l2 := code39Value_lt k' hk'
  simp only [List.map_append, List.map_cons, List.sum_append, List.sum_cons] at h1 ⊢
  omega

example : (code39Value 'C' + code39Value 'L') % 43 = (code39Value 'B' + code39Value 'M') % 43 ∧
    ∃ y bits', Code39.new "ACM".toList = .ok y ∧ Code39.encode y = .ok bits' ∧ scanCode39Checked bits' = some "AC".toList :=
  ⟨by decide, _, _, rfl, rfl, by decide⟩

/-- C95. Exchanging two data characters, however far apart, is never noticed; exchanging a data character with a different
check character always is. -/
theorem C95_code39_exchange (s : List Char) (x : Code39.Code39) (hx : Code39.withChecksum s = .ok x)
    (bits : List Nat) (he : Code39.encode x = .ok bits) :
    (∀ (p m q : List Char) (a c k : Char) (bits' : List Nat), scanCode39 bits = some (p ++ a :: (m ++ c :: q) ++ [k]) →
      scanCode39 bits' = some (p ++ c :: (m ++ a :: q) ++ [k]) →
      scanCode39Checked bits' = some (p ++ c :: (m ++ a :: q))) ∧
    ∀ (p q : List Char) (a k : Char) (bits' : List Nat), a ≠ k → scanCode39 bits = some (p ++ a :: q ++ [k]) →
      scanCode39 bits' = some (p ++ k :: q ++ [a]) → scanCode39Checked bits' = none := by
  constructor
  · intro p m q a c k bits' hr hr'
    obtain ⟨t, ht⟩ := (C95_code39_two_data s x hx bits he p m q a c c a k hr bits' hr').2 (by rw [Nat.add_comm])
    have h := (code39_checked_iff bits' _ t hr').1 ht
    obtain ⟨rfl, -⟩ := List.append_inj' h rfl
    exact ht
  · intro p q a k bits' hne hr hr'
    obtain ⟨h1, hA, hk⟩ := code39_checked_text s x hx bits he _ k hr
    have ha : a ∈ code39Alphabet := hA a (by simp)
    cases ht : scanCode39Checked bits' with
    | none => rfl
    | some t =>
      exfalso
      have h := (C95_code39_data_and_check s x hx bits he p q a k k a hr ha bits' hr').1 ⟨t, ht⟩
      have l1 := code39Value_lt k hk
      have l2 := code39Value_lt a ha
      exact hne (code39Value_inj a k ha hk (by omega))

-- "AB" has the check character "L"; "9C" has the same sum, "BC" has not
example : ∃ x bits y bits' z bits'', Code39.withChecksum "AB".toList = .ok x ∧ Code39.encode x = .ok bits ∧
    scanCode39 bits = some ([] ++ 'A' :: ([] ++ 'B' :: []) ++ ['L']) ∧
    Code39.new "9CL".toList = .ok y ∧ Code39.encode y = .ok bits' ∧ scanCode39Checked bits' = some "9C".toList ∧
    Code39.new "BCL".toList = .ok z ∧ Code39.encode z = .ok bits'' ∧ scanCode39Checked bits'' = none :=
  ⟨_, _, _, _, _, _, rfl, rfl, by decide, rfl, rfl, by decide, rfl, rfl, by decide⟩

-- "LBA": the data character "A" and the check character "L" exchanged
example : ∃ y bits', Code39.new "LBA".toList = .ok y ∧ Code39.encode y = .ok bits' ∧
    scanCode39 bits' = some ([] ++ 'L' :: ['B'] ++ ['A']) ∧ scanCode39Checked bits' = none :=
  ⟨_, _, rfl, rfl, by decide, by decide⟩

/-! ## Code 128 -/

theorem code128_sum_of (b : Build) (s : List Char) (x : Code128.Code128) (h : Code128.new s = .ok x) (hl : s.length ≤ 6489)
    (ms : List Nat) (he : Code128.encode b x = .ok ms) (start chk : Nat) (data : List Nat)
    (hr : readCode128 ms = some (start :: data ++ [chk])) : chk = code128Sum start data % 103 := by
  obtain ⟨ms', st, data', he', hr'⟩ := code128_check_symbol b s x h hl
  rw [he, Outcome.ok.injEq] at he'
  subst he'
  rw [hr, Option.some.injEq] at hr'
  simp only [List.cons_append, List.cons.injEq] at hr'
  obtain ⟨rfl, h1⟩ := hr'
  obtain ⟨rfl, h2⟩ := List.append_inj' h1 rfl
  simpa using h2

/-- C95. Replace the data symbols at two positions `i < j` (counted from 1) by any others: the check accepts the result
exactly when the changes, multiplied by `i` and by `j`, cancel modulo 103. -/
theorem C95_code128_two_data (b : Build) (s : List Char) (x : Code128.Code128) (h : Code128.new s = .ok x)
    (hl : s.length ≤ 6489) (ms : List Nat) (he : Code128.encode b x = .ok ms) (start chk v w v' w' : Nat)
    (p m q : List Nat) (hr : readCode128 ms = some (start :: (p ++ v :: (m ++ w :: q)) ++ [chk])) (i j : Nat)
    (hi : i = p.length + 1) (hj : j = (p ++ v :: m).length + 1) :
    (∃ r, verifyCode128 (start :: (p ++ v' :: (m ++ w' :: q)) ++ [chk]) = some r) ↔
      (i * v' + j * w') % 103 = (i * v + j * w) % 103 := by
  have hchk := code128_sum_of b s x h hl ms he start chk _ hr
  have hj' : j = 1 + p.length + 1 + m.length := by rw [hj]; simp; omega
  have hi' : i = 1 + p.length := by omega
  have expand : ∀ u t, code128Sum start (p ++ u :: (m ++ t :: q)) =
      (start + positionSum 1 p + positionSum (i + 1) m + positionSum (j + 1) q) + (i * u + j * t) := by
    intro u t
    rw [code128Sum, positionSum_append, positionSum, positionSum_append, positionSum, ← hi', hj', ← hi']
    omega
  constructor
  · rintro ⟨r, hv⟩
    rw [verifyCode128_iff] at hv
    have e := hv.1.symm.trans hchk
    rw [expand, expand] at e
    omega
  · intro e
    refine ⟨_, (verifyCode128_iff _ _ _ (start, _)).2 ⟨?_, rfl⟩⟩
    rw [hchk, expand, expand]
    omega

example : (1 * 42 + 2 * 40) % 103 = (1 * 40 + 2 * 41) % 103 ∧
    verifyCode128 (103 :: ([] ++ 42 :: ([] ++ 40 :: [])) ++ [19]) ≠ none := by decide

/-- C95. The same with the data symbol at position `i` and the check symbol. A wrong check symbol alone (`v' = v`) is always
caught. -/
theorem C95_code128_data_and_check (b : Build) (s : List Char) (x : Code128.Code128) (h : Code128.new s = .ok x)
    (hl : s.length ≤ 6489) (ms : List Nat) (he : Code128.encode b x = .ok ms) (start chk v v' chk' : Nat)
    (p q : List Nat) (hr : readCode128 ms = some (start :: (p ++ v :: q) ++ [chk])) :
    ((∃ r, verifyCode128 (start :: (p ++ v' :: q) ++ [chk']) = some r) ↔
      chk' < 103 ∧ ((p.length + 1) * v' + chk) % 103 = ((p.length + 1) * v + chk') % 103) ∧
    (chk' ≠ chk → verifyCode128 (start :: (p ++ v :: q) ++ [chk']) = none) := by
  have hchk := code128_sum_of b s x h hl ms he start chk _ hr
  have expand : ∀ u, code128Sum start (p ++ u :: q) =
      (start + positionSum 1 p + positionSum (1 + p.length + 1) q) + (p.length + 1) * u := by
    intro u
    rw [code128Sum, positionSum_append, positionSum, Nat.add_comm 1 p.length]
    omega
  refine ⟨⟨?_, ?_⟩, ?_⟩
  · rintro ⟨r, hv⟩
    rw [verifyCode128_iff] at hv
    have e := hv.1
    rw [expand] at e hchk
    omega
  · rintro ⟨hc, e⟩
    refine ⟨_, (verifyCode128_iff _ _ _ (start, _)).2 ⟨?_, rfl⟩⟩
    rw [expand] at hchk ⊢
    omega
  · intro hne
    cases hv : verifyCode128 (start :: (p ++ v :: q) ++ [chk']) with
    | none => rfl
    | some r =>
      rw [verifyCode128_iff] at hv
      exact absurd (hv.1.trans hchk.symm) hne

example : (1 * 41 + 19) % 103 = (1 * 40 + 20) % 103 ∧ verifyCode128 (103 :: ([] ++ 41 :: [41]) ++ [20]) ≠ none ∧
    verifyCode128 (103 :: ([] ++ 40 :: [41]) ++ [20]) = none := by decide

/-- C95. Exchanging two unequal data symbols is noticed unless their distance is a multiple of 103. -/
theorem C95_code128_exchange (b : Build) (s : List Char) (x : Code128.Code128) (h : Code128.new s = .ok x)
    (hl : s.length ≤ 6489) (ms : List Nat) (he : Code128.encode b x = .ok ms) (start chk v w : Nat)
    (p m q : List Nat) (hr : readCode128 ms = some (start :: (p ++ v :: (m ++ w :: q)) ++ [chk]))
    (hv : v < 103) (hw : w < 103) (hne : v ≠ w) :
    (∃ r, verifyCode128 (start :: (p ++ w :: (m ++ v :: q)) ++ [chk]) = some r) ↔ (m.length + 1) % 103 = 0 := by
  rw [C95_code128_two_data b s x h hl ms he start chk v w w v p m q hr _ _ rfl rfl]
  have hj : (p ++ v :: m).length + 1 = (p.length + 1) + (m.length + 1) := by simp; omega
  rw [hj]
  generalize p.length + 1 = i
  generalize m.length + 1 = d
  rw [Nat.add_mul, Nat.add_mul]
  constructor
  · intro e
    refine Decidable.byContradiction fun hd => hne ?_
    apply mul_cancel_103 d v w hd hv hw
    generalize i * v = A at *
    generalize i * w = B at *
    omega
  · intro hd
    obtain ⟨k, hk⟩ : ∃ k, d = 103 * k := ⟨d / 103, by omega⟩
    rw [hk, Nat.mul_assoc, Nat.mul_assoc]
    omega

-- start A, "H" "I": with 40 and 41 exchanged the check symbol 19 does not fit; with 42 and 40 (two more, one less) it does
example : ∃ x ms, Code128.new "ÀHI".toList = .ok x ∧ Code128.encode .debug x = .ok ms ∧
    readCode128 ms = some (103 :: ([] ++ 40 :: ([] ++ 41 :: [])) ++ [19]) ∧
    verifyCode128 (103 :: ([] ++ 41 :: ([] ++ 40 :: [])) ++ [19]) = none ∧
    verifyCode128 (103 :: ([] ++ 42 :: ([] ++ 40 :: [])) ++ [19]) ≠ none ∧
    verifyCode128 (103 :: ([] ++ 41 :: [41]) ++ [20]) ≠ none :=
  ⟨_, _, rfl, rfl, by decide +kernel, by decide, by decide, by decide⟩

end Barcoders
