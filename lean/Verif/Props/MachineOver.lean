import Verif.Props.MachineProg
import Mathlib.Tactic.Ring

/-!
C99, continued: sizes that do not fit into `int`.
-/

namespace Verif.Machine

open Verif.Spec

variable {α : Type}

/-- **C99 fails for more than 2^32 rows**: an element stored at row `2^32` is read back at row 0, although
both are rows of the matrix and nothing was stored at row 0. -/
theorem C99_alias_violated [Zero α] (v : α) :
    (∃ A : MCoo α, (MCoo.new 4294967297 1).insert 4294967296 0 v = .ok A ∧ A.at_ 0 0 = .ok v) ∧
      (∃ A : Coo α, (Coo.new 4294967297 1).insert 4294967296 0 v = .ok A ∧ A.at_ 0 0 = .ok 0) :=
  ⟨⟨_, rfl, rfl⟩, ⟨_, rfl, rfl⟩⟩

/-- writing every element of a range that leaves the array is undefined -/
theorem forFrom_wr_ub {β : Type} {f : Nat → β} : ∀ (n lo : Nat) (l : List β), l.length ≤ lo + n → lo < l.length →
    forFrom lo (n + 1) (fun j rp => wr rp (j + 1) (f j)) l = .ub "write out of bounds" := by
  intro n
  induction n with
  | zero => intro lo l h h'; omega
  | succ n ih =>
    intro lo l h h'
    unfold forFrom
    by_cases e : lo + 1 < l.length
    · dsimp only
      rw [wr_ok e, Res.ok_bind]
      exact ih (lo + 1) _ (by rw [List.length_set]; omega) (by rw [List.length_set]; omega)
    · have hw : wr l (lo + 1) (f lo) = .ub "write out of bounds" := by unfold wr; rw [if_neg e]
      dsimp only
      rw [hw]
      rfl

/-- **C99 fails for more than 2^31 rows**: an element of row `2^31` (a row of the matrix) is stored with a
negative index; the conversion of the matrix to CRS writes outside the row pointer array. -/
theorem C99_convert_violated [Zero α] (v : α) :
    ∃ A : MCoo α, (MCoo.new 2147483649 1).insert 2147483648 0 v = .ok A ∧
      MCrs.empty.convertCoo A = .ub "write out of bounds" := by
  refine ⟨_, rfl, ?_⟩
  unfold MCrs.convertCoo
  have h1 : MCrs.resize ({ (MCrs.empty : MCrs α) with rowN := 2147483649, colN := 1, created := true }) 1 0 =
      .ok ⟨2147483649, 1, [], [], [0], 1, 1, true⟩ := rfl
  refine Eq.trans (congrArg (· >>= _) h1) ?_
  rw [Res.ok_bind]
  have h2 : vcopy 1 [v] [(0 : α)] = .ok [v] := rfl
  refine Eq.trans (congrArg (· >>= _) h2) ?_
  rw [Res.ok_bind]
  dsimp only
  have hl : (stdResize ([] : List Int) (2147483649 + 1) 0) = List.replicate 2147483650 0 := by
    unfold stdResize
    simp only [List.take_nil, List.nil_append, List.length_nil, Nat.sub_zero]
  rw [hl, wr_ok (by rw [List.length_replicate]; omega), Res.ok_bind]
  have hstep : ∀ l : List Int, l.length = 2147483650 →
      MCrs.convStep [toInt 2147483648] 0 (0, l) = .ub "write out of bounds" := by
    intro l hl
    unfold MCrs.convStep
    have e1 : rd [toInt 2147483648] 0 = .ok (-2147483648) := rfl
    rw [e1, Res.ok_bind, if_neg (show ¬toInt 0 = -2147483648 by decide)]
    have e2 : toSize (-2147483648) = 18446744071562067968 := by decide
    rw [e2]
    unfold forRange
    have := forFrom_wr_ub (f := fun _ => toInt 0) (18446744071562067968 - (0 + 1) - 1) (0 + 1) l (by omega) (by omega)
    rw [show 18446744071562067968 - (0 + 1) - 1 + 1 = 18446744071562067968 - (0 + 1) by omega] at this
    dsimp only
    rw [this]
    rfl
  unfold forN
  show (forFrom 0 (0 + 1) _ _ >>= _) = _
  unfold forFrom
  refine Eq.trans (congrArg (fun z => (z >>= _) >>= _) (hstep _ (by rw [List.length_set, List.length_replicate]))) ?_
  rfl

/-- **C99 fails for the grid Laplacian with 2^31 or more points**: signed overflow in `m * n`. -/
theorem C99_laplacian_violated [Zero α] [IntCast α] (m n : Nat) (h : 2147483648 ≤ m * n) :
    (laplacian2D m n : Res (MCoo α)) = .ub "signed overflow" := by
  unfold laplacian2D
  have hmn : (m : Int) * n = ((m * n : Nat) : Int) := by push_cast; rfl
  have hc : chk ((m : Int) * n) = .ub "signed overflow" := by
    unfold chk
    rw [hmn, if_neg (by omega)]
  rw [hc]
  rfl

/-- a case: 46341 x 46341 -/
example : (laplacian2D 46341 46341 : Res (MCoo Int)) = .ub "signed overflow" :=
  C99_laplacian_violated _ _ (by decide)

/-! The counter that nobody reads -/

theorem chk_le {z w : Int} (h : chk z = .ok w) : w = z ∧ z ≤ 2147483647 := by
  unfold chk at h
  split at h
  · cases h; exact ⟨rfl, by omega⟩
  · cases h

theorem lapInsert_ctr [Zero α] {c : Bool} {s s' : Int × MCoo α} {i j : Int} {v : α}
    (h : lapInsert c s i j v = .ok s') (hs : s.1 ≤ 2147483647) :
    s'.1 = s.1 + (if c then 1 else 0) ∧ s'.1 ≤ 2147483647 := by
  unfold lapInsert at h
  split at h
  · next hc =>
    obtain ⟨A, _, h⟩ := Res.bind_eq_ok.1 h
    obtain ⟨k, hk, h⟩ := Res.bind_eq_ok.1 h
    cases h
    have := chk_le hk
    simp only [hc, if_true]
    omega
  · next hc =>
    cases h
    simp only [hc]
    exact ⟨by simp, hs⟩

theorem forFromI_inv {B : Type} {P : Nat → B → Prop} {body : Int → B → Res B} {n : Nat}
    (hb : ∀ i s s', i < n → P i s → body (i : Int) s = .ok s' → P (i + 1) s') :
    ∀ (k lo : Nat), lo + k = n → ∀ {s s' : B}, P lo s → forFromI (lo : Int) k body s = .ok s' → P n s' := by
  intro k
  induction k with
  | zero => intro lo e s s' h h'; cases h'; rw [← e]; exact h
  | succ k ih =>
    intro lo e s s' h h'
    unfold forFromI at h'
    obtain ⟨t, ht, h'⟩ := Res.bind_eq_ok.1 h'
    refine ih (lo + 1) (by omega) (hb lo s t (by omega) h ht) ?_
    rwa [show ((lo + 1 : Nat) : Int) = (lo : Int) + 1 from by omega]

/-- number of insertions of the first `ii` grid points -/
def lapCount (m n ii : Nat) : Nat :=
  (ii - min ii m) + (ii - (ii / m + if ii % m = 0 then 0 else 1)) + ii + (ii - ii / m) + min ii ((n - 1) * m)

theorem lapCount_succ {m n ii : Nat} (hi : ii < m * n) :
    lapCount m n (ii + 1) = lapCount m n ii + (if ii / m > 0 then 1 else 0) + (if ii % m > 0 then 1 else 0) + 1
      + (if ii % m + 1 < m then 1 else 0) + (if ii / m + 1 < n then 1 else 0) := by
  have hm : 0 < m := Nat.pos_of_ne_zero (by rintro rfl; omega)
  have hd := Nat.div_add_mod ii m
  have hr := Nat.mod_lt ii hm
  have h1 : (ii / m > 0) ↔ m ≤ ii := by rw [gt_iff_lt, Nat.div_pos_iff]; omega
  have h2 : (ii / m + 1 < n) ↔ ii < (n - 1) * m := by
    rw [← Nat.div_lt_iff_lt_mul hm]
    have : 0 < n := Nat.pos_of_ne_zero (by rintro rfl; omega)
    generalize ii / m = q
    omega
  have hq : ii / m ≤ m * (ii / m) := Nat.le_mul_of_pos_left _ hm
  have h3 : (ii + 1) / m = ii / m + (if ii % m + 1 = m then 1 else 0) ∧
      (ii + 1) % m = (if ii % m + 1 = m then 0 else ii % m + 1) := by
    by_cases e : ii % m + 1 = m
    · rw [if_pos e, if_pos e]
      have : ii + 1 = m * (ii / m + 1) := by rw [Nat.mul_add]; omega
      rw [this]
      exact ⟨Nat.mul_div_cancel_left _ hm, Nat.mul_mod_right _ _⟩
    · rw [if_neg e, if_neg e]
      have : ii + 1 = (ii % m + 1) + m * (ii / m) := by omega
      have hlt : ii % m + 1 < m := by omega
      constructor
      · conv_lhs => rw [this]
        rw [Nat.add_mul_div_left _ _ hm, Nat.div_eq_of_lt hlt]; omega
      · conv_lhs => rw [this]
        rw [Nat.add_mul_mod_self_left, Nat.mod_eq_of_lt hlt]
  unfold lapCount
  rw [h3.1, h3.2]
  simp only [h1, h2]
  clear h1 h2 h3
  generalize (n - 1) * m = t
  generalize m * (ii / m) = mq at *
  generalize ii / m = q at *
  generalize ii % m = r at *
  have a1 : ii + 1 - min (ii + 1) m = (ii - min ii m) + (if m ≤ ii then 1 else 0) := by split <;> omega
  have a5 : min (ii + 1) t = min ii t + (if ii < t then 1 else 0) := by split <;> omega
  have a2 : ii + 1 - (q + (if r + 1 = m then 1 else 0) + (if (if r + 1 = m then 0 else r + 1) = 0 then 0 else 1))
      = (ii - (q + if r = 0 then 0 else 1)) + (if r > 0 then 1 else 0) := by
    by_cases e : r + 1 = m
    · simp only [e, if_true]; split <;> split <;> omega
    · simp only [e, if_false, Nat.succ_ne_zero]; split <;> split <;> omega
  have a4 : ii + 1 - (q + if r + 1 = m then 1 else 0) = (ii - q) + (if r + 1 < m then 1 else 0) := by
    split <;> split <;> omega
  rw [a1, a5, a2, a4]
  omega

/-- **C99 fails for the grid Laplacian with too many elements**: the number of elements, `5 m n - 2 m - 2 n`,
is counted in an `int` that is never read. If it does not fit, no result is defined. -/
theorem C99_laplacian_counter_violated [Zero α] [IntCast α] (m n : Nat) (hm : 1 ≤ m) (hn : 1 ≤ n)
    (h : 2147483647 + 2 * m + 2 * n < 5 * (m * n)) : ¬∃ A : MCoo α, laplacian2D m n = .ok A := by
  rintro ⟨A, hA⟩
  unfold laplacian2D at hA
  obtain ⟨size, hs, hA⟩ := Res.bind_eq_ok.1 hA
  obtain ⟨s, hl, hA⟩ := Res.bind_eq_ok.1 hA
  have hmn : (m : Int) * n = ((m * n : Nat) : Int) := by push_cast; rfl
  rw [hmn] at hs
  obtain ⟨rfl, hle⟩ := chk_le hs
  unfold forI at hl
  rw [show (((m * n : Nat) : Int) - 0).toNat = m * n from by omega] at hl
  have key := forFromI_inv (n := m * n)
    (P := fun ii (s : Int × MCoo α) => s.1 = lapCount m n ii ∧ s.1 ≤ 2147483647) ?_ (m * n) 0 (by omega)
    ⟨by simp [lapCount], show (0 : Int) ≤ 2147483647 by decide⟩ hl
  · have e1 : m * n / m = n := Nat.mul_div_cancel_left _ hm
    have e2 : m * n % m = 0 := Nat.mul_mod_right _ _
    have e3 : (n - 1) * m + m = m * n := by
      obtain ⟨k, rfl⟩ : ∃ k, n = k + 1 := ⟨n - 1, by omega⟩
      rw [Nat.add_sub_cancel]; ring
    have e4 : m ≤ m * n := Nat.le_mul_of_pos_right _ hn
    have e5 : n ≤ m * n := Nat.le_mul_of_pos_left _ hm
    obtain ⟨k1, k2⟩ := key
    unfold lapCount at k1
    rw [e1, e2, if_pos rfl] at k1
    generalize (n - 1) * m = t at *
    generalize m * n = p at *
    omega
  · intro ii s s' hi hP hb
    have hd : (ii : Int) / (m : Int) = ((ii / m : Nat) : Int) := by push_cast; rfl
    have hj : (ii : Int) - ((ii / m : Nat) : Int) * m = ((ii % m : Nat) : Int) := by
      have := Nat.div_add_mod ii m
      have e : ((ii / m : Nat) : Int) * m = ((m * (ii / m) : Nat) : Int) := by push_cast; ring
      rw [e]; omega
    obtain ⟨hP1, hP2⟩ := hP
    dsimp only at hb
    rw [hd, hj] at hb
    obtain ⟨s1, h1, hb⟩ := Res.bind_eq_ok.1 hb
    obtain ⟨s2, h2, hb⟩ := Res.bind_eq_ok.1 hb
    obtain ⟨s3, h3, hb⟩ := Res.bind_eq_ok.1 hb
    obtain ⟨s4, h4, hb⟩ := Res.bind_eq_ok.1 hb
    have c1 := lapInsert_ctr h1 hP2
    have c2 := lapInsert_ctr h2 c1.2
    have c3 := lapInsert_ctr h3 c2.2
    have c4 := lapInsert_ctr h4 c3.2
    have c5 := lapInsert_ctr hb c4.2
    refine ⟨?_, c5.2⟩
    rw [c5.1, c4.1, c3.1, c2.1, c1.1, hP1, lapCount_succ hi]
    simp only [decide_eq_true_eq]
    split_ifs <;> omega

/-- a case: 21000 x 21000 points (441 million, far below 2^31) -/
example : ¬∃ A : MCoo Int, laplacian2D 21000 21000 = .ok A :=
  C99_laplacian_counter_violated _ _ (by decide) (by decide) (by decide)

/-- a case of `C99_laplacian`: 20000 x 20000 points -/
example [Ring α] (m n : Nat) (hm : m = 20000) (hn : n = 20000) :
    SameOutcome IsCoo (Gen.laplacian2D m n : Res (Coo α)) (laplacian2D m n) :=
  C99_laplacian (by rw [hm, hn]; decide)

/-- `C99_laplacian` on a small grid, run -/
example : (laplacian2D 2 1 : Res (MCoo Int)) =
    .ok ⟨2, 2, [0, 0, 1, 1, 0, 0, 0], [0, 1, 0, 1, 0, 0, 0], [4, -1, -1, 4, 0, 0, 0], 4, 7, true⟩ := by decide

end Verif.Machine
