import Verif.Props.GapRun

/-!
C103: SUCCESS does not mean that the true residual is below the tolerance.
-/

namespace Verif.Gap

open Verif.Spec Verif.Solver Verif.Round

/-- the matrix (5) -/
noncomputable def five : Crs (Format.Fp double) where
  rowN := 1
  colN := 1
  rowPtr := [0, 1]
  colInd := [0]
  val := [dbl 5]
  nnz := 1
  alloc := 1
  created := true

/-- 1/5 rounded to double precision -/
noncomputable def fifth : ℝ := 7205759403792794 * (2 : ℝ) ^ (-55 : ℤ)

theorem rep_fifth : double.Rep fifth :=
  ⟨7205759403792794, -55, by unfold double; norm_num, by unfold double; norm_num, by unfold fifth; norm_num⟩

theorem small_le {x : ℝ} (h : |x| ≤ 2) : |x| ≤ double.big := by
  have := big_ok
  refine h.trans (le_trans ?_ this)
  unfold double
  norm_num

theorem log_eq {x : ℝ} {k : ℤ} (h1 : (2 : ℝ) ^ k ≤ x) (h2 : x < (2 : ℝ) ^ (k + 1)) : Int.log 2 x = k := by
  have h0 : 0 < x := lt_of_lt_of_le (by positivity) h1
  have a : k ≤ Int.log 2 x := (Int.zpow_le_iff_le_log (by norm_num) h0).mp (by exact_mod_cast h1)
  have b : Int.log 2 x < k + 1 := (Int.lt_zpow_iff_log_lt (by norm_num) h0).mp (by exact_mod_cast h2)
  omega

theorem of_fifth : Format.Fp.of double (1 / 5) = .num fifth rep_fifth := by
  have hl : double.lastPlace (1 / 5) = -55 := by
    unfold Format.lastPlace
    rw [abs_of_pos (by norm_num), log_eq (k := -3) (by norm_num) (by norm_num)]
    unfold double
    norm_num
  have hr : double.round (1 / 5) = fifth := by
    unfold Format.round
    rw [hl, double.rnd_eq (n := 7205759403792794) (by norm_num [abs_lt])]
    unfold fifth
    norm_num
  unfold Format.Fp.of
  have : |double.round (1 / 5)| ≤ double.big := by
    rw [hr]
    exact small_le (by unfold fifth; norm_num [abs_le])
  rw [if_pos this]
  congr 1

theorem neg_one : Format.Fp.of double (-fifth * 5) = dbl (-1) := by
  have e : -fifth * 5 = -(36028797018963970 * (2 : ℝ) ^ (-55 : ℤ)) := by unfold fifth; ring
  have hl : double.lastPlace (-fifth * 5) = -52 := by
    unfold Format.lastPlace
    rw [e, abs_neg, abs_of_pos (by positivity), log_eq (k := 0) (by norm_num) (by norm_num)]
    unfold double
    norm_num
  have hr : double.round (-fifth * 5) = ((-1 : ℤ) : ℝ) := by
    unfold Format.round
    rw [hl, e, double.rnd_eq (n := -4503599627370496) (by norm_num [abs_lt])]
    norm_num
  obtain ⟨h, e1⟩ := dbl_num (a := -1) (by norm_num)
  rw [e1]
  unfold Format.Fp.of
  have : |double.round (-fifth * 5)| ≤ double.big := by
    rw [hr]
    exact small_le (by norm_num)
  rw [if_pos this]
  congr 1

theorem of_rep {x : ℝ} (h : double.Rep x) (hb : |x| ≤ 2) : Format.Fp.of double x = .num x h := by
  have e := double.round_of_rep h
  unfold Format.Fp.of
  rw [if_pos (by rw [e]; exact small_le hb)]
  congr 1

theorem rep_tol : double.Rep ((2 : ℝ) ^ (-60 : ℤ)) :=
  ⟨1, -60, by unfold double; norm_num, by unfold double; norm_num, by norm_num⟩

/-- tolerance 2^-60 -/
noncomputable def cfg60 : Cfg (Format.Fp double) where
  tol := .num _ rep_tol
  maxiter := 10
  omega := dbl 1
  prevResid := dbl 0

theorem mv_five (a : Format.Fp double) : (ofCrs [0] [0] five).mv [a] = .ok [dbl 0 + dbl 5 * a] := by
  rw [← dbl_zero]
  rfl

theorem dot_one (a b : Format.Fp double) : (double.num seq).dot [a] [b] = .ok (dbl 0 + (dbl 0 + a * b)) := by
  rw [← dbl_zero]
  rfl

theorem mv_int (a : ℤ) (ha : |a| ≤ 100) : (ofCrs [0] [0] five).mv [dbl a] = .ok [dbl (5 * a)] := by
  rw [mv_five, dbl_mul (by norm_num) (by linarith), dbl_add (by norm_num) (by rw [abs_mul]; norm_num; linarith), zero_add]

theorem dot_int (a b : ℤ) (ha : |a| ≤ 20) (hb : |b| ≤ 20) :
    (double.num seq).dot [dbl a] [dbl b] = .ok (dbl (a * b)) := by
  have h1 : |a * b| ≤ 400 := by
    rw [abs_mul]
    have := mul_le_mul ha hb (abs_nonneg _) (by norm_num)
    linarith
  rw [dot_one, dbl_mul (by linarith) (by linarith), dbl_add (by norm_num) (by linarith), zero_add,
    dbl_add (by norm_num) (by linarith), zero_add]

theorem num_neg (x : Format.Fp double) (t : Nat → RTree) : (double.num t).neg x = Format.Fp.neg x := rfl

/-- **C103 (violated)**: `CG::solve` returns SUCCESS and reports the residual 0, although the norm of the true
residual `b - A x` is 64 times the tolerance: `A = (5)`, `b = (1)`, tolerance `2^-60`, in double precision (for every
rule for ties: there are none in this run). -/
theorem C103_tolerance_violated :
    CG.solve (double.num seq) cfg60 (ofCrs [0] [0] five) (.ok (fun r => .ok r)) [dbl 0] [dbl 1] =
      .ok { status := SUCCESS, x := [.num fifth rep_fifth], finalIter := 1, finalResid := dbl 0 } ∧
    double.rounding.val (dbl 0) = 0 ∧ double.rounding.val cfg60.tol = (2 : ℝ) ^ (-60 : ℤ) ∧
    crsVal double.rounding five 1 0 0 = 5 ∧ double.rounding.val (dbl 1) = 1 ∧
    |1 - 5 * fifth| = (2 : ℝ) ^ (-54 : ℤ) := by
  refine ⟨?_, ?_, rfl, ?_, ?_, ?_⟩
  · have h0 : CG.init (double.num seq) (ofCrs [0] [0] five) (fun r => .ok r) [dbl 0] [dbl 1] =
        .ok { x := [dbl 0], r := [dbl 1], z := [dbl 1], p := [dbl 1] } := by
      unfold CG.init
      rw [mv_int 0 (by norm_num), Res.ok_bind]
      have : (double.num seq).vsub [dbl 1] [dbl (5 * 0)] (ofCrs [0] [0] five).row = .ok [dbl 1] := by
        show Res.ok [Format.Fp.sub (dbl 1) (dbl (5 * 0))] = _
        rw [dbl_sub (by norm_num) (by norm_num)]
        norm_num
      rw [this]
      rfl
    obtain ⟨r0, z0⟩ := dbl_num (a := 0) (by norm_num)
    obtain ⟨r1, z1⟩ := dbl_num (a := 1) (by norm_num)
    obtain ⟨r5, z5⟩ := dbl_num (a := 5) (by norm_num)
    have ha : (double.num seq).div (dbl 1) (dbl 5) = .num fifth rep_fifth := by
      rw [num_div, z1, z5]
      unfold Format.Fp.div
      dsimp only
      rw [if_neg (by norm_num), ← of_fifth]
      norm_num
    have hx : (double.num seq).axpy (.num fifth rep_fifth) [dbl 1] [dbl 0] = .ok [.num fifth rep_fifth] := by
      show Res.ok [Format.Fp.num fifth rep_fifth * dbl 1 + dbl 0] = _
      have b2 : |fifth| ≤ 2 := by unfold fifth; norm_num [abs_le]
      rw [z1, z0, Format.Fp.mul_num, show fifth * ((1 : ℤ) : ℝ) = fifth by norm_num, of_rep rep_fifth b2,
        Format.Fp.add_num, show fifth + ((0 : ℤ) : ℝ) = fifth by norm_num, of_rep rep_fifth b2]
    have hr : (double.num seq).axpy ((double.num seq).neg (.num fifth rep_fifth)) [dbl 5] [dbl 1] = .ok [dbl 0] := by
      rw [num_neg]
      show Res.ok [Format.Fp.num (-fifth) rep_fifth.neg * dbl 5 + dbl 1] = _
      rw [z5, Format.Fp.mul_num, show -fifth * ((5 : ℤ) : ℝ) = -fifth * 5 by norm_num, neg_one,
        dbl_add (by norm_num) (by norm_num)]
      norm_num
    have h1 : CG.step (double.num seq) (ofCrs [0] [0] five) (fun r => .ok r)
        { x := [dbl 0], r := [dbl 1], z := [dbl 1], p := [dbl 1] } =
        .ok { x := [.num fifth rep_fifth], r := [dbl 0], z := [dbl 0], p := [dbl 0] } := by
      unfold CG.step
      rw [mv_int 1 (by norm_num), Res.ok_bind]
      norm_num only
      rw [dot_int 1 1 (by norm_num) (by norm_num), Res.ok_bind, dot_int 1 5 (by norm_num) (by norm_num), Res.ok_bind]
      norm_num only
      rw [ha, hx, Res.ok_bind, hr, Res.ok_bind, Res.ok_bind, dot_int 0 0 (by norm_num) (by norm_num), Res.ok_bind]
      have e3 : (double.num seq).div (dbl (0 * 0)) (dbl 1) = dbl 0 := by
        rw [num_div]
        exact dbl_div (by norm_num) (by norm_num) (by norm_num) (by norm_num) (by norm_num)
      rw [e3]
      have e4 : (double.num seq).xpay (dbl 0) [dbl 0] [dbl 1] = .ok [dbl 0] := by
        show Res.ok [dbl 0 + dbl 0 * dbl 1] = _
        rw [dbl_mul (by norm_num) (by norm_num), dbl_add (by norm_num) (by norm_num)]
        norm_num
      rw [e4]
      rfl
    have h2 : (double.num seq).nrm2 [dbl 0] = dbl 0 := by
      have := dot_int 0 0 (by norm_num) (by norm_num)
      have : (double.num seq).sum [dbl 0 * dbl 0] = dbl (0 * 0) := Res.ok.inj this
      show Format.Fp.sqrt ((double.num seq).sum [dbl 0 * dbl 0]) = _
      rw [this]
      exact dbl_sqrt_zero
    have h3 : (double.num seq).lt (dbl 0) cfg60.tol = true := by
      show Format.Fp.lt (dbl 0) (.num _ rep_tol) = true
      rw [z0]
      unfold Format.Fp.lt
      dsimp only
      exact decide_eq_true (by norm_num)
    have h4 : getResidual (double.num seq) cfg60 [dbl 0] = .ok (dbl 0) := by
      show Res.ok ((double.num seq).nrm2 [dbl 0]) = _
      rw [h2]
    unfold CG.solve
    rw [if_pos (show cfg60.lib = 0 from rfl)]
    unfold CG.monolish
    rw [if_neg (by simp [ofCrs, five]), Res.ok_bind, h0, Res.ok_bind]
    show CG.loop _ cfg60 _ _ 10 0 _ = _
    unfold CG.loop
    rw [h1, Res.ok_bind, h4, Res.ok_bind]
    unfold stopCheck
    rw [h3, if_pos (by rfl), h4]
    rfl
  · obtain ⟨r0, z0⟩ := dbl_num (a := 0) (by norm_num)
    rw [z0]
    exact Int.cast_zero
  · obtain ⟨r5, z5⟩ := dbl_num (a := 5) (by norm_num)
    show (([(0, 0, dbl 5)] : List (Nat × Nat × Format.Fp double)).map (fun e => double.rounding.val e.2.2)).sum = 5
    rw [z5]
    show ((5 : ℤ) : ℝ) + 0 = 5
    norm_num
  · obtain ⟨r1, z1⟩ := dbl_num (a := 1) (by norm_num)
    rw [z1]
    exact Int.cast_one
  · unfold fifth
    have : (1 : ℝ) - 5 * (7205759403792794 * 2 ^ (-55 : ℤ)) = -(2 ^ (-54 : ℤ)) := by norm_num
    rw [this, abs_neg, abs_of_pos (by positivity)]

end Verif.Gap
