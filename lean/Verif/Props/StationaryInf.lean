import Verif.Props.StationaryFp
import Verif.Lemmas.FpInf
import Verif.Model.SolverMat

/-!
# C110: a right-hand side whose norm overflows
-/

namespace Verif.Stat

open Verif.Spec Verif.Solver Verif.Round Verif.Spec.Format Verif.Spec.Format.FpX

/-- the `double` `m * 2^k` -/
noncomputable def w (m k : ℤ) : FpX double := FpX.of double ((m : ℝ) * (2 : ℝ) ^ k)

/-- the 1 × 1 matrix (1) -/
noncomputable def oneX : Crs (FpX double) := ⟨1, 1, [0, 1], [0], [w 1 0], 1, 1, true⟩

theorem w_mul {m k m' k' : ℤ} (h1 : |m| ≤ 3) (h2 : -1074 ≤ k) (h3 : k ≤ 1022) (h1' : |m'| ≤ 3) (h2' : -1074 ≤ k')
    (h3' : k' ≤ 1022) : w m k * w m' k' = w (m * m') (k + k') := by
  unfold w
  rw [mul_good (good_pow h1 h2 h3) (good_pow h1' h2' h3')]
  congr 1
  rw [zpow_add₀ (by norm_num)]
  push_cast
  ring

theorem w_add {m k m' k' a b : ℤ} (h1 : |m| ≤ 3) (h2 : -1074 ≤ k) (h3 : k ≤ 1022) (h1' : |m'| ≤ 3) (h2' : -1074 ≤ k')
    (h3' : k' ≤ 1022) (h : (m : ℝ) * (2 : ℝ) ^ k + m' * (2 : ℝ) ^ k' = a * (2 : ℝ) ^ b) : w m k + w m' k' = w a b := by
  unfold w
  rw [add_good (good_pow h1 h2 h3) (good_pow h1' h2' h3'), h]

theorem zero_add_w {m k : ℤ} (h1 : |m| ≤ 3) (h2 : -1074 ≤ k) (h3 : k ≤ 1022) : w 0 0 + w m k = w m k :=
  w_add (by norm_num) (by norm_num) (by norm_num) h1 h2 h3 (by simp)

theorem w_neg {m k : ℤ} (h1 : |m| ≤ 3) (h2 : -1074 ≤ k) (h3 : k ≤ 1022) : FpX.neg (w m k) = w (-m) k := by
  unfold w
  rw [neg_good (good_pow h1 h2 h3)]
  congr 1
  push_cast
  ring

theorem w_div {k k' : ℤ} (h2 : -1074 ≤ k) (h3 : k ≤ 1022) (h2' : -1074 ≤ k') (h3' : k' ≤ 1022) :
    FpX.div (w 1 k) (w 1 k') = w 1 (k - k') := by
  unfold w
  have p := Format.two_zpow_pos k'
  rw [div_good (good_pow (by norm_num) h2 h3) (good_pow (by norm_num) h2' h3') (by simp [p.ne'])]
  congr 1
  rw [zpow_sub₀ (by norm_num)]
  push_cast
  ring

theorem zero_eq : (0 : FpX double) = w 0 0 := by
  show FpX.of double 0 = _
  unfold w
  simp

theorem one_eq : (1 : FpX double) = w 1 0 := by
  show FpX.of double 1 = _
  unfold w
  simp

/-- relaxation factor 1/2, tolerance 2^-20 -/
noncomputable def cfgX : Cfg (FpX double) :=
  { tol := w 1 (-20), maxiter := 100, omega := w 1 (-1), prevResid := w 0 0 }

theorem nrm_b : (numX double).nrm2 [w 1 512] = .inf false := by
  show FpX.sqrt (0 + w 1 512 * w 1 512) = _
  rw [w_mul (by norm_num) (by norm_num) (by norm_num) (by norm_num) (by norm_num) (by norm_num), zero_eq]
  have e : w (1 * 1) (512 + 512) = .inf false := by
    unfold w
    rw [← of_overflow]
    norm_num
  rw [e]
  obtain ⟨_, h0⟩ := of_good (good_pow (m := 0) (k := 0) (by norm_num) (by norm_num) (by norm_num))
  unfold w
  rw [h0]
  rfl

theorem binv_zero : (numX double).div (numX double).one ((numX double).nrm2 [w 1 512]) = w 0 0 := by
  rw [nrm_b]
  show FpX.div (1 : FpX double) (.inf false) = w 0 0
  rw [one_eq, ← zero_eq]
  obtain ⟨_, h0⟩ := of_good (good_pow (m := 1) (k := 0) (by norm_num) (by norm_num) (by norm_num))
  unfold w
  rw [h0]
  rfl

theorem nrm_r : (numX double).nrm2 [w 1 511] = w 1 511 := by
  show FpX.sqrt (0 + w 1 511 * w 1 511) = _
  rw [w_mul (by norm_num) (by norm_num) (by norm_num) (by norm_num) (by norm_num) (by norm_num), zero_eq,
    zero_add_w (by norm_num) (by norm_num) (by norm_num)]
  unfold w
  rw [sqrt_good (good_pow (by norm_num) (by norm_num) (by norm_num)) (by positivity)]
  congr 1
  rw [show (511 : ℤ) + 511 = 511 * 2 by norm_num, zpow_mul]
  norm_num [Real.sqrt_sq]

/-- the residual of the returned number is a quarter of the right-hand side -/
theorem overflow_residual : (2 : ℝ) ^ (512 : ℤ) - 3 * (2 : ℝ) ^ (510 : ℤ) = 1 / 4 * (2 : ℝ) ^ (512 : ℤ) := by
  rw [show (512 : ℤ) = 510 + 2 by norm_num, zpow_add₀ (by norm_num)]
  ring

/-- **C110 violated (overflow).** `SOR::solve` in double precision with `A = (1)`, `b = (2^512)`, initial guess `2^511`,
relaxation factor 1/2 and tolerance 2^-20 returns SUCCESS after one sweep. The returned vector is `3 * 2^510`: its residual is
a quarter of `b`. The square of `2^512` overflows, `1 / nrm2(b)` is zero and every finite residual passes the test. -/
theorem C110_overflow_violated :
    SOR.solve (numX double) cfgX (ofCrs [0] [0] oneX) (crsLower (numX double) oneX) noPrecond [w 1 511] [w 1 512] =
      .ok { status := SUCCESS, x := [w 3 510], finalIter := 1, finalResid := w 1 511 } ∧
    (∃ h, w 3 510 = .num (3 * (2 : ℝ) ^ (510 : ℤ)) h) ∧ (∃ h, w 1 512 = .num ((2 : ℝ) ^ (512 : ℤ)) h) ∧
    (2 : ℝ) ^ (512 : ℤ) - 3 * (2 : ℝ) ^ (510 : ℤ) = 1 / 4 * (2 : ℝ) ^ (512 : ℤ) := by
  refine ⟨?_, ?_, ?_, overflow_residual⟩
  swap
  · obtain ⟨h, e⟩ := of_good (good_pow (m := 3) (k := 510) (by norm_num) (by norm_num) (by norm_num))
    exact ⟨by simpa using h, by unfold w; rw [e]; simp⟩
  swap
  · obtain ⟨h, e⟩ := of_good (good_pow (m := 1) (k := 512) (by norm_num) (by norm_num) (by norm_num))
    exact ⟨by simpa using h, by unfold w; rw [e]; simp⟩
  have hd : (ofCrs [0] [0] oneX).diag = .ok [w 1 0] := rfl
  have hmv : ∀ a, (ofCrs [0] [0] oneX).mv [a] = .ok [0 + w 1 0 * a] := fun a => rfl
  have hlow : ∀ d t r, crsLower (numX double) oneX [d] [t] [r] = .ok [r * d] := fun _ _ _ => rfl
  have hdd : (numX double).reciprocal ([w 1 0].map ((numX double).mul ((numX double).div (numX double).one cfgX.omega))) =
      [w 1 (-1)] := by
    show [FpX.div 1 (FpX.div 1 (w 1 (-1)) * w 1 0)] = _
    rw [one_eq, w_div (by norm_num) (by norm_num) (by norm_num) (by norm_num),
      w_mul (by norm_num) (by norm_num) (by norm_num) (by norm_num) (by norm_num) (by norm_num)]
    norm_num
    rw [w_div (by norm_num) (by norm_num) (by norm_num) (by norm_num)]
    norm_num
  have hax : (numX double).axpyz ((numX double).neg (numX double).one) [w 1 511] [w 1 512] 1 = .ok [w 1 511] := by
    show Res.ok [FpX.neg 1 * w 1 511 + w 1 512] = _
    rw [one_eq, w_neg (by norm_num) (by norm_num) (by norm_num),
      w_mul (by norm_num) (by norm_num) (by norm_num) (by norm_num) (by norm_num) (by norm_num),
      w_add (a := 1) (b := 511) (by norm_num) (by norm_num) (by norm_num) (by norm_num) (by norm_num) (by norm_num)]
    have e : (2 : ℝ) ^ (512 : ℤ) = 2 * (2 : ℝ) ^ (511 : ℤ) := by
      rw [show (512 : ℤ) = 511 + 1 by norm_num, zpow_add₀ (by norm_num)]
      ring
    rw [e, show (0 : ℤ) + 511 = 511 by norm_num]
    generalize (2 : ℝ) ^ (511 : ℤ) = t
    push_cast
    ring
  have hstep : (numX double).axpy (numX double).one [w 1 511 * w 1 (-1)] [w 1 511] = .ok [w 3 510] := by
    show Res.ok [1 * (w 1 511 * w 1 (-1)) + w 1 511] = _
    rw [one_eq, w_mul (by norm_num) (by norm_num) (by norm_num) (by norm_num) (by norm_num) (by norm_num),
      w_mul (by norm_num) (by norm_num) (by norm_num) (by norm_num) (by norm_num) (by norm_num),
      w_add (a := 3) (b := 510) (by norm_num) (by norm_num) (by norm_num) (by norm_num) (by norm_num) (by norm_num)]
    rw [show (511 : ℤ) = 510 + 1 by norm_num, show (0 : ℤ) + (510 + 1 + -1) = 510 by norm_num,
      zpow_add₀ (by norm_num) 510 1]
    push_cast
    ring
  have htest : (numX double).lt ((numX double).mul (w 1 511) (w 0 0)) cfgX.tol = true := by
    show FpX.lt (w 1 511 * w 0 0) (w 1 (-20)) = true
    rw [w_mul (by norm_num) (by norm_num) (by norm_num) (by norm_num) (by norm_num) (by norm_num)]
    exact lt_good (good_pow (by norm_num) (by norm_num) (by norm_num))
      (good_pow (by norm_num) (by norm_num) (by norm_num)) (by norm_num)
  have hmv' : (ofCrs [0] [0] oneX).mv [w 1 511] = .ok [w 1 511] := by
    rw [hmv, zero_eq, w_mul (by norm_num) (by norm_num) (by norm_num) (by norm_num) (by norm_num) (by norm_num),
      zero_add_w (by norm_num) (by norm_num) (by norm_num)]
    norm_num
  have hrow : (ofCrs [0] [0] oneX).row = 1 := rfl
  unfold SOR.solve
  rw [if_pos (show cfgX.lib = 0 from rfl)]
  unfold SOR.monolish
  rw [if_neg (fun h => h rfl), hd, Res.ok_bind]
  dsimp only
  unfold noPrecond
  rw [Res.ok_bind, hdd, binv_zero]
  show SOR.loop _ _ _ _ _ _ _ _ (99 + 1) 0 _ _ = _
  unfold SOR.loop
  rw [Res.ok_bind, hmv', Res.ok_bind, hrow, hax, Res.ok_bind]
  dsimp only
  rw [hlow, Res.ok_bind, hstep, Res.ok_bind, nrm_r]
  unfold stopCheck
  rw [htest]
  show (do
    let o ← (do
      let fr ← getResidual (numX double) cfgX [w 1 511]
      Res.ok (some { status := SUCCESS, x := [w 3 510], finalIter := 0 + 1, finalResid := fr } : Option (Out _)) : Res _)
    _) = _
  have hg : getResidual (numX double) cfgX [w 1 511] = .ok (w 1 511) := by
    show Res.ok ((numX double).nrm2 [w 1 511]) = _
    rw [nrm_r]
  rw [hg]
  rfl

end Verif.Stat
