import Verif.Props.Incomplete
import Mathlib.Tactic.FinCases

/-!
C113, continued: the preconditioners, CG with IC, what is refused, what goes wrong; an instance of cuSPARSE.
-/

namespace Verif.Incomplete

open Verif.Spec Verif.Solver Matrix

variable {K : Type} [Field K] {n : Nat}

theorem createChecks_ok {A : DCrs K} (hA : Ready n A) : createChecks true A = .ok () := by
  unfold createChecks
  rw [if_neg (by rw [hA.row, hA.col]; simp), hA.on]
  simp

/-- **C113 (ILU preconditioner).** Creating the preconditioner either throws or gives one that applies the inverse of
an incomplete factorisation `L U` of the matrix; without fill-in the inverse of the matrix itself. -/
theorem C113_ilu_precond_partial (cu : CuSparse K) (hcu : CuSparseOk cu) (dbl : Bool) (A : DCrs K) (hA : Ready n A)
    (hp : dbl = true → IluPivots cu A) :
    (¬ IluPivots cu A ∧ ∃ e, iluPrecond dbl cu A = .throw e) ∨
    ∃ F, IsIlu0 (Stored (onDevice A)) (crsMat n (onDevice A)) F ∧ IsUnit (unitLower F * upperPart F) ∧
      IsPrecond (iluPrecond dbl cu A) id (byMatrix (unitLower F * upperPart F)⁻¹) ∧
      (NoFill n (Stored (onDevice A)) → unitLower F * upperPart F = crsMat n (onDevice A)) := by
  obtain ⟨hv, -⟩ := given (n := n) hA.safe
  rw [hA.onDevice]
  unfold iluPrecond iluCreate
  rw [createChecks_ok hA, hv]
  simp only [Res.ok_bind]
  cases hm : cu.ilu0 { A.mat with val := A.mat.val.take A.mat.nnz } with
  | mk m z =>
    cases z with
    | true =>
      cases dbl with
      | true => have := hp rfl; unfold IluPivots at this; rw [hm] at this; exact absurd this (by simp)
      | false => exact Or.inl ⟨by unfold IluPivots; rw [hm]; simp, "ILU error.", rfl⟩
    | false =>
      right
      obtain ⟨h1, h2⟩ := ilu_factors hcu hA.safe hA.row hA.col hm
      refine ⟨crsMat n { A.mat with val := m }, h1, ?_, ⟨_, rfl, fun v => ?_⟩, h2⟩
      · rw [Matrix.isUnit_iff_isUnit_det, Matrix.det_mul, det_unitLower, one_mul]
        exact isUnit_iff_ne_zero.mpr (det_upperPart h1.1)
      · have ht := ilu_triangles hcu hA.row h1.1 ⟨vec id v, List.replicate (vec id v).length 0, true⟩
          ⟨vec id v, vec id v, true⟩ rfl rfl (by simp [vec]) v (by simp [vec])
        dsimp only
        unfold iluApply
        rw [if_pos rfl, ht]
        rfl

/-- **C113 (IC preconditioner).** The same for IC. -/
theorem C113_ic_precond_partial (cu : CuSparse K) (hcu : CuSparseOk cu) (dbl : Bool) (A : DCrs K) (hA : Ready n A)
    (hp : dbl = true → IcPivots cu A) :
    (¬ IcPivots cu A ∧ ∃ e, icPrecond dbl cu A = .throw e) ∨
    ∃ F, IsIc0 (Stored (onDevice A)) (crsMat n (onDevice A)) F ∧ IsUnit (lowerPart F) ∧
      IsPrecond (icPrecond dbl cu A) id (byMatrix (lowerPart F * (lowerPart F)ᵀ)⁻¹) := by
  obtain ⟨hv, -⟩ := given (n := n) hA.safe
  rw [hA.onDevice]
  unfold icPrecond icCreate
  rw [createChecks_ok hA, hv]
  simp only [Res.ok_bind]
  cases hm : cu.ic0 { A.mat with val := A.mat.val.take A.mat.nnz } with
  | mk m z =>
    cases z with
    | true =>
      cases dbl with
      | true => have := hp rfl; unfold IcPivots at this; rw [hm] at this; exact absurd this (by simp)
      | false => exact Or.inl ⟨by unfold IcPivots; rw [hm]; simp, "IC error.", rfl⟩
    | false =>
      right
      obtain ⟨h1, h2⟩ := ic_factors hcu hA.safe hA.row hA.col hm
      refine ⟨crsMat n { A.mat with val := m }, h1, ?_, ⟨_, rfl, fun v => ?_⟩⟩
      · rw [Matrix.isUnit_iff_isUnit_det]
        exact isUnit_iff_ne_zero.mpr (det_lowerPart h1.1)
      · have ht := ic_triangles hcu hA.row h1.1 ⟨vec id v, List.replicate (vec id v).length 0, true⟩
          ⟨vec id v, vec id v, true⟩ rfl rfl (by simp [vec]) v (by simp [vec])
        dsimp only
        unfold icApply
        rw [if_pos rfl, ht]
        rfl

/-! ### CG with IC -/

section
variable [LinearOrder K] [IsStrictOrderedRing K]

theorem spd_inv_mul_transpose {L : Matrix (Fin n) (Fin n) K} (h : IsUnit L) : SPD (L * Lᵀ)⁻¹ := by
  have hd : IsUnit L.det := (Matrix.isUnit_iff_isUnit_det L).mp h
  have hdd : IsUnit (L * Lᵀ).det := by
    rw [Matrix.det_mul, Matrix.det_transpose]; exact hd.mul hd
  refine ⟨?_, fun v hv => ?_⟩
  · rw [Matrix.transpose_nonsing_inv, Matrix.transpose_mul, Matrix.transpose_transpose]
  · have e : v = (L * Lᵀ) *ᵥ ((L * Lᵀ)⁻¹ *ᵥ v) := by
      rw [Matrix.mulVec_mulVec, Matrix.mul_nonsing_inv _ hdd, Matrix.one_mulVec]
    generalize (L * Lᵀ)⁻¹ *ᵥ v = w at e
    have hw : Lᵀ *ᵥ w ≠ 0 := by
      intro h0
      apply hv
      rw [e, ← Matrix.mulVec_mulVec, h0, Matrix.mulVec_zero]
    rw [e, ← Matrix.mulVec_mulVec, dotProduct_comm, Matrix.dotProduct_mulVec, ← Matrix.mulVec_transpose]
    have hnn : ∀ i ∈ Finset.univ, 0 ≤ (Lᵀ *ᵥ w) i * (Lᵀ *ᵥ w) i := fun i _ => mul_self_nonneg _
    obtain ⟨i, hi⟩ := Function.ne_iff.mp hw
    exact Finset.sum_pos' hnn ⟨i, Finset.mem_univ _, mul_self_pos.mpr hi⟩

/-- **C113 (CG with IC).** For a symmetric positive definite matrix, CG with the IC preconditioner ends with SUCCESS
after at most `n` iterations with a residual below the tolerance, unless the factorisation meets a zero pivot and
throws. -/
theorem C113_cg_ic_partial (cu : CuSparse K) (hcu : CuSparseOk cu) (dbl : Bool) (A : DCrs K) (hA : Ready n A)
    (hp : dbl = true → IcPivots cu A) (sq : K → K) (hsq : sq 0 = 0) (cfg : Cfg K) (htol : 0 < cfg.tol)
    (hlib : cfg.lib = 0) (hm : cfg.residMethod = 0) (hmin : cfg.miniter = 0) (hmax : n ≤ cfg.maxiter)
    (hd : DistinctPos A.mat.entries) (order zo : List Nat) (ho : Order order n) (hz : Order zo n)
    (hM : SPD (crsMat n A.mat)) (x b : Fin n → K) (hx : crsMat n A.mat *ᵥ x ≠ b) :
    (¬ IcPivots cu A ∧ ∃ e, icPrecond dbl cu A = .throw e) ∨
    ∃ k y, 1 ≤ k ∧ k ≤ n ∧ norm2 sq (b - crsMat n A.mat *ᵥ y) < cfg.tol ∧
      CG.solve (fieldNum sq) cfg (ofCrs order zo A.mat) (icPrecond dbl cu A) (List.ofFn x) (List.ofFn b) =
        .ok { status := SUCCESS, x := List.ofFn y, finalIter := k,
              finalResid := norm2 sq (b - crsMat n A.mat *ᵥ y) } := by
  rcases C113_ic_precond_partial cu hcu dbl A hA hp with h | ⟨F, -, hu, hP⟩
  · exact Or.inl h
  · right
    exact C34_terminates (fieldNum_exact sq) hsq cfg cfg.tol htol rfl hlib hm hmin hmax _ _
      (isMat_crs A.mat hA.safe hd hA.row hA.col order zo ho hz) hM _ _ (spd_inv_mul_transpose hu) hP x b hx

end

/-! ### What is refused -/

omit [Field K] in
/-- **C113 (CPU).** In a build without GPU (no object is on a device) both solvers and both preconditioners throw. -/
theorem C113_cpu_refused [Zero K] (cu : CuSparse K) (dbl : Bool) (A : DCrs K) (x b : DVec K) (hA : A.on = false) :
    (∃ e, iluSolve false dbl cu 0 A x b = .throw e) ∧ (∃ e, icSolve false dbl cu 0 A x b = .throw e) ∧
    (∃ e, iluCreate false dbl cu A = .throw e) ∧ (∃ e, icCreate false dbl cu A = .throw e) := by
  have hs : ∃ e, solveChecks false A x b = .throw e := by
    unfold solveChecks
    rw [hA]
    split
    · exact ⟨_, rfl⟩
    · split
      · exact ⟨_, rfl⟩
      · exact ⟨_, rfl⟩
  have hc : ∃ e, createChecks false A = .throw e := by
    unfold createChecks
    rw [hA]
    split
    · exact ⟨_, rfl⟩
    · exact ⟨_, rfl⟩
  obtain ⟨e1, h1⟩ := hs
  obtain ⟨e2, h2⟩ := hc
  unfold iluSolve icSolve iluCreate icCreate
  simp only [if_true, h1, h2]
  exact ⟨⟨e1, rfl⟩, ⟨e1, rfl⟩, ⟨e2, rfl⟩, ⟨e2, rfl⟩⟩

/-! ### An instance of cuSPARSE -/

open Classical in
/-- factorises whenever that is possible, solves with the inverse matrix -/
noncomputable def refCu : CuSparse K where
  ilu0 A := if h : ∃ v : List K, v.length = A.val.length ∧
      IsIlu0 (Stored A) (crsMat A.rowN A) (crsMat A.rowN { A with val := v }) then (h.choose, false) else (A.val, true)
  ic0 A := if h : ∃ v : List K, v.length = A.val.length ∧
      IsIc0 (Stored A) (crsMat A.rowN A) (crsMat A.rowN { A with val := v }) then (h.choose, false) else (A.val, true)
  unitLower A b := List.ofFn ((unitLower (crsMat A.rowN A))⁻¹ *ᵥ fun i => b.getD i 0)
  upper A b := List.ofFn ((upperPart (crsMat A.rowN A))⁻¹ *ᵥ fun i => b.getD i 0)
  lower A b := List.ofFn ((lowerPart (crsMat A.rowN A))⁻¹ *ᵥ fun i => b.getD i 0)
  lowerT A b := List.ofFn (((lowerPart (crsMat A.rowN A))ᵀ)⁻¹ *ᵥ fun i => b.getD i 0)

theorem getD_ofFn (b : Fin n → K) : (fun i : Fin n => (List.ofFn b).getD i 0) = b := by
  funext i; simp [List.getD]

theorem refCu_ok : CuSparseOk (refCu : CuSparse K) where
  ilu A n v _ hr _ h := by
    subst hr
    unfold refCu at h
    dsimp only at h
    split at h
    · rename_i hex
      cases h
      exact hex.choose_spec
    · cases h
  ic A n v _ hr _ h := by
    subst hr
    unfold refCu at h
    dsimp only at h
    split at h
    · rename_i hex
      cases h
      exact hex.choose_spec
    · cases h
  iluFinds A _ h := by unfold refCu; dsimp only; rw [dif_pos h]
  icFinds A _ h := by unfold refCu; dsimp only; rw [dif_pos h]
  unitLower A b := by
    refine ⟨_, rfl, ?_⟩
    rw [getD_ofFn, Matrix.mulVec_mulVec, Matrix.mul_nonsing_inv _ (by rw [det_unitLower]; exact isUnit_one),
      Matrix.one_mulVec]
  upper A b h := by
    refine ⟨_, rfl, ?_⟩
    rw [getD_ofFn, Matrix.mulVec_mulVec, Matrix.mul_nonsing_inv _ (isUnit_iff_ne_zero.mpr (det_upperPart h)),
      Matrix.one_mulVec]
  lower A b h := by
    refine ⟨_, rfl, ?_⟩
    rw [getD_ofFn, Matrix.mulVec_mulVec, Matrix.mul_nonsing_inv _ (isUnit_iff_ne_zero.mpr (det_lowerPart h)),
      Matrix.one_mulVec]
  lowerT A b h := by
    refine ⟨_, rfl, ?_⟩
    rw [getD_ofFn, Matrix.mulVec_mulVec, Matrix.mul_nonsing_inv _
      (isUnit_iff_ne_zero.mpr (by rw [Matrix.det_transpose]; exact det_lowerPart h)), Matrix.one_mulVec]

/-! ### Instances -/

/-- `[[2, 1], [1, 2]]` on the device, host copy up to date -/
def exDev : DCrs ℚ := ⟨exA, [2, 1, 1, 2], true⟩

theorem exDev_ready : Ready 2 exDev := ⟨exA_safe, rfl, rfl, rfl, rfl⟩

theorem exDev_pivots (cu : CuSparse ℚ) (hcu : CuSparseOk cu) : IluPivots cu exDev := by
  obtain ⟨-, hR, -⟩ := given (n := 2) exDev_ready.safe
  refine hcu.iluFinds _ hR ⟨[2, 1, 1 / 2, 3 / 2], rfl, ?_, ?_⟩
  · decide +kernel
  · have h : ∀ i j : Fin 2, (unitLower (crsMat 2 ({ exA with val := [2, 1, 1 / 2, 3 / 2] } : Crs ℚ)) *
        upperPart (crsMat 2 ({ exA with val := [2, 1, 1 / 2, 3 / 2] } : Crs ℚ))) i j = crsMat 2 exA i j := by
      intro i j
      rw [Matrix.mul_apply, Fin.sum_univ_two]
      fin_cases i <;> fin_cases j <;> decide +kernel
    exact fun i j _ => h i j

/-- `ILU::solve` on it: SUCCESS with the solution, for every cuSPARSE -/
example (cu : CuSparse ℚ) (hcu : CuSparseOk cu) (dbl : Bool) :
    ∃ y : Fin 2 → ℚ, iluSolve true dbl cu 0 exDev ⟨[], [0, 0], true⟩ ⟨[], [3, 0], true⟩ =
      .ok (SUCCESS, ⟨[], List.ofFn y, true⟩) ∧ crsMat 2 exA *ᵥ y = ![3, 0] := by
  rcases C113_ilu_solve_partial cu hcu dbl exDev exDev_ready (fun _ => exDev_pivots cu hcu) ⟨[], [0, 0], true⟩
    ⟨[], [3, 0], true⟩ rfl rfl rfl ![3, 0] rfl with h | ⟨y, F, h1, -, -, h4⟩
  · exact absurd (exDev_pivots cu hcu) h.1
  · refine ⟨y, h1, h4 fun i j k hi hj _ _ _ _ => ?_⟩
    have : ∀ i j : Fin 2, ∃ e ∈ exA.entries, e.1 = i ∧ e.2.1 = j := by decide +kernel
    obtain ⟨e, he, e1, e2⟩ := this ⟨i, hi⟩ ⟨j, hj⟩
    dsimp only at e1 e2
    subst e1 e2
    exact ⟨e.2.2, he⟩

/-- `[[4, 2], [2, 2]]` on the device, host copy up to date -/
def exIc : DCrs ℚ := ⟨⟨2, 2, [0, 2, 4], [0, 1, 0, 1], [4, 2, 2, 2], 4, 4, true⟩, [4, 2, 2, 2], true⟩

theorem exIc_ready : Ready 2 exIc :=
  ⟨{ created := rfl, lenV := rfl, nnz_le := by decide, lenP := rfl, ptr_le := by decide,
     lenC := by decide, col_lt := by decide }, rfl, rfl, rfl, rfl⟩

theorem exIc_pivots (cu : CuSparse ℚ) (hcu : CuSparseOk cu) : IcPivots cu exIc := by
  obtain ⟨-, hR, -⟩ := given (n := 2) exIc_ready.safe
  refine hcu.icFinds _ hR ⟨[2, 2, 1, 1], rfl, ?_, ?_⟩
  · decide +kernel
  · have h : ∀ i j : Fin 2, (lowerPart (crsMat 2 ({ exIc.mat with val := [2, 2, 1, 1] } : Crs ℚ)) *
        (lowerPart (crsMat 2 ({ exIc.mat with val := [2, 2, 1, 1] } : Crs ℚ)))ᵀ) i j = crsMat 2 exIc.mat i j := by
      intro i j
      rw [Matrix.mul_apply, Fin.sum_univ_two]
      fin_cases i <;> fin_cases j <;> decide +kernel
    exact fun i j _ _ => h i j

/-- `IC::solve` on it: SUCCESS with the solution, for every cuSPARSE -/
example (cu : CuSparse ℚ) (hcu : CuSparseOk cu) (dbl : Bool) :
    ∃ y : Fin 2 → ℚ, icSolve true dbl cu 0 exIc ⟨[], [0, 0], true⟩ ⟨[], [6, 4], true⟩ =
      .ok (SUCCESS, ⟨[], List.ofFn y, true⟩) ∧ crsMat 2 exIc.mat *ᵥ y = ![6, 4] := by
  have all : ∀ i j : Fin 2, ∃ e ∈ exIc.mat.entries, e.1 = i ∧ e.2.1 = j := by decide +kernel
  have st : ∀ i j, i < 2 → j < 2 → Stored (onDevice exIc) i j := by
    intro i j hi hj
    obtain ⟨e, he, e1, e2⟩ := all ⟨i, hi⟩ ⟨j, hj⟩
    dsimp only at e1 e2
    subst e1 e2
    exact ⟨e.2.2, he⟩
  have lt : ∀ i j, Stored (onDevice exIc) i j → i < 2 ∧ j < 2 := by
    rintro i j ⟨v, hv⟩
    have : ∀ e ∈ (onDevice exIc).entries, e.1 < 2 ∧ e.2.1 < 2 := by decide +kernel
    exact this _ hv
  rcases C113_ic_solve_partial cu hcu dbl exIc exIc_ready (fun _ => exIc_pivots cu hcu) ⟨[], [0, 0], true⟩
    ⟨[], [6, 4], true⟩ rfl rfl rfl ![6, 4] rfl with h | ⟨y, F, h1, -, -, h4⟩
  · exact absurd (exIc_pivots cu hcu) h.1
  · refine ⟨y, h1, h4 (fun i j k hi hj _ _ _ _ => st i j hi hj) (fun i j h => st j i (lt i j h).2 (lt i j h).1) ?_⟩
    ext i j
    fin_cases i <;> fin_cases j <;> decide +kernel

theorem exIc_spd : SPD (crsMat 2 exIc.mat) := by
  constructor
  · ext i j
    fin_cases i <;> fin_cases j <;> decide +kernel
  · intro v hv
    have h : v ⬝ᵥ (crsMat 2 exIc.mat *ᵥ v) = (2 * v 0 + v 1) ^ 2 + v 1 ^ 2 := by
      simp only [dotProduct, Matrix.mulVec, Fin.sum_univ_two]
      have h00 : crsMat 2 exIc.mat 0 0 = 4 := by decide +kernel
      have h01 : crsMat 2 exIc.mat 0 1 = 2 := by decide +kernel
      have h10 : crsMat 2 exIc.mat 1 0 = 2 := by decide +kernel
      have h11 : crsMat 2 exIc.mat 1 1 = 2 := by decide +kernel
      rw [h00, h01, h10, h11]
      ring
    rw [h]
    rcases eq_or_ne (v 1) 0 with h1 | h1
    · rw [h1]
      have h0 : v 0 ≠ 0 := by
        intro h0
        apply hv
        ext i
        fin_cases i
        · exact h0
        · exact h1
      have : (0 : ℚ) < (v 0) ^ 2 := by positivity
      have e : (2 * v 0 + 0) ^ 2 + 0 ^ 2 = 4 * v 0 ^ 2 := by ring
      rw [e]
      positivity
    · positivity

/-- CG preconditioned with IC on it: SUCCESS within two iterations, for every cuSPARSE -/
example (cu : CuSparse ℚ) (hcu : CuSparseOk cu) (dbl : Bool) :
    ∃ k y, 1 ≤ k ∧ k ≤ 2 ∧ norm2 id (![6, 4] - crsMat 2 exIc.mat *ᵥ y) < 1 / 100 ∧
      CG.solve (fieldNum id) exCfg (ofCrs [0, 1] [1, 0] exIc.mat) (icPrecond dbl cu exIc) (List.ofFn (0 : Fin 2 → ℚ))
          (List.ofFn (![6, 4] : Fin 2 → ℚ)) =
        .ok { status := SUCCESS, x := List.ofFn y, finalIter := k,
              finalResid := norm2 id (![6, 4] - crsMat 2 exIc.mat *ᵥ y) } := by
  rcases C113_cg_ic_partial cu hcu dbl exIc exIc_ready (fun _ => exIc_pivots cu hcu) id rfl exCfg
    (by decide +kernel) rfl rfl rfl (by decide) (by decide) [0, 1] [1, 0] (by unfold Order; decide) (by unfold Order; decide)
    exIc_spd 0 ![6, 4] (by rw [Matrix.mulVec_zero]; intro h; have := congrFun h 0; simp at this) with h | h
  · exact absurd (exIc_pivots cu hcu) h.1
  · exact h

/-! ### What goes wrong -/

/-- a one by one matrix whose value was changed on the device (from 2 to 4) after `send()` -/
def stale : DCrs ℚ := ⟨⟨1, 1, [0, 1], [0], [2], 1, 1, true⟩, [4], true⟩

/-- the same matrix as it was when `send()` ran -/
def sent : DCrs ℚ := ⟨⟨1, 1, [0, 1], [0], [2], 1, 1, true⟩, [2], true⟩

/-- **C113 (stale values).** The factorisation uses the values on the host: after a change on the device, `ILU::solve`
returns SUCCESS and the solution of the old system, whatever cuSPARSE does. -/
theorem C113_stale_violated (cu : CuSparse ℚ) (hcu : CuSparseOk cu) (dbl : Bool) :
    ∃ y : Fin 1 → ℚ, iluSolve true dbl cu 0 stale ⟨[], [0], true⟩ ⟨[], [4], true⟩ =
      .ok (SUCCESS, ⟨[], List.ofFn y, true⟩) ∧ crsMat 1 (onDevice stale) *ᵥ y ≠ ![4] := by
  have hs : sent.mat.Safe :=
    { created := rfl, lenV := rfl, nnz_le := by decide, lenP := rfl, ptr_le := by decide,
      lenC := by decide, col_lt := by decide }
  have hA : Ready 1 sent := ⟨hs, rfl, rfl, rfl, rfl⟩
  have hp : IluPivots cu sent := by
    obtain ⟨-, hR, -⟩ := given (n := 1) hs
    refine hcu.iluFinds _ hR ⟨[2], rfl, by decide +kernel, ?_⟩
    have h : ∀ i j : Fin 1, (unitLower (crsMat 1 sent.mat) * upperPart (crsMat 1 sent.mat)) i j = crsMat 1 sent.mat i j := by
      intro i j
      rw [Matrix.mul_apply, Fin.sum_univ_one]
      fin_cases i <;> fin_cases j <;> decide +kernel
    exact fun i j _ => h i j
  rcases C113_ilu_solve_partial cu hcu dbl sent hA (fun _ => hp) ⟨[], [0], true⟩
    ⟨[], [4], true⟩ rfl rfl rfl ![4] rfl with h | ⟨y, F, h1, -, -, h4⟩
  · exact absurd hp h.1
  · refine ⟨y, h1, ?_⟩
    have h5 := h4 (fun i j k hi _ hk _ _ _ => by omega)
    have e1 : crsMat 1 (onDevice sent) 0 0 = 2 := by decide +kernel
    have e2 : crsMat 1 (onDevice stale) 0 0 = 4 := by decide +kernel
    have h6 := congrFun h5 0
    rw [Matrix.mulVec, dotProduct, Fin.sum_univ_one, e1] at h6
    intro h
    have h7 := congrFun h 0
    rw [Matrix.mulVec, dotProduct, Fin.sum_univ_one, e2] at h7
    have h8 : (2 : ℚ) * (2 * y 0) = 2 * 4 := congrArg (2 * ·) h6
    rw [← mul_assoc] at h8
    have h9 : (4 : ℚ) * y 0 = 8 := by
      have : (2 : ℚ) * 2 = 4 := by norm_num
      rw [this] at h8; rw [h8]; norm_num
    rw [h9] at h7
    have : (8 : ℚ) = 4 := h7
    norm_num at this

/-- `[[0, 1], [1, 0]]`, every position stored -/
def swap : DCrs ℚ := ⟨⟨2, 2, [0, 2, 4], [0, 1, 0, 1], [0, 1, 1, 0], 4, 4, true⟩, [0, 1, 1, 0], true⟩

theorem swap_safe : swap.mat.Safe :=
  { created := rfl, lenV := rfl, nnz_le := by decide, lenP := rfl, ptr_le := by decide,
    lenC := by decide, col_lt := by decide }

/-- for this matrix every cuSPARSE reports a zero pivot -/
theorem swap_pivot (cu : CuSparse ℚ) (hcu : CuSparseOk cu) :
    (cu.ilu0 { swap.mat with val := swap.mat.val.take swap.mat.nnz }).2 = true := by
  cases hm : cu.ilu0 { swap.mat with val := swap.mat.val.take swap.mat.nnz } with
  | mk m z =>
    cases z with
    | true => rfl
    | false =>
      exfalso
      obtain ⟨h, -⟩ := ilu_factors (n := 2) hcu swap_safe rfl rfl hm
      have h1 := h.2 0 0 ⟨0, by decide +kernel⟩
      have h2 : crsMat 2 swap.mat 0 0 = 0 := by decide +kernel
      rw [h2, Matrix.mul_apply, Fin.sum_univ_two] at h1
      simp [unitLower, upperPart] at h1
      exact h.1 0 h1

/-- **C113 (zero pivot).** A zero pivot makes the single precision version throw; the double precision version goes on
and returns SUCCESS, whatever cuSPARSE does; with an instance of cuSPARSE the result is not a solution. -/
theorem C113_zero_pivot_violated :
    (∀ cu : CuSparse ℚ, CuSparseOk cu → ∀ b : List ℚ, 2 ≤ b.length →
      (∃ e, iluSolve true false cu 0 swap ⟨[], [0, 0], true⟩ ⟨[], b, true⟩ = .throw e) ∧
      ∃ x, iluSolve true true cu 0 swap ⟨[], [0, 0], true⟩ ⟨[], b, true⟩ = .ok (SUCCESS, x)) ∧
    ∃ cu : CuSparse ℚ, CuSparseOk cu ∧ ∃ y : Fin 2 → ℚ,
      iluSolve true true cu 0 swap ⟨[], [0, 0], true⟩ ⟨[], [1, 2], true⟩ = .ok (SUCCESS, ⟨[], List.ofFn y, true⟩) ∧
      crsMat 2 (onDevice swap) *ᵥ y ≠ ![1, 2] := by
  have main : ∀ cu : CuSparse ℚ, CuSparseOk cu → ∀ b : List ℚ, 2 ≤ b.length →
      (∃ e, iluSolve true false cu 0 swap ⟨[], [0, 0], true⟩ ⟨[], b, true⟩ = .throw e) ∧
      iluSolve true true cu 0 swap ⟨[], [0, 0], true⟩ ⟨[], b, true⟩ = .ok (SUCCESS, ⟨[],
        cu.upper { swap.mat with val := (cu.ilu0 swap.mat).1 } (cu.unitLower { swap.mat with val := (cu.ilu0 swap.mat).1 } b),
        true⟩) := by
    intro cu hcu b hb
    have hp := swap_pivot cu hcu
    have hck : solveChecks true swap ⟨[], [0, 0], true⟩ ⟨[], b, true⟩ = .ok () := rfl
    have hv : valuesOf swap = .ok swap.mat.val := rfl
    have hp' : (cu.ilu0 swap.mat).2 = true := hp
    unfold iluSolve
    rw [if_pos rfl, if_pos rfl, hck, hv]
    simp only [Res.ok_bind]
    constructor
    · refine ⟨"ILU error.", ?_⟩
      have : pivots false "ILU error." (cu.ilu0 { swap.mat with val := swap.mat.val }) = .throw "ILU error." := by
        unfold pivots
        show (if (cu.ilu0 swap.mat).2 && !false then _ else _) = _
        rw [hp']; rfl
      rw [this]; rfl
    · have : pivots true "ILU error." (cu.ilu0 { swap.mat with val := swap.mat.val }) = .ok (cu.ilu0 swap.mat).1 := by
        unfold pivots
        show (if (cu.ilu0 swap.mat).2 && !true then _ else _) = _
        rw [hp']; rfl
      rw [this]
      simp only [Res.ok_bind]
      have hd : devicePtrs swap.mat.rowN ⟨[], [0, 0], true⟩ ⟨[], b, true⟩ = .ok () := by
        unfold devicePtrs
        simp
        exact ⟨hb, le_refl _⟩
      unfold iluTriangles
      rw [hd]
      rfl
  refine ⟨fun cu hcu b hb => ⟨(main cu hcu b hb).1, _, (main cu hcu b hb).2⟩, refCu, refCu_ok, 0, ?_, ?_⟩
  · rw [(main refCu refCu_ok [1, 2] (by decide)).2]
    have hv : ((refCu : CuSparse ℚ).ilu0 swap.mat).1 = swap.mat.val := by
      have hp := swap_pivot refCu refCu_ok
      have hp' : ((refCu : CuSparse ℚ).ilu0 swap.mat).2 = true := hp
      unfold refCu at hp' ⊢
      dsimp only at hp' ⊢
      split at hp'
      · cases hp'
      · rename_i h; rw [dif_neg h]
    rw [hv]
    have hdet : (upperPart (crsMat 2 swap.mat)).det = 0 := by
      rw [Matrix.det_fin_two]; decide +kernel
    have hinv : (upperPart (crsMat 2 swap.mat))⁻¹ = 0 :=
      Matrix.nonsing_inv_apply_not_isUnit _ (by rw [hdet]; simp)
    have hup : ∀ t, (refCu : CuSparse ℚ).upper { swap.mat with val := swap.mat.val } t = List.ofFn (0 : Fin 2 → ℚ) := by
      intro t
      show List.ofFn ((upperPart (crsMat 2 swap.mat))⁻¹ *ᵥ _) = _
      rw [hinv]
      exact congrArg List.ofFn (Matrix.zero_mulVec _)
    rw [hup]
  · rw [Matrix.mulVec_zero]
    intro h
    have := congrFun h 0
    simp at this

/-- **C113 (wrong side).** With `A` and `b` on the device and `x` on the host the check passes and a host address is
given to cuSPARSE. -/
theorem C113_side_violated (cu : CuSparse ℚ) (hcu : CuSparseOk cu) (dbl : Bool) :
    ∃ e, iluSolve true dbl cu 0 exDev ⟨[0, 0], [], false⟩ ⟨[], [3, 0], true⟩ = .ub e := by
  have hp := exDev_pivots cu hcu
  have hck : solveChecks true exDev ⟨[0, 0], [], false⟩ ⟨[], [3, 0], true⟩ = .ok () := rfl
  have hv : valuesOf exDev = .ok exDev.mat.val := rfl
  refine ⟨"host address given to cuSPARSE", ?_⟩
  unfold iluSolve
  rw [if_pos rfl, hck, hv]
  simp only [Res.ok_bind]
  have hp' : (cu.ilu0 { exDev.mat with val := exDev.mat.val }).2 = false := hp
  have : pivots dbl "ILU error." (cu.ilu0 { exDev.mat with val := exDev.mat.val }) =
      .ok (cu.ilu0 { exDev.mat with val := exDev.mat.val }).1 := by
    unfold pivots; rw [hp']; rfl
  rw [this]
  rfl

end Verif.Incomplete
