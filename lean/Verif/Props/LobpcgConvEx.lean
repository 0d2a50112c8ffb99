import Verif.Props.LobpcgConvCases
import Verif.Lemmas.DsygvdExists

/-! C120: CRS matrices, and cases that meet the hypotheses. -/

namespace Verif.Lobpcg

open Spec Solver Lapack Matrix

/-- **C120** for CRS matrices over the reals: for every symmetric matrix and every tolerance there is an iteration count
that is enough for every start vector of length 1 but the eigenvectors, whatever the order in which the threads run. -/
theorem C120_crs_partial {n : Nat} (A : Crs ℝ) (hA : A.Safe) (hd : DistinctPos A.entries) (hr : A.rowN = n)
    (hc : A.colN = n) (hsym : ∀ i j : Fin n, crsAt A i j = crsAt A j i) (order zo : List Nat) (ho : Order order n)
    (hz : Order zo n) {tol : ℝ} (htol0 : 0 < tol) :
    ∃ N : Nat, ∀ (L : Lib (Ext ℝ)), Dsygvd L → DsygvdCompletes L → ∀ cfg : Cfg (Ext ℝ), cfg.tol = .fin tol →
      cfg.miniter = 0 → N ≤ cfg.maxiter → ∀ (l0 : Ext ℝ) (u : Fin n → ℝ), u ⬝ᵥ u = 1 →
      (∀ c : ℝ, (Matrix.of fun i j : Fin n => crsAt A i j) *ᵥ u ≠ c • u) →
      ∃ (fuel : Nat) (out : Out (Ext ℝ)),
        standard (Ext.num Real.sqrt) L cfg (ofCrs order zo (crsMap Ext.fin A)) noPrecond [l0] [vec Ext.fin u] n none
          fuel = some (.ok out) ∧
        Found Real.sqrt (Matrix.of fun i j : Fin n => crsAt A i j) tol out :=
  C120_converges_always_partial (fun _ h => Real.mul_self_sqrt h) (fun _ _ => Real.sqrt_nonneg _)
    (isMat_crsExt A hA hd hr hc order zo ho hz) (mv_crsExt A hA hr hc order zo ho)
    (by ext i j; exact hsym j i) htol0

/-- the matrix `[[2, 1], [1, 2]]` -/
def twoA : Crs ℝ := ⟨2, 2, [0, 2, 4], [0, 1, 0, 1], [2, 1, 1, 2], 4, 4, true⟩

theorem twoA_safe : twoA.Safe :=
  { created := rfl, lenV := rfl, nnz_le := by decide, lenP := rfl, ptr_le := by decide, lenC := by decide,
    col_lt := by decide }

theorem twoA_entries : twoA.entries = [(0, 0, 2), (0, 1, 1), (1, 0, 1), (1, 1, 2)] := rfl

theorem twoA_at : (Matrix.of fun i j : Fin 2 => crsAt twoA i j) = !![2, 1; 1, 2] := by
  ext i j
  fin_cases i <;> fin_cases j <;> simp [crsAt, sumAt, twoA_entries]

theorem twoA_distinct : DistinctPos twoA.entries := by
  rw [twoA_entries]
  simp [DistinctPos]

theorem twoA_symm : (Matrix.of fun i j : Fin 2 => crsAt twoA i j)ᵀ = Matrix.of fun i j : Fin 2 => crsAt twoA i j := by
  rw [twoA_at]
  ext i j
  fin_cases i <;> fin_cases j <;> rfl

theorem twoA_lo (v : Fin 2 → ℝ) : 1 * (v ⬝ᵥ v) ≤ v ⬝ᵥ ((Matrix.of fun i j : Fin 2 => crsAt twoA i j) *ᵥ v) := by
  rw [twoA_at]
  simp [dotProduct, Matrix.mulVec, Fin.sum_univ_two]
  nlinarith [sq_nonneg (v 0 + v 1)]

theorem twoA_hi (v : Fin 2 → ℝ) : v ⬝ᵥ ((Matrix.of fun i j : Fin 2 => crsAt twoA i j) *ᵥ v) ≤ (1 + 2) * (v ⬝ᵥ v) := by
  rw [twoA_at]
  simp [dotProduct, Matrix.mulVec, Fin.sum_univ_two]
  nlinarith [sq_nonneg (v 0 - v 1)]

/-- the hypotheses are met: `(3/5, 4/5)`, tolerance `1/10`, 1000 iterations, a LAPACK that exists -/
theorem two_run : ∃ out, standard (Ext.num Real.sqrt) realLib
      { tol := .fin (1 / 10), maxiter := 1000, omega := .fin 1, prevResid := .fin 0 }
      (ofCrs [1, 0] [0, 1] (crsMap Ext.fin twoA)) noPrecond [.fin 0] [vec Ext.fin (![3/5, 4/5] : Fin 2 → ℝ)] 2 none 2001 =
        some (.ok out) ∧ Found Real.sqrt (Matrix.of fun i j : Fin 2 => crsAt twoA i j) (1 / 10) out := by
  refine C120_converges_partial (n := 2) (lo := 1) (D := 2) (fun _ h => Real.mul_self_sqrt h) (fun _ _ => Real.sqrt_nonneg _)
    (isMat_crsExt (n := 2) twoA twoA_safe twoA_distinct rfl rfl [1, 0] [0, 1] (by unfold Order; decide) (by unfold Order; decide))
    (mv_crsExt (n := 2) twoA twoA_safe rfl rfl [1, 0] [0, 1] (by unfold Order; decide)) twoA_symm twoA_lo twoA_hi realLib_dsygvd realLib_completes
    rfl (by norm_num) rfl _ ?_ ?_ ?_ (by decide)
  · simp [dotProduct, Fin.sum_univ_two]
    norm_num
  · rw [twoA_at]
    intro h
    have := congrFun h 0
    simp [dotProduct, Matrix.mulVec, Fin.sum_univ_two] at this
    norm_num at this
  · norm_num

/-- and for the general theorem: every symmetric CRS matrix has such a bound, with LAPACK as it exists -/
example : ∃ N : Nat, ∀ cfg : Cfg (Ext ℝ), cfg.tol = .fin (1 / 1000) → cfg.miniter = 0 → N ≤ cfg.maxiter →
    ∃ (fuel : Nat) (out : Out (Ext ℝ)), standard (Ext.num Real.sqrt) realLib cfg
      (ofCrs [1, 0] [0, 1] (crsMap Ext.fin twoA)) noPrecond [.fin 0] [vec Ext.fin (![1, 0] : Fin 2 → ℝ)] 2 none fuel =
        some (.ok out) ∧ Found Real.sqrt (Matrix.of fun i j : Fin 2 => crsAt twoA i j) (1 / 1000) out := by
  obtain ⟨N, h⟩ := C120_crs_partial twoA twoA_safe twoA_distinct (n := 2) rfl rfl (by
      intro i j
      have e := congrArg (fun M : Matrix (Fin 2) (Fin 2) ℝ => M i j = M j i) twoA_at
      simp only [Matrix.of_apply, eq_iff_iff] at e
      rw [e]
      fin_cases i <;> fin_cases j <;> rfl) [1, 0] [0, 1] (by unfold Order; decide) (by unfold Order; decide)
    (tol := 1 / 1000) (by norm_num)
  refine ⟨N, fun cfg h1 h2 h3 => h realLib realLib_dsygvd realLib_completes cfg h1 h2 h3 _ _ ?_ ?_⟩
  · simp [dotProduct, Fin.sum_univ_two]
  · intro c hc
    rw [twoA_at] at hc
    have := congrFun hc 1
    simp [Matrix.mulVec, dotProduct, Fin.sum_univ_two] at this

/-- a library whose `sygvd` gives the same answer to every question -/
def sayLib (r : List (Ext ℚ) × List (Ext ℚ) × List (Ext ℚ) × Int) : Lib (Ext ℚ) :=
  { answer [] [] ([], [], [], 0) with sygvd := fun _ _ _ _ _ _ _ _ => r }

theorem eig_run : standard (Ext.num lobSq) (sayLib ([q 1, q 0, q 0, q 1], [], [q 1, q 2], 0)) lobCfg
    (ofCrs [0, 1] [0, 1] (crsMap Ext.fin lobA)) noPrecond [q 0] [[q 1, q 0]] 2 none 5 =
    some (.ok { status := RESIDUAL_NAN, l := [q 1], x := [[.nan, .nan]], finalIter := 1, finalResid := .nan }) := by
  decide +kernel

/-- the hypotheses of `C120_eigenvector_violated` are met: from `e₁`, an eigenvector of `diag(1, 2)`, the answer is
`RESIDUAL_NAN` -/
example : RESIDUAL_NAN ≠ SUCCESS :=
  C120_eigenvector_violated (n := 2) (sq := lobSq) (by decide +kernel) (by decide)
    (isMat_crsExt lobA lobA_safe (by decide) rfl rfl [0, 1] [0, 1] (by unfold Order; decide) (by unfold Order; decide))
    _ lobCfg [q 0] (j := 0) (by decide) (u := ![1, 0]) rfl (by decide +kernel) (c := 1)
    (by ext i; fin_cases i <;> decide +kernel) 5 _ eig_run

end Verif.Lobpcg
