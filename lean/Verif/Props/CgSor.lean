import Verif.Props.LobpcgSor
import Verif.Props.SolverMat

/-! C34: CG with the SOR preconditioner. -/

namespace Verif.Solver

open Spec Matrix

variable {K : Type} [Field K] [LinearOrder K] [IsStrictOrderedRing K] {n : Nat}

theorem sorMat_symm {M : Matrix (Fin n) (Fin n) K} (hM : Mᵀ = M) (w : K) : (Lobpcg.sorMat M w)ᵀ = Lobpcg.sorMat M w := by
  have h1 : (Matrix.diagonal (fun i => w * M i i) + strictUpper M)ᵀ = Matrix.diagonal (fun i => w * M i i) + strictLower M := by
    rw [Matrix.transpose_add, Matrix.diagonal_transpose]
    congr 1
    ext i j
    have : M j i = M i j := congrFun (congrFun hM i) j
    simp [strictUpper, strictLower, this]
  have h2 : (Matrix.diagonal (fun i => w * M i i) + strictLower M)ᵀ = Matrix.diagonal (fun i => w * M i i) + strictUpper M := by
    rw [← h1, Matrix.transpose_transpose]
  unfold Lobpcg.sorMat
  rw [Matrix.transpose_mul, Matrix.transpose_mul, h1, h2, Matrix.diagonal_transpose, Matrix.mul_assoc]

/-- the SOR preconditioner of a symmetric matrix with a positive diagonal is a symmetric positive definite matrix -/
theorem sor_spd {M : Matrix (Fin n) (Fin n) K} (hM : Mᵀ = M) (hd : ∀ i, 0 < M i i) {w : K} (hw : 0 < w)
    {P : (Fin n → K) → Fin n → K} (hP : ∀ r, Lobpcg.sorMat M w *ᵥ P r = r) :
    ∃ Q : Matrix (Fin n) (Fin n) K, SPD Q ∧ Lobpcg.sorMat M w * Q = 1 ∧ P = byMatrix Q := by
  obtain ⟨c, hc, hco⟩ := Lobpcg.sor_coercive hM hd hw hP
  have hS := sorMat_symm hM w
  generalize Lobpcg.sorMat M w = S at *
  let Q : Matrix (Fin n) (Fin n) K := Matrix.of fun i j => P (Pi.single j 1) i
  have hSQ : S * Q = 1 := by
    ext i j
    have := congrFun (hP (Pi.single j 1)) i
    rw [Matrix.mul_apply]
    simp only [Matrix.mulVec, dotProduct] at this
    rw [Matrix.one_apply, ← Pi.single_apply]
    rw [Pi.single_apply] at this ⊢
    simpa [Q, eq_comm] using this
  have hQS : Q * S = 1 := mul_eq_one_comm.mp hSQ
  have hPQ : P = byMatrix Q := by
    funext v
    have h1 : Q *ᵥ (S *ᵥ P v) = P v := by rw [Matrix.mulVec_mulVec, hQS, Matrix.one_mulVec]
    rw [hP v] at h1
    exact h1.symm
  refine ⟨Q, ⟨?_, fun v hv => ?_⟩, hSQ, hPQ⟩
  · have h1 : Qᵀ * S = 1 := by
      have := congrArg Matrix.transpose hSQ
      rwa [Matrix.transpose_mul, hS, Matrix.transpose_one] at this
    calc Qᵀ = Qᵀ * (S * Q) := by rw [hSQ, Matrix.mul_one]
      _ = Q := by rw [← Matrix.mul_assoc, h1, Matrix.one_mul]
  · have hne : P v ≠ 0 := by
      intro h
      have := hP v
      rw [h, Matrix.mulVec_zero] at this
      exact hv this.symm
    have h1 := hco v
    have h2 : 0 < P v ⬝ᵥ P v := Lobpcg.dot_pos hne
    have h3 := mul_pos hc h2
    have h4 : v ⬝ᵥ (Q *ᵥ v) = v ⬝ᵥ P v := by rw [hPQ]
    rw [h4]
    exact lt_of_lt_of_le h3 h1

/-- **C34** with the SOR preconditioner, CRS matrices: every symmetric positive definite matrix, every relaxation parameter
`w > 0`, any schedule: SUCCESS within as many iterations as there are rows, with a residual below the tolerance. -/
theorem C34_sor (sq : K → K) (hsq : sq 0 = 0) (cfg : Cfg K) (htol : 0 < cfg.tol)
    (hlib : cfg.lib = 0) (hm : cfg.residMethod = 0) (hmin : cfg.miniter = 0) (hmax : n ≤ cfg.maxiter)
    (A : Crs K) (hA : A.Safe) (hd : DistinctPos A.entries) (hr : A.rowN = n) (hc : A.colN = n)
    (order zo : List Nat) (ho : Order order n) (hz : Order zo n)
    (hM : SPD (Matrix.of (fun i j : Fin n => crsAt A i j))) {w : K} (hw : 0 < w)
    (x b : Fin n → K) (hx : Matrix.of (fun i j : Fin n => crsAt A i j) *ᵥ x ≠ b) :
    ∃ k y, 1 ≤ k ∧ k ≤ n ∧
      norm2 sq (b - Matrix.of (fun i j : Fin n => crsAt A i j) *ᵥ y) < cfg.tol ∧
      CG.solve (fieldNum sq) cfg (ofCrs order zo A) (sorPrecond (fieldNum sq) w (ofCrs order zo A) (crsPrecond (fieldNum sq) A))
          (List.ofFn x) (List.ofFn b) =
        .ok { status := SUCCESS, x := List.ofFn y, finalIter := k,
              finalResid := norm2 sq (b - Matrix.of (fun i j : Fin n => crsAt A i j) *ᵥ y) } := by
  have hI := isMat_crs A hA hd hr hc order zo ho hz
  have hdiag : ∀ i : Fin n, 0 < crsAt A i i := by
    intro i
    have h1 := hM.2 (Pi.single i 1) (by
      intro h
      have := congrFun h i
      simp at this)
    simpa [mulVec_single_one, single_one_dotProduct] using h1
  obtain ⟨P, hP, hS⟩ := C32_precond (fieldNum_exact sq) A hA hr hc _ hI (fun i => (hdiag i).ne') w hw.ne'
  obtain ⟨Q, hQ, -, rfl⟩ := sor_spd hM.1 hdiag hw (P := P) hS
  have hmap : crsMap id A = A := by cases A; simp [crsMap]
  rw [hmap] at hP
  exact C34_terminates (fieldNum_exact sq) hsq cfg cfg.tol htol rfl hlib hm hmin hmax _ _ hI hM _ Q hQ hP x b hx

/-- The hypotheses of `C34_sor` are met: the system of the example of `C34_crs`. -/
example : ∃ (k : Nat) (y : Fin 2 → ℚ) (r : ℚ), 1 ≤ k ∧ k ≤ 2 ∧ r < 1 / 100 ∧
    CG.solve (fieldNum id) exCfg (ofCrs [1, 0] [0, 1] exA)
      (sorPrecond (fieldNum id) (3 / 2) (ofCrs [1, 0] [0, 1] exA) (crsPrecond (fieldNum id) exA)) (List.ofFn ![0, 0])
      (List.ofFn ![1, 0]) =
        .ok { status := SUCCESS, x := List.ofFn y, finalIter := k, finalResid := r } := by
  obtain ⟨k, y, h1, h2, h3, h4⟩ :=
    C34_sor (n := 2) id rfl exCfg (by norm_num [exCfg]) rfl rfl rfl (by decide) exA exA_safe
      exA_distinct rfl rfl [1, 0] [0, 1] (by unfold Order; decide) (by unfold Order; decide) exA_spd (w := 3 / 2) (by norm_num)
      ![0, 0] ![1, 0] (by
        intro h
        have h := congrFun h 0
        simp [Matrix.mulVec] at h)
  exact ⟨k, y, _, h1, h2, h3, h4⟩

end Verif.Solver
