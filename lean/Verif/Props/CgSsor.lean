import Verif.Props.CgSgsDominant

/-! C102: CG with the SOR preconditioner, any relaxation parameter above `1/2`. -/

namespace Verif.Solver

open Spec Matrix

variable {n : Nat}

/-- for `w > 1/2` the matrix is at most `w / (2 w - 1)` times the matrix of the SOR preconditioner -/
theorem sor_above {M : Matrix (Fin n) (Fin n) ℝ} (hM : Mᵀ = M) (hd : ∀ i, 0 < M i i) {w : ℝ} (hw : 1 / 2 < w)
    (v : Fin n → ℝ) : v ⬝ᵥ (M *ᵥ v) ≤ w / (2 * w - 1) * (v ⬝ᵥ (Lobpcg.sorMat M w *ᵥ v)) := by
  have hw0 : 0 < w := by linarith
  have hw1 : 0 < 2 * w - 1 := by linarith
  obtain ⟨E, hE⟩ : ∃ E, E = Matrix.diagonal (fun i => w * M i i) + strictUpper M := ⟨_, rfl⟩
  have hEt : Eᵀ = Matrix.diagonal (fun i => w * M i i) + strictLower M := by
    rw [hE, Matrix.transpose_add, Matrix.diagonal_transpose]
    congr 1
    ext i j
    have : M j i = M i j := congrFun (congrFun hM i) j
    simp [strictUpper, strictLower, this]
  have hA : M = E + Eᵀ - Matrix.diagonal (fun i => (2 * w - 1) * M i i) := by
    rw [hEt, hE]
    ext i j
    rcases lt_trichotomy i j with h | h | h
    · simp [strictUpper, strictLower, h, h.ne, not_lt.mpr h.le]
    · subst h; simp [strictUpper, strictLower]; ring
    · simp [strictUpper, strictLower, h, h.ne', not_lt.mpr h.le]
  have hS : v ⬝ᵥ (Lobpcg.sorMat M w *ᵥ v) = ∑ i, (E *ᵥ v) i ^ 2 / (w * M i i) := by
    have : Lobpcg.sorMat M w = Eᵀ * Matrix.diagonal (fun i => 1 / (w * M i i)) * E := by
      unfold Lobpcg.sorMat
      rw [hEt, hE]
    rw [this, ← Matrix.mulVec_mulVec, ← Matrix.mulVec_mulVec, dotProduct_mulVec, Matrix.vecMul_transpose]
    unfold dotProduct
    refine Finset.sum_congr rfl fun i _ => ?_
    rw [mulVec_diagonal]
    ring
  have hq : v ⬝ᵥ (M *ᵥ v) = ∑ i, (2 * (v i * (E *ᵥ v) i) - (2 * w - 1) * M i i * v i ^ 2) := by
    have h1 : v ⬝ᵥ (M *ᵥ v) = v ⬝ᵥ ((E + Eᵀ - Matrix.diagonal (fun i => (2 * w - 1) * M i i)) *ᵥ v) := by rw [← hA]
    have h2 : v ⬝ᵥ (Eᵀ *ᵥ v) = v ⬝ᵥ (E *ᵥ v) := by
      rw [dotProduct_mulVec, Matrix.vecMul_transpose, dotProduct_comm]
    rw [h1, Matrix.sub_mulVec, Matrix.add_mulVec, dotProduct_sub, dotProduct_add, h2, ← two_mul]
    unfold dotProduct
    rw [Finset.mul_sum, ← Finset.sum_sub_distrib]
    refine Finset.sum_congr rfl fun i _ => ?_
    rw [mulVec_diagonal]
    ring
  rw [hS, hq, Finset.mul_sum]
  refine Finset.sum_le_sum fun i _ => ?_
  generalize (E *ᵥ v) i = e
  have hp := hd i
  have e1 : w / (2 * w - 1) * (e ^ 2 / (w * M i i)) = e ^ 2 / ((2 * w - 1) * M i i) := by
    field_simp
  rw [e1, le_div_iff₀ (mul_pos hw1 hp)]
  nlinarith [sq_nonneg (e - (2 * w - 1) * M i i * v i)]

/-- **C102** with the SOR preconditioner and `w > 1/2`: the upper bound `m' = w / (2 w - 1)` holds by itself. -/
theorem C102_ssor (cfg : Cfg ℝ) (hlib : cfg.lib = 0) (hm0 : cfg.residMethod = 0) (hmin : cfg.miniter = 0)
    (A : Crs ℝ) (hA : A.Safe) (hd : DistinctPos A.entries) (hr : A.rowN = n) (hc : A.colN = n)
    (order zo : List Nat) (ho : Order order n) (hz : Order zo n)
    (hM : SPD (Matrix.of (fun i j : Fin n => crsAt A i j))) {w : ℝ} (hw : 1 / 2 < w) {m lam : ℝ} (hm : 0 < m)
    (hm1 : m ≤ w / (2 * w - 1))
    (hS : ∀ v, m * (v ⬝ᵥ (Lobpcg.sorMat (Matrix.of (fun i j : Fin n => crsAt A i j)) w *ᵥ v)) ≤
        v ⬝ᵥ (Matrix.of (fun i j : Fin n => crsAt A i j) *ᵥ v))
    (hL : ∀ v, (Matrix.of (fun i j : Fin n => crsAt A i j) *ᵥ v) ⬝ᵥ (Matrix.of (fun i j : Fin n => crsAt A i j) *ᵥ v) ≤
      lam * (v ⬝ᵥ (Matrix.of (fun i j : Fin n => crsAt A i j) *ᵥ v)))
    (x b xs : Fin n → ℝ) (hs : Matrix.of (fun i j : Fin n => crsAt A i j) *ᵥ xs = b)
    (hx : Matrix.of (fun i j : Fin n => crsAt A i j) *ᵥ x ≠ b) (k : Nat) (hk1 : 1 ≤ k) (hmax : k ≤ cfg.maxiter)
    (hk : 2 * ((√(w / (2 * w - 1)) - √m) / (√(w / (2 * w - 1)) + √m)) ^ k * √(lam * energy (Matrix.of (fun i j : Fin n => crsAt A i j)) xs x) < cfg.tol) :
    ∃ j y, 1 ≤ j ∧ j ≤ k ∧
      √((b - Matrix.of (fun i j : Fin n => crsAt A i j) *ᵥ y) ⬝ᵥ (b - Matrix.of (fun i j : Fin n => crsAt A i j) *ᵥ y)) <
        cfg.tol ∧
      energy (Matrix.of (fun i j : Fin n => crsAt A i j)) xs y ≤
        (2 * ((√(w / (2 * w - 1)) - √m) / (√(w / (2 * w - 1)) + √m)) ^ j) ^ 2 * energy (Matrix.of (fun i j : Fin n => crsAt A i j)) xs x ∧
      CG.solve (fieldNum Real.sqrt) cfg (ofCrs order zo A)
          (sorPrecond (fieldNum Real.sqrt) w (ofCrs order zo A) (crsPrecond (fieldNum Real.sqrt) A)) (List.ofFn x) (List.ofFn b) =
        .ok { status := SUCCESS
              x := List.ofFn y
              finalIter := j
              finalResid := √((b - Matrix.of (fun i j : Fin n => crsAt A i j) *ᵥ y) ⬝ᵥ
                (b - Matrix.of (fun i j : Fin n => crsAt A i j) *ᵥ y)) } := by
  have hdiag : ∀ i : Fin n, 0 < (Matrix.of (fun i j : Fin n => crsAt A i j)) i i := by
    intro i
    have h1 := hM.2 (Pi.single i 1) (by
      intro h
      have := congrFun h i
      simp at this)
    simpa [mulVec_single_one, single_one_dotProduct] using h1
  have hw0 : 0 < w := by linarith
  exact C102_sor cfg hlib hm0 hmin A hA hd hr hc order zo ho hz hM hw0 hm hm1
    (fun v => ⟨hS v, sor_above hM.1 hdiag hw v⟩) hL x b xs hs hx k hk1 hmax hk

/-- The hypothesis on `m` of `C102_ssor` is met for `[2 1; 1 2]`, `w = 3/4`: `m = 1/2 ≤ m' = 3/2`. -/
example (v : Fin 2 → ℝ) : (1 / 2 : ℝ) ≤ (3 / 4) / (2 * (3 / 4) - 1) ∧
    1 / 2 * (v ⬝ᵥ (Lobpcg.sorMat (Matrix.of (fun i j : Fin 2 => crsAt Lobpcg.twoA i j)) (3 / 4) *ᵥ v)) ≤
      v ⬝ᵥ (Matrix.of (fun i j : Fin 2 => crsAt Lobpcg.twoA i j) *ᵥ v) := by
  refine ⟨by norm_num, ?_⟩
  rw [Lobpcg.twoA_at]
  simp [Lobpcg.sorMat, strictLower, strictUpper, dotProduct, Matrix.mulVec, Matrix.mul_apply, Matrix.diagonal_apply,
    Fin.sum_univ_two]
  nlinarith [sq_nonneg (v 0 - v 1), sq_nonneg (v 0 + v 1), sq_nonneg (v 0), sq_nonneg (v 1)]

end Verif.Solver
