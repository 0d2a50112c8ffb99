import Verif.Props.CgSor
import Verif.Props.CGIter

/-! C102: the rate of CG with the SOR preconditioner. -/

namespace Verif.Solver

open Spec Matrix

variable {n : Nat}

theorem symm_form {S : Matrix (Fin n) (Fin n) ℝ} (hS : Sᵀ = S) (u v : Fin n → ℝ) : u ⬝ᵥ (S *ᵥ v) = v ⬝ᵥ (S *ᵥ u) := by
  rw [dotProduct_mulVec, ← mulVec_transpose, hS, dotProduct_comm]

/-- a bound of the matrix by the matrix `S` of the preconditioner bounds the preconditioned matrix -/
theorem precond_between {A S Q : Matrix (Fin n) (Fin n) ℝ} (hA : SPD A) (hS : Sᵀ = S) (hSQ : S * Q = 1) {m m' : ℝ} (hm : 0 < m)
    (hmm : m ≤ m') (h : ∀ v, m * (v ⬝ᵥ (S *ᵥ v)) ≤ v ⬝ᵥ (A *ᵥ v) ∧ v ⬝ᵥ (A *ᵥ v) ≤ m' * (v ⬝ᵥ (S *ᵥ v))) :
    PrecondBetween A Q m m' := by
  have hm' : 0 < m' := lt_of_lt_of_le hm hmm
  have hA0 : ∀ v, 0 ≤ v ⬝ᵥ (A *ᵥ v) := by
    intro v
    by_cases hv : v = 0
    · subst hv; simp
    · exact (hA.2 v hv).le
  have hS0 : ∀ v, 0 ≤ v ⬝ᵥ (S *ᵥ v) := by
    intro v
    have := (hA0 v).trans (h v).2
    exact nonneg_of_mul_nonneg_right (by linarith) hm'
  intro v
  obtain ⟨y, hy⟩ : ∃ y, y = Q *ᵥ (A *ᵥ v) := ⟨_, rfl⟩
  have hSy : S *ᵥ y = A *ᵥ v := by rw [hy, Matrix.mulVec_mulVec, hSQ, Matrix.one_mulVec]
  have hs : (A *ᵥ v) ⬝ᵥ (Q *ᵥ (A *ᵥ v)) = y ⬝ᵥ (S *ᵥ y) := by rw [← hy, hSy, dotProduct_comm]
  rw [hs]
  constructor
  · have h1 := hS0 (v - (1 / m) • y)
    have e : (v - (1 / m) • y) ⬝ᵥ (S *ᵥ (v - (1 / m) • y)) =
        v ⬝ᵥ (S *ᵥ v) - 2 * (1 / m) * (v ⬝ᵥ (S *ᵥ y)) + (1 / m) ^ 2 * (y ⬝ᵥ (S *ᵥ y)) := by
      rw [Matrix.mulVec_sub, Matrix.mulVec_smul, sub_dotProduct, dotProduct_sub, dotProduct_sub, smul_dotProduct,
        smul_dotProduct, dotProduct_smul, dotProduct_smul, symm_form hS y v]
      simp only [smul_eq_mul]
      ring
    rw [e, hSy] at h1
    rw [hSy]
    have h2 := (h v).1
    have h3 := mul_le_mul_of_nonneg_left h1 (mul_pos hm hm).le
    have h4 : m * m * (v ⬝ᵥ (S *ᵥ v) - 2 * (1 / m) * (v ⬝ᵥ (A *ᵥ v)) + (1 / m) ^ 2 * (y ⬝ᵥ (A *ᵥ v))) =
        m * (m * (v ⬝ᵥ (S *ᵥ v))) - 2 * m * (v ⬝ᵥ (A *ᵥ v)) + y ⬝ᵥ (A *ᵥ v) := by
      field_simp
    have h5 := mul_le_mul_of_nonneg_left h2 hm.le
    linarith
  · have h1 := hA0 (y - m' • v)
    have e : (y - m' • v) ⬝ᵥ (A *ᵥ (y - m' • v)) =
        y ⬝ᵥ (A *ᵥ y) - 2 * m' * (y ⬝ᵥ (A *ᵥ v)) + m' ^ 2 * (v ⬝ᵥ (A *ᵥ v)) := by
      rw [Matrix.mulVec_sub, Matrix.mulVec_smul, sub_dotProduct, dotProduct_sub, dotProduct_sub, smul_dotProduct,
        smul_dotProduct, dotProduct_smul, dotProduct_smul, symm_form hA.1 v y]
      simp only [smul_eq_mul]
      ring
    rw [e, ← hSy] at h1
    have h2 := (h y).2
    rw [← hSy]
    have h3 : m' * (y ⬝ᵥ (S *ᵥ y)) ≤ m' * (m' * (v ⬝ᵥ (S *ᵥ y))) := by nlinarith
    exact le_of_mul_le_mul_left h3 hm'

/-- with `w = 1` the matrix of the SOR preconditioner is `A + L D⁻¹ U` -/
theorem sgs_form {M : Matrix (Fin n) (Fin n) ℝ} (hM : Mᵀ = M) (hd : ∀ i, 0 < M i i) (v : Fin n → ℝ) :
    v ⬝ᵥ (Lobpcg.sorMat M 1 *ᵥ v) = v ⬝ᵥ (M *ᵥ v) +
      (strictUpper M *ᵥ v) ⬝ᵥ (Matrix.diagonal (fun i => 1 / M i i) *ᵥ (strictUpper M *ᵥ v)) := by
  obtain ⟨D, hD⟩ : ∃ D, D = Matrix.diagonal (fun i => M i i) := ⟨_, rfl⟩
  obtain ⟨Di, hDi⟩ : ∃ Di, Di = Matrix.diagonal (fun i => 1 / M i i) := ⟨_, rfl⟩
  have h1 : D * Di = 1 := by
    rw [hD, hDi, Matrix.diagonal_mul_diagonal, ← Matrix.diagonal_one]
    congr 1
    funext i
    exact mul_one_div_cancel (hd i).ne'
  have h2 : Di * D = 1 := mul_eq_one_comm.mp h1
  have hU : (strictUpper M)ᵀ = strictLower M := by
    ext i j
    have : M j i = M i j := congrFun (congrFun hM i) j
    simp [strictUpper, strictLower, this]
  have hsum : M = D + strictUpper M + strictLower M := by
    ext i j
    rw [hD]
    rcases lt_trichotomy i j with h | h | h
    · simp [strictUpper, strictLower, h, h.ne, not_lt.mpr h.le]
    · subst h; simp [strictUpper, strictLower]
    · simp [strictUpper, strictLower, h, h.ne', not_lt.mpr h.le]
  have hS : Lobpcg.sorMat M 1 = M + strictLower M * (Di * strictUpper M) := by
    unfold Lobpcg.sorMat
    simp only [one_mul]
    rw [← hD, ← hDi, add_mul, h1, Matrix.mul_add, Matrix.add_mul, Matrix.add_mul, Matrix.one_mul, Matrix.one_mul,
      Matrix.mul_assoc (strictLower M) Di D, h2, Matrix.mul_one, Matrix.mul_assoc]
    have e : D + strictLower M + (strictUpper M + strictLower M * (Di * strictUpper M)) =
        (D + strictUpper M + strictLower M) + strictLower M * (Di * strictUpper M) := by abel
    rw [e, ← hsum]
  rw [hS, Matrix.add_mulVec, dotProduct_add, ← Matrix.mulVec_mulVec, ← Matrix.mulVec_mulVec, ← hU]
  have h3 : v ⬝ᵥ ((strictUpper M)ᵀ *ᵥ (Di *ᵥ (strictUpper M *ᵥ v))) =
      (strictUpper M *ᵥ v) ⬝ᵥ (Di *ᵥ (strictUpper M *ᵥ v)) := by
    rw [dotProduct_mulVec, Matrix.vecMul_transpose]
  rw [h3, hDi]

/-- with `w = 1` the matrix of the SOR preconditioner is not below the matrix -/
theorem sgs_above {M : Matrix (Fin n) (Fin n) ℝ} (hM : Mᵀ = M) (hd : ∀ i, 0 < M i i) (v : Fin n → ℝ) :
    v ⬝ᵥ (M *ᵥ v) ≤ v ⬝ᵥ (Lobpcg.sorMat M 1 *ᵥ v) := by
  rw [sgs_form hM hd v]
  have h4 : 0 ≤ (strictUpper M *ᵥ v) ⬝ᵥ (Matrix.diagonal (fun i => 1 / M i i) *ᵥ (strictUpper M *ᵥ v)) := by
    generalize strictUpper M *ᵥ v = u
    refine Finset.sum_nonneg fun i _ => ?_
    rw [mulVec_diagonal]
    have := hd i
    have h5 : u i * (1 / M i i * u i) = u i * u i / M i i := by ring
    rw [h5]
    exact div_nonneg (mul_self_nonneg _) this.le
  linarith

/-- **C102** with the SOR preconditioner, CRS matrices: if `m S ≤ A ≤ m' S` for the matrix `S` of the preconditioner
(`(w D + L) (w D)⁻¹ (w D + U)`), `solve` needs no more iterations than the rate for `m`, `m'` says, for any size and schedule.
Exact real arithmetic; `λ` bounds the eigenvalues of the matrix. -/
theorem C102_sor (cfg : Cfg ℝ) (hlib : cfg.lib = 0) (hm0 : cfg.residMethod = 0) (hmin : cfg.miniter = 0)
    (A : Crs ℝ) (hA : A.Safe) (hd : DistinctPos A.entries) (hr : A.rowN = n) (hc : A.colN = n)
    (order zo : List Nat) (ho : Order order n) (hz : Order zo n)
    (hM : SPD (Matrix.of (fun i j : Fin n => crsAt A i j))) {w : ℝ} (hw : 0 < w) {m m' lam : ℝ} (hm : 0 < m) (hmm : m ≤ m')
    (hS : ∀ v, m * (v ⬝ᵥ (Lobpcg.sorMat (Matrix.of (fun i j : Fin n => crsAt A i j)) w *ᵥ v)) ≤
        v ⬝ᵥ (Matrix.of (fun i j : Fin n => crsAt A i j) *ᵥ v) ∧
      v ⬝ᵥ (Matrix.of (fun i j : Fin n => crsAt A i j) *ᵥ v) ≤
        m' * (v ⬝ᵥ (Lobpcg.sorMat (Matrix.of (fun i j : Fin n => crsAt A i j)) w *ᵥ v)))
    (hL : ∀ v, (Matrix.of (fun i j : Fin n => crsAt A i j) *ᵥ v) ⬝ᵥ (Matrix.of (fun i j : Fin n => crsAt A i j) *ᵥ v) ≤
      lam * (v ⬝ᵥ (Matrix.of (fun i j : Fin n => crsAt A i j) *ᵥ v)))
    (x b xs : Fin n → ℝ) (hs : Matrix.of (fun i j : Fin n => crsAt A i j) *ᵥ xs = b)
    (hx : Matrix.of (fun i j : Fin n => crsAt A i j) *ᵥ x ≠ b) (k : Nat) (hk1 : 1 ≤ k) (hmax : k ≤ cfg.maxiter)
    (hk : 2 * ((√m' - √m) / (√m' + √m)) ^ k * √(lam * energy (Matrix.of (fun i j : Fin n => crsAt A i j)) xs x) < cfg.tol) :
    ∃ j y, 1 ≤ j ∧ j ≤ k ∧
      √((b - Matrix.of (fun i j : Fin n => crsAt A i j) *ᵥ y) ⬝ᵥ (b - Matrix.of (fun i j : Fin n => crsAt A i j) *ᵥ y)) <
        cfg.tol ∧
      energy (Matrix.of (fun i j : Fin n => crsAt A i j)) xs y ≤
        (2 * ((√m' - √m) / (√m' + √m)) ^ j) ^ 2 * energy (Matrix.of (fun i j : Fin n => crsAt A i j)) xs x ∧
      CG.solve (fieldNum Real.sqrt) cfg (ofCrs order zo A)
          (sorPrecond (fieldNum Real.sqrt) w (ofCrs order zo A) (crsPrecond (fieldNum Real.sqrt) A)) (List.ofFn x) (List.ofFn b) =
        .ok { status := SUCCESS
              x := List.ofFn y
              finalIter := j
              finalResid := √((b - Matrix.of (fun i j : Fin n => crsAt A i j) *ᵥ y) ⬝ᵥ
                (b - Matrix.of (fun i j : Fin n => crsAt A i j) *ᵥ y)) } := by
  have hI := isMat_crs A hA hd hr hc order zo ho hz
  have hdiag : ∀ i : Fin n, 0 < crsAt A i i := by
    intro i
    have h1 := hM.2 (Pi.single i 1) (by
      intro h
      have := congrFun h i
      simp at this)
    simpa [mulVec_single_one, single_one_dotProduct] using h1
  obtain ⟨P, hP, hSP⟩ := C32_precond (fieldNum_exact Real.sqrt) A hA hr hc _ hI (fun i => (hdiag i).ne') w hw.ne'
  obtain ⟨Q, hQ, hSQ, rfl⟩ := sor_spd hM.1 hdiag hw (P := P) hSP
  have hmap : crsMap id A = A := by cases A; simp [crsMap]
  rw [hmap] at hP
  exact C102_solve (fieldNum_exact Real.sqrt) cfg cfg.tol rfl hlib hm0 hmin _ _ hI hM _ Q hQ hP hm hmm
    (precond_between hM (sorMat_symm hM.1 w) hSQ hm hmm hS) hL x b xs hs hx k hk1 hmax hk

/-- **C102** with SOR and `w = 1` (symmetric Gauss-Seidel): the upper bound `m' = 1` holds by itself. -/
theorem C102_sgs (cfg : Cfg ℝ) (hlib : cfg.lib = 0) (hm0 : cfg.residMethod = 0) (hmin : cfg.miniter = 0)
    (A : Crs ℝ) (hA : A.Safe) (hd : DistinctPos A.entries) (hr : A.rowN = n) (hc : A.colN = n)
    (order zo : List Nat) (ho : Order order n) (hz : Order zo n)
    (hM : SPD (Matrix.of (fun i j : Fin n => crsAt A i j))) {m lam : ℝ} (hm : 0 < m) (hm1 : m ≤ 1)
    (hS : ∀ v, m * (v ⬝ᵥ (Lobpcg.sorMat (Matrix.of (fun i j : Fin n => crsAt A i j)) 1 *ᵥ v)) ≤
        v ⬝ᵥ (Matrix.of (fun i j : Fin n => crsAt A i j) *ᵥ v))
    (hL : ∀ v, (Matrix.of (fun i j : Fin n => crsAt A i j) *ᵥ v) ⬝ᵥ (Matrix.of (fun i j : Fin n => crsAt A i j) *ᵥ v) ≤
      lam * (v ⬝ᵥ (Matrix.of (fun i j : Fin n => crsAt A i j) *ᵥ v)))
    (x b xs : Fin n → ℝ) (hs : Matrix.of (fun i j : Fin n => crsAt A i j) *ᵥ xs = b)
    (hx : Matrix.of (fun i j : Fin n => crsAt A i j) *ᵥ x ≠ b) (k : Nat) (hk1 : 1 ≤ k) (hmax : k ≤ cfg.maxiter)
    (hk : 2 * ((1 - √m) / (1 + √m)) ^ k * √(lam * energy (Matrix.of (fun i j : Fin n => crsAt A i j)) xs x) < cfg.tol) :
    ∃ j y, 1 ≤ j ∧ j ≤ k ∧
      √((b - Matrix.of (fun i j : Fin n => crsAt A i j) *ᵥ y) ⬝ᵥ (b - Matrix.of (fun i j : Fin n => crsAt A i j) *ᵥ y)) <
        cfg.tol ∧
      energy (Matrix.of (fun i j : Fin n => crsAt A i j)) xs y ≤
        (2 * ((1 - √m) / (1 + √m)) ^ j) ^ 2 * energy (Matrix.of (fun i j : Fin n => crsAt A i j)) xs x ∧
      CG.solve (fieldNum Real.sqrt) cfg (ofCrs order zo A)
          (sorPrecond (fieldNum Real.sqrt) 1 (ofCrs order zo A) (crsPrecond (fieldNum Real.sqrt) A)) (List.ofFn x) (List.ofFn b) =
        .ok { status := SUCCESS
              x := List.ofFn y
              finalIter := j
              finalResid := √((b - Matrix.of (fun i j : Fin n => crsAt A i j) *ᵥ y) ⬝ᵥ
                (b - Matrix.of (fun i j : Fin n => crsAt A i j) *ᵥ y)) } := by
  have hdiag : ∀ i : Fin n, 0 < (Matrix.of (fun i j : Fin n => crsAt A i j)) i i := by
    intro i
    have h1 := hM.2 (Pi.single i 1) (by
      intro h
      have := congrFun h i
      simp at this)
    simpa [mulVec_single_one, single_one_dotProduct] using h1
  have := C102_sor cfg hlib hm0 hmin A hA hd hr hc order zo ho hz hM one_pos hm hm1
    (fun v => ⟨hS v, by rw [one_mul]; exact sgs_above hM.1 hdiag v⟩) hL x b xs hs hx k hk1 hmax (by rwa [Real.sqrt_one])
  rwa [Real.sqrt_one] at this

/-- The hypotheses of `C102_sgs` (hence of `C102_sor`) are met: for `[2 1; 1 2]` and `S = [2 1; 1 5/2]` with `m = 1/2`. -/
example :
    ∃ j y, 1 ≤ j ∧ j ≤ 10 ∧ ∃ r : ℝ, CG.solve (fieldNum Real.sqrt) { tol := 1 / 1000, maxiter := 10, omega := 1, prevResid := 0 }
      (ofCrs [1, 0] [0, 1] Lobpcg.twoA)
      (sorPrecond (fieldNum Real.sqrt) 1 (ofCrs [1, 0] [0, 1] Lobpcg.twoA) (crsPrecond (fieldNum Real.sqrt) Lobpcg.twoA))
      (List.ofFn (![0, 0] : Fin 2 → ℝ)) (List.ofFn (![2, 1] : Fin 2 → ℝ)) =
        .ok { status := SUCCESS, x := List.ofFn (y : Fin 2 → ℝ), finalIter := j, finalResid := r } := by
  have e := Lobpcg.twoA_at
  have hspd : SPD (Matrix.of (fun i j : Fin 2 => crsAt Lobpcg.twoA i j)) := by
    refine ⟨by ext i j; exact Lobpcg.twoA_sym' j i, fun v hv => ?_⟩
    have h1 := Lobpcg.twoA_lo v
    have h2 := Lobpcg.dot_pos hv
    linarith
  obtain ⟨j, y, h1, h2, -, -, h⟩ := C102_sgs (n := 2) { tol := 1 / 1000, maxiter := 10, omega := 1, prevResid := 0 } rfl rfl rfl
    Lobpcg.twoA Lobpcg.twoA_safe Lobpcg.twoA_distinct rfl rfl [1, 0] [0, 1] (by unfold Order; decide) (by unfold Order; decide)
    hspd (m := 1 / 2) (lam := 3) (by norm_num) (by norm_num) (by
      intro v
      rw [e]
      simp [Lobpcg.sorMat, strictLower, strictUpper, dotProduct, Matrix.mulVec, Matrix.mul_apply, Matrix.diagonal_apply,
        Fin.sum_univ_two]
      nlinarith [sq_nonneg (v 0 - v 1), sq_nonneg (v 0 + v 1), sq_nonneg (v 0), sq_nonneg (v 1)]) (by
      intro v
      rw [e]
      simp [dotProduct, Matrix.mulVec, Fin.sum_univ_two]
      nlinarith [sq_nonneg (v 0 - v 1), sq_nonneg (v 0 + v 1)]) ![0, 0] ![2, 1] ![1, 0] (by
      rw [e]
      ext i
      fin_cases i <;> simp [Matrix.mulVec, dotProduct, Fin.sum_univ_two]) (by
      rw [e]
      intro h
      have := congrFun h 1
      simp [Matrix.mulVec, dotProduct, Fin.sum_univ_two] at this) 10 (by decide) (Nat.le_refl _) (by
      have : energy (Matrix.of (fun i j : Fin 2 => crsAt Lobpcg.twoA i j)) ![1, 0] ![0, 0] = 2 := by
        rw [e]
        simp [energy, Matrix.mulVec, dotProduct, Fin.sum_univ_two]
      rw [this]
      have h1 : (7 / 10 : ℝ) ≤ √(1 / 2) := Real.le_sqrt_of_sq_le (by norm_num)
      have h2 : √(1 / 2) ≤ (1 : ℝ) := Real.sqrt_le_one.mpr (by norm_num)
      have h3 : √(3 * 2) ≤ (3 : ℝ) := Real.sqrt_le_iff.mpr ⟨by norm_num, by norm_num⟩
      have h4 : (1 - √(1 / 2)) / (1 + √(1 / 2)) ≤ (1 / 5 : ℝ) := by
        rw [div_le_iff₀ (by positivity)]
        linarith
      have h5 : 0 ≤ (1 - √(1 / 2)) / (1 + √(1 / 2)) := div_nonneg (by linarith) (by positivity)
      have h6 := pow_le_pow_left₀ h5 h4 10
      have h7 : 2 * ((1 - √(1 / 2)) / (1 + √(1 / 2))) ^ 10 * √(3 * 2) ≤ 2 * (1 / 5 : ℝ) ^ 10 * 3 :=
        mul_le_mul (by linarith) h3 (Real.sqrt_nonneg _) (by positivity)
      exact lt_of_le_of_lt h7 (by norm_num))
  exact ⟨j, y, h1, h2, _, h⟩

end Verif.Solver
