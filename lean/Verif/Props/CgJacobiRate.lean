import Verif.Props.CgSorRate

/-! C102: the rate of CG with the Jacobi preconditioner; diagonally dominant matrices. -/

namespace Verif.Solver

open Spec Matrix

variable {n : Nat}

/-- a bound of the matrix bounds its square -/
theorem square_below {A : Matrix (Fin n) (Fin n) ℝ} (hA : SPD A) {lam : ℝ} (hl : 0 < lam)
    (h : ∀ v, v ⬝ᵥ (A *ᵥ v) ≤ lam * (v ⬝ᵥ v)) (v : Fin n → ℝ) : (A *ᵥ v) ⬝ᵥ (A *ᵥ v) ≤ lam * (v ⬝ᵥ (A *ᵥ v)) := by
  have hA0 : ∀ v, 0 ≤ v ⬝ᵥ (A *ᵥ v) := by
    intro v
    by_cases hv : v = 0
    · subst hv; simp
    · exact (hA.2 v hv).le
  obtain ⟨y, hy⟩ : ∃ y, y = A *ᵥ v := ⟨_, rfl⟩
  have h1 := hA0 (y - lam • v)
  have e : (y - lam • v) ⬝ᵥ (A *ᵥ (y - lam • v)) =
      y ⬝ᵥ (A *ᵥ y) - 2 * lam * (y ⬝ᵥ (A *ᵥ v)) + lam ^ 2 * (v ⬝ᵥ (A *ᵥ v)) := by
    rw [Matrix.mulVec_sub, Matrix.mulVec_smul, sub_dotProduct, dotProduct_sub, dotProduct_sub, smul_dotProduct,
      smul_dotProduct, dotProduct_smul, dotProduct_smul, symm_form hA.1 v y]
    simp only [smul_eq_mul]
    ring
  rw [e, ← hy] at h1
  have h2 := h y
  rw [← hy]
  have h3 : lam * (y ⬝ᵥ y) ≤ lam * (lam * (v ⬝ᵥ y)) := by nlinarith
  exact le_of_mul_le_mul_left h3 hl

/-- **C102** with the Jacobi preconditioner, CRS matrices: if `m D ≤ A ≤ m' D` for the diagonal `D` and `A ≤ λ`, `solve` needs
no more iterations than the rate for `m`, `m'` says, for any size and schedule. Exact real arithmetic. -/
theorem C102_jacobi (cfg : Cfg ℝ) (hlib : cfg.lib = 0) (hm0 : cfg.residMethod = 0) (hmin : cfg.miniter = 0)
    (A : Crs ℝ) (hA : A.Safe) (hd : DistinctPos A.entries) (hr : A.rowN = n) (hc : A.colN = n)
    (order zo : List Nat) (ho : Order order n) (hz : Order zo n)
    (hM : SPD (Matrix.of (fun i j : Fin n => crsAt A i j))) {m m' lam : ℝ} (hm : 0 < m) (hmm : m ≤ m')
    (hS : ∀ v : Fin n → ℝ, m * (∑ i : Fin n, crsAt A i i * v i ^ 2) ≤ v ⬝ᵥ (Matrix.of (fun i j : Fin n => crsAt A i j) *ᵥ v) ∧
      v ⬝ᵥ (Matrix.of (fun i j : Fin n => crsAt A i j) *ᵥ v) ≤ m' * (∑ i : Fin n, crsAt A i i * v i ^ 2))
    (hl : 0 < lam) (hL : ∀ v, v ⬝ᵥ (Matrix.of (fun i j : Fin n => crsAt A i j) *ᵥ v) ≤ lam * (v ⬝ᵥ v))
    (x b xs : Fin n → ℝ) (hs : Matrix.of (fun i j : Fin n => crsAt A i j) *ᵥ xs = b)
    (hx : Matrix.of (fun i j : Fin n => crsAt A i j) *ᵥ x ≠ b) (k : Nat) (hk1 : 1 ≤ k) (hmax : k ≤ cfg.maxiter)
    (hk : 2 * ((√m' - √m) / (√m' + √m)) ^ k * √(lam * energy (Matrix.of (fun i j : Fin n => crsAt A i j)) xs x) < cfg.tol) :
    ∃ j y, 1 ≤ j ∧ j ≤ k ∧
      √((b - Matrix.of (fun i j : Fin n => crsAt A i j) *ᵥ y) ⬝ᵥ (b - Matrix.of (fun i j : Fin n => crsAt A i j) *ᵥ y)) <
        cfg.tol ∧
      energy (Matrix.of (fun i j : Fin n => crsAt A i j)) xs y ≤
        (2 * ((√m' - √m) / (√m' + √m)) ^ j) ^ 2 * energy (Matrix.of (fun i j : Fin n => crsAt A i j)) xs x ∧
      CG.solve (fieldNum Real.sqrt) cfg (ofCrs order zo A) (jacobiPrecond (fieldNum Real.sqrt) (ofCrs order zo A))
          (List.ofFn x) (List.ofFn b) =
        .ok { status := SUCCESS
              x := List.ofFn y
              finalIter := j
              finalResid := √((b - Matrix.of (fun i j : Fin n => crsAt A i j) *ᵥ y) ⬝ᵥ
                (b - Matrix.of (fun i j : Fin n => crsAt A i j) *ᵥ y)) } := by
  have hI := isMat_crs A hA hd hr hc order zo ho hz
  have hdiag : ∀ i : Fin n, 0 < Matrix.of (fun i j : Fin n => crsAt A i j) i i := by
    intro i
    have h1 := hM.2 (Pi.single i 1) (by
      intro h
      have := congrFun h i
      simp at this)
    simpa [mulVec_single_one, single_one_dotProduct] using h1
  have hform : ∀ v : Fin n → ℝ, v ⬝ᵥ (Matrix.diagonal (fun i : Fin n => crsAt A i i) *ᵥ v) = ∑ i : Fin n, crsAt A i i * v i ^ 2 := by
    intro v
    unfold dotProduct
    refine Finset.sum_congr rfl fun i _ => ?_
    rw [mulVec_diagonal]
    ring
  refine C102_solve (fieldNum_exact Real.sqrt) cfg cfg.tol rfl hlib hm0 hmin _ _ hI hM _
    (Matrix.diagonal (fun i => 1 / Matrix.of (fun i j : Fin n => crsAt A i j) i i))
    (spd_diagonal _ (fun i => div_pos one_pos (hdiag i)))
    (jacobiPrecond_is (fieldNum_exact Real.sqrt) hI (fun i => ne_of_gt (hdiag i))) hm hmm
    (precond_between (S := Matrix.diagonal (fun i : Fin n => crsAt A i i)) hM (Matrix.diagonal_transpose _) ?_ hm hmm ?_)
    (square_below hM hl hL) x b xs hs hx k hk1 hmax hk
  · rw [Matrix.diagonal_mul_diagonal, ← Matrix.diagonal_one]
    congr 1
    funext i
    exact mul_one_div_cancel (hdiag i).ne'
  · intro v
    rw [hform]
    exact hS v

/-- for a symmetric diagonally dominant matrix, `(1 - δ) D ≤ A ≤ (1 + δ) D` -/
theorem dominant_between {M : Matrix (Fin n) (Fin n) ℝ} (hM : Mᵀ = M) {δ : ℝ}
    (hdom : ∀ i, ∑ j, (if j = i then 0 else |M i j|) ≤ δ * M i i) (v : Fin n → ℝ) :
    |v ⬝ᵥ (M *ᵥ v) - ∑ i, M i i * v i ^ 2| ≤ δ * ∑ i, M i i * v i ^ 2 := by
  have e1 : v ⬝ᵥ (M *ᵥ v) - ∑ i, M i i * v i ^ 2 = ∑ i, ∑ j, (if j = i then 0 else M i j) * (v i * v j) := by
    simp only [dotProduct, Matrix.mulVec]
    rw [← Finset.sum_sub_distrib]
    refine Finset.sum_congr rfl fun i _ => ?_
    rw [Finset.mul_sum]
    have : M i i * v i ^ 2 = ∑ j, (if j = i then M i j * (v i * v j) else 0) := by
      rw [Finset.sum_ite_eq' Finset.univ i]
      rw [if_pos (Finset.mem_univ i), pow_two]
    rw [this, ← Finset.sum_sub_distrib]
    refine Finset.sum_congr rfl fun j _ => ?_
    split_ifs <;> ring
  rw [e1]
  have h2 : ∀ i j, |(if j = i then 0 else M i j) * (v i * v j)| ≤
      (if j = i then 0 else |M i j|) * (v i ^ 2 / 2) + (if j = i then 0 else |M i j|) * (v j ^ 2 / 2) := by
    intro i j
    split_ifs with h
    · simp
    · rw [abs_mul, ← mul_add]
      refine mul_le_mul_of_nonneg_left ?_ (abs_nonneg _)
      rw [abs_le]
      constructor <;> nlinarith [sq_nonneg (v i + v j), sq_nonneg (v i - v j)]
  have h3 : ∑ i, ∑ j, (if j = i then 0 else |M i j|) * (v j ^ 2 / 2) = ∑ i, ∑ j, (if j = i then 0 else |M i j|) * (v i ^ 2 / 2) := by
    rw [Finset.sum_comm]
    refine Finset.sum_congr rfl fun i _ => Finset.sum_congr rfl fun j _ => ?_
    have : M j i = M i j := congrFun (congrFun hM i) j
    rw [this]
    by_cases h : i = j
    · subst h; rfl
    · rw [if_neg h, if_neg (Ne.symm h)]
  calc |∑ i, ∑ j, (if j = i then 0 else M i j) * (v i * v j)|
      ≤ ∑ i, ∑ j, |(if j = i then 0 else M i j) * (v i * v j)| :=
        (Finset.abs_sum_le_sum_abs _ _).trans (Finset.sum_le_sum fun i _ => Finset.abs_sum_le_sum_abs _ _)
    _ ≤ ∑ i, ∑ j, ((if j = i then 0 else |M i j|) * (v i ^ 2 / 2) + (if j = i then 0 else |M i j|) * (v j ^ 2 / 2)) :=
        Finset.sum_le_sum fun i _ => Finset.sum_le_sum fun j _ => h2 i j
    _ = ∑ i, (∑ j, (if j = i then 0 else |M i j|)) * v i ^ 2 := by
        simp only [Finset.sum_add_distrib]
        rw [h3, ← Finset.sum_add_distrib]
        refine Finset.sum_congr rfl fun i _ => ?_
        rw [← Finset.sum_mul]
        ring
    _ ≤ ∑ i, δ * M i i * v i ^ 2 := Finset.sum_le_sum fun i _ => mul_le_mul_of_nonneg_right (hdom i) (sq_nonneg _)
    _ = δ * ∑ i, M i i * v i ^ 2 := by
        rw [Finset.mul_sum]
        exact Finset.sum_congr rfl fun i _ => mul_assoc _ _ _

/-- **C102, diagonally dominant matrices**: a symmetric CRS matrix whose off-diagonal row sums are at most `δ < 1` times the
diagonal, which is positive and at most `κ`: CG with the Jacobi preconditioner returns SUCCESS within a number of iterations
that depends on `δ`, `κ`, the initial error and the tolerance only - not on the size of the matrix. -/
theorem C102_dominant (cfg : Cfg ℝ) (hlib : cfg.lib = 0) (hm0 : cfg.residMethod = 0) (hmin : cfg.miniter = 0)
    (A : Crs ℝ) (hA : A.Safe) (hd : DistinctPos A.entries) (hr : A.rowN = n) (hc : A.colN = n)
    (order zo : List Nat) (ho : Order order n) (hz : Order zo n) (hsym : ∀ i j : Fin n, crsAt A i j = crsAt A j i)
    {δ κ : ℝ} (hδ0 : 0 ≤ δ) (hδ1 : δ < 1) (hpos : ∀ i : Fin n, 0 < crsAt A i i) (hκ : ∀ i : Fin n, crsAt A i i ≤ κ)
    (hdom : ∀ i : Fin n, ∑ j : Fin n, (if j = i then 0 else |crsAt A i j|) ≤ δ * crsAt A i i)
    (x b xs : Fin n → ℝ) (hs : Matrix.of (fun i j : Fin n => crsAt A i j) *ᵥ xs = b)
    (hx : Matrix.of (fun i j : Fin n => crsAt A i j) *ᵥ x ≠ b) (k : Nat) (hk1 : 1 ≤ k) (hmax : k ≤ cfg.maxiter)
    (hk : 2 * ((√(1 + δ) - √(1 - δ)) / (√(1 + δ) + √(1 - δ))) ^ k *
      √((1 + δ) * κ * energy (Matrix.of (fun i j : Fin n => crsAt A i j)) xs x) < cfg.tol) :
    ∃ j y, 1 ≤ j ∧ j ≤ k ∧
      √((b - Matrix.of (fun i j : Fin n => crsAt A i j) *ᵥ y) ⬝ᵥ (b - Matrix.of (fun i j : Fin n => crsAt A i j) *ᵥ y)) <
        cfg.tol ∧
      CG.solve (fieldNum Real.sqrt) cfg (ofCrs order zo A) (jacobiPrecond (fieldNum Real.sqrt) (ofCrs order zo A))
          (List.ofFn x) (List.ofFn b) =
        .ok { status := SUCCESS
              x := List.ofFn y
              finalIter := j
              finalResid := √((b - Matrix.of (fun i j : Fin n => crsAt A i j) *ᵥ y) ⬝ᵥ
                (b - Matrix.of (fun i j : Fin n => crsAt A i j) *ᵥ y)) } := by
  have hMt : (Matrix.of (fun i j : Fin n => crsAt A i j))ᵀ = Matrix.of (fun i j : Fin n => crsAt A i j) := by
    ext i j; exact hsym j i
  have hb := fun v => abs_le.mp (dominant_between (M := Matrix.of (fun i j : Fin n => crsAt A i j)) hMt hdom v)
  simp only [Matrix.of_apply] at hb
  have hn : Nonempty (Fin n) := by
    by_contra h
    rw [not_nonempty_iff] at h
    exact hx (funext fun i => h.elim i)
  have hκ0 : 0 < κ := (hpos hn.some).trans_le (hκ hn.some)
  have hD : ∀ v : Fin n → ℝ, v ≠ 0 → 0 < ∑ i : Fin n, crsAt A i i * v i ^ 2 := by
    intro v hv
    obtain ⟨i, hi⟩ := Function.ne_iff.mp hv
    refine Finset.sum_pos' (fun j _ => mul_nonneg (hpos j).le (sq_nonneg _)) ⟨i, Finset.mem_univ _, ?_⟩
    exact mul_pos (hpos i) (sq_pos_of_ne_zero hi)
  have hM : SPD (Matrix.of (fun i j : Fin n => crsAt A i j)) := by
    refine ⟨hMt, fun v hv => ?_⟩
    have h1 := (hb v).1
    have h2 := mul_pos (sub_pos.mpr hδ1) (hD v hv)
    linarith
  obtain ⟨j, y, h1, h2, h3, -, h4⟩ := C102_jacobi cfg hlib hm0 hmin A hA hd hr hc order zo ho hz hM (m := 1 - δ) (m' := 1 + δ)
    (lam := (1 + δ) * κ) (by linarith) (by linarith) (fun v => ⟨by have := (hb v).1; linarith, by have := (hb v).2; linarith⟩)
    (by positivity) (by
      intro v
      have h1 := (hb v).2
      have h2 : ∑ i : Fin n, crsAt A i i * v i ^ 2 ≤ κ * (v ⬝ᵥ v) := by
        rw [dotProduct, Finset.mul_sum]
        refine Finset.sum_le_sum fun i _ => ?_
        rw [← pow_two]
        exact mul_le_mul_of_nonneg_right (hκ i) (sq_nonneg _)
      have h3 := mul_le_mul_of_nonneg_left h2 (show (0:ℝ) ≤ 1 + δ by linarith)
      linarith) x b xs hs hx k hk1 hmax hk
  exact ⟨j, y, h1, h2, h3, h4⟩

/-- The hypotheses of `C102_dominant` (hence of `C102_jacobi`) are met: `[2 1; 1 2]`, `δ = 1/2`. -/
example :
    ∃ j y, 1 ≤ j ∧ j ≤ 20 ∧ ∃ r : ℝ, CG.solve (fieldNum Real.sqrt) { tol := 1 / 1000, maxiter := 20, omega := 1, prevResid := 0 }
      (ofCrs [1, 0] [0, 1] Lobpcg.twoA) (jacobiPrecond (fieldNum Real.sqrt) (ofCrs [1, 0] [0, 1] Lobpcg.twoA))
      (List.ofFn (![0, 0] : Fin 2 → ℝ)) (List.ofFn (![2, 1] : Fin 2 → ℝ)) =
        .ok { status := SUCCESS, x := List.ofFn (y : Fin 2 → ℝ), finalIter := j, finalResid := r } := by
  have e := Lobpcg.twoA_at
  have e' : ∀ i j : Fin 2, crsAt Lobpcg.twoA i j = (!![2, 1; 1, 2] : Matrix (Fin 2) (Fin 2) ℝ) i j := fun i j =>
    congrFun (congrFun e i) j
  obtain ⟨j, y, h1, h2, -, h⟩ := C102_dominant (n := 2) { tol := 1 / 1000, maxiter := 20, omega := 1, prevResid := 0 } rfl rfl rfl
    Lobpcg.twoA Lobpcg.twoA_safe Lobpcg.twoA_distinct rfl rfl [1, 0] [0, 1] (by unfold Order; decide) (by unfold Order; decide)
    Lobpcg.twoA_sym' (δ := 1 / 2) (κ := 2) (by norm_num) (by norm_num) Lobpcg.twoA_diag (by
      intro i
      rw [e']
      fin_cases i <;> simp) (by
      intro i
      simp only [e']
      fin_cases i <;> simp [Fin.sum_univ_two]) ![0, 0] ![2, 1] ![1, 0] (by
      rw [e]
      ext i
      fin_cases i <;> simp [Matrix.mulVec, dotProduct, Fin.sum_univ_two]) (by
      rw [e]
      intro h
      have := congrFun h 1
      simp [Matrix.mulVec, dotProduct, Fin.sum_univ_two] at this) 20 (by decide) (Nat.le_refl _) (by
      have : energy (Matrix.of (fun i j : Fin 2 => crsAt Lobpcg.twoA i j)) ![1, 0] ![0, 0] = 2 := by
        rw [e]
        simp [energy, Matrix.mulVec, dotProduct, Fin.sum_univ_two]
      rw [this]
      have h1 : (7 / 10 : ℝ) ≤ √(1 - 1 / 2) := Real.le_sqrt_of_sq_le (by norm_num)
      have h2 : √(1 + 1 / 2) ≤ (13 / 10 : ℝ) := Real.sqrt_le_iff.mpr ⟨by norm_num, by norm_num⟩
      have h2' : √(1 - 1 / 2) ≤ √(1 + 1 / 2 : ℝ) := Real.sqrt_le_sqrt (by norm_num)
      have h3 : √((1 + 1 / 2) * 2 * 2) ≤ (3 : ℝ) := Real.sqrt_le_iff.mpr ⟨by norm_num, by norm_num⟩
      have h4 : (√(1 + 1 / 2) - √(1 - 1 / 2)) / (√(1 + 1 / 2) + √(1 - 1 / 2)) ≤ (1 / 2 : ℝ) := by
        rw [div_le_iff₀ (by positivity)]
        linarith
      have h5 : 0 ≤ (√(1 + 1 / 2) - √(1 - 1 / 2 : ℝ)) / (√(1 + 1 / 2) + √(1 - 1 / 2)) :=
        div_nonneg (by linarith) (by positivity)
      have h6 := pow_le_pow_left₀ h5 h4 20
      have h7 : 2 * ((√(1 + 1 / 2) - √(1 - 1 / 2)) / (√(1 + 1 / 2) + √(1 - 1 / 2))) ^ 20 * √((1 + 1 / 2) * 2 * 2) ≤
          2 * (1 / 2 : ℝ) ^ 20 * 3 :=
        mul_le_mul (by linarith) h3 (Real.sqrt_nonneg _) (by positivity)
      exact lt_of_le_of_lt h7 (by norm_num))
  exact ⟨j, y, h1, h2, _, h⟩

end Verif.Solver
