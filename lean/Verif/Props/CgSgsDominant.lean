import Verif.Props.CgJacobiRate

/-! C102: CG with the SOR preconditioner (`w = 1`), diagonally dominant matrices. -/

namespace Verif.Solver

open Spec Matrix

variable {n : Nat}

/-- for a symmetric diagonally dominant matrix the matrix of the SOR preconditioner with `w = 1` exceeds `A` by at most
`δ² D` -/
theorem sgs_below {M : Matrix (Fin n) (Fin n) ℝ} (hM : Mᵀ = M) (hd : ∀ i, 0 < M i i) {δ : ℝ} (hδ : 0 ≤ δ)
    (hdom : ∀ i, ∑ j, (if j = i then 0 else |M i j|) ≤ δ * M i i) (v : Fin n → ℝ) :
    v ⬝ᵥ (Lobpcg.sorMat M 1 *ᵥ v) ≤ v ⬝ᵥ (M *ᵥ v) + δ ^ 2 * ∑ i, M i i * v i ^ 2 := by
  rw [sgs_form hM hd v]
  have hrow : ∀ i, ∑ j, |strictUpper M i j| ≤ δ * M i i := by
    intro i
    refine le_trans (Finset.sum_le_sum fun j _ => ?_) (hdom i)
    simp only [strictUpper, Matrix.of_apply]
    by_cases h : j = i
    · subst h; simp
    · rw [if_neg h]
      split_ifs
      · exact le_refl _
      · rw [abs_zero]; exact abs_nonneg _
  have hcol : ∀ j, ∑ i, |strictUpper M i j| ≤ δ * M j j := by
    intro j
    refine le_trans (Finset.sum_le_sum fun i _ => ?_) (hdom j)
    have hs : M i j = M j i := congrFun (congrFun hM j) i
    simp only [strictUpper, Matrix.of_apply]
    by_cases h : i = j
    · subst h; simp
    · rw [if_neg h]
      split_ifs
      · rw [hs]
      · rw [abs_zero]; exact abs_nonneg _
  generalize strictUpper M = U at *
  refine add_le_add (le_refl _) ?_
  calc (U *ᵥ v) ⬝ᵥ (Matrix.diagonal (fun i => 1 / M i i) *ᵥ (U *ᵥ v))
      = ∑ i, (∑ j, U i j * v j) ^ 2 / M i i := by
        unfold dotProduct
        refine Finset.sum_congr rfl fun i _ => ?_
        rw [mulVec_diagonal]
        simp only [Matrix.mulVec, dotProduct]
        ring
    _ ≤ ∑ i, δ * ∑ j, |U i j| * v j ^ 2 := by
        refine Finset.sum_le_sum fun i _ => ?_
        rw [div_le_iff₀ (hd i)]
        have h1 : (∑ j, U i j * v j) ^ 2 ≤ (∑ j, |U i j|) * ∑ j, |U i j| * v j ^ 2 := by
          refine Finset.sum_sq_le_sum_mul_sum_of_sq_eq_mul _ (fun j _ => abs_nonneg _)
            (fun j _ => mul_nonneg (abs_nonneg _) (sq_nonneg _)) (fun j _ => ?_)
          rw [← mul_assoc, ← pow_two, sq_abs, mul_pow]
        have h2 : 0 ≤ ∑ j, |U i j| * v j ^ 2 := Finset.sum_nonneg fun j _ => mul_nonneg (abs_nonneg _) (sq_nonneg _)
        have h3 := mul_le_mul_of_nonneg_right (hrow i) h2
        linarith
    _ = δ * ∑ j, (∑ i, |U i j|) * v j ^ 2 := by
        rw [← Finset.mul_sum, Finset.sum_comm]
        simp only [Finset.sum_mul]
    _ ≤ δ * ∑ j, (δ * M j j) * v j ^ 2 :=
        mul_le_mul_of_nonneg_left (Finset.sum_le_sum fun j _ => mul_le_mul_of_nonneg_right (hcol j) (sq_nonneg _)) hδ
    _ = δ ^ 2 * ∑ i, M i i * v i ^ 2 := by
        rw [Finset.mul_sum, Finset.mul_sum]
        exact Finset.sum_congr rfl fun i _ => by ring

/-- **C102, diagonally dominant matrices, SOR preconditioner with `w = 1`**: as `C102_dominant`, with the better rate of
`m = (1 - δ) / (1 - δ + δ²)`, `m' = 1`. -/
theorem C102_sgs_dominant (cfg : Cfg ℝ) (hlib : cfg.lib = 0) (hm0 : cfg.residMethod = 0) (hmin : cfg.miniter = 0)
    (A : Crs ℝ) (hA : A.Safe) (hd : DistinctPos A.entries) (hr : A.rowN = n) (hc : A.colN = n)
    (order zo : List Nat) (ho : Order order n) (hz : Order zo n) (hsym : ∀ i j : Fin n, crsAt A i j = crsAt A j i)
    {δ κ : ℝ} (hδ0 : 0 ≤ δ) (hδ1 : δ < 1) (hpos : ∀ i : Fin n, 0 < crsAt A i i) (hκ : ∀ i : Fin n, crsAt A i i ≤ κ)
    (hdom : ∀ i : Fin n, ∑ j : Fin n, (if j = i then 0 else |crsAt A i j|) ≤ δ * crsAt A i i)
    (x b xs : Fin n → ℝ) (hs : Matrix.of (fun i j : Fin n => crsAt A i j) *ᵥ xs = b)
    (hx : Matrix.of (fun i j : Fin n => crsAt A i j) *ᵥ x ≠ b) (k : Nat) (hk1 : 1 ≤ k) (hmax : k ≤ cfg.maxiter)
    (hk : 2 * ((1 - √((1 - δ) / (1 - δ + δ ^ 2))) / (1 + √((1 - δ) / (1 - δ + δ ^ 2)))) ^ k *
      √((1 + δ) * κ * energy (Matrix.of (fun i j : Fin n => crsAt A i j)) xs x) < cfg.tol) :
    ∃ j y, 1 ≤ j ∧ j ≤ k ∧
      √((b - Matrix.of (fun i j : Fin n => crsAt A i j) *ᵥ y) ⬝ᵥ (b - Matrix.of (fun i j : Fin n => crsAt A i j) *ᵥ y)) <
        cfg.tol ∧
      CG.solve (fieldNum Real.sqrt) cfg (ofCrs order zo A) (sorPrecond (fieldNum Real.sqrt) 1 (ofCrs order zo A) (crsPrecond (fieldNum Real.sqrt) A))
          (List.ofFn x) (List.ofFn b) =
        .ok { status := SUCCESS
              x := List.ofFn y
              finalIter := j
              finalResid := √((b - Matrix.of (fun i j : Fin n => crsAt A i j) *ᵥ y) ⬝ᵥ
                (b - Matrix.of (fun i j : Fin n => crsAt A i j) *ᵥ y)) } := by
  have hMt : (Matrix.of (fun i j : Fin n => crsAt A i j))ᵀ = Matrix.of (fun i j : Fin n => crsAt A i j) := by
    ext i j; exact hsym j i
  have hb := fun v => abs_le.mp (dominant_between (M := Matrix.of (fun i j : Fin n => crsAt A i j)) hMt hdom v)
  simp only [Matrix.of_apply] at hb
  have hn : Nonempty (Fin n) := by
    by_contra h
    rw [not_nonempty_iff] at h
    exact hx (funext fun i => h.elim i)
  have hκ0 : 0 < κ := (hpos hn.some).trans_le (hκ hn.some)
  have hD : ∀ v : Fin n → ℝ, v ≠ 0 → 0 < ∑ i : Fin n, crsAt A i i * v i ^ 2 := by
    intro v hv
    obtain ⟨i, hi⟩ := Function.ne_iff.mp hv
    refine Finset.sum_pos' (fun j _ => mul_nonneg (hpos j).le (sq_nonneg _)) ⟨i, Finset.mem_univ _, ?_⟩
    exact mul_pos (hpos i) (sq_pos_of_ne_zero hi)
  have hM : SPD (Matrix.of (fun i j : Fin n => crsAt A i j)) := by
    refine ⟨hMt, fun v hv => ?_⟩
    have h1 := (hb v).1
    have h2 := mul_pos (sub_pos.mpr hδ1) (hD v hv)
    linarith
  have hden : 0 < 1 - δ + δ ^ 2 := by nlinarith [sq_nonneg δ]
  obtain ⟨j, y, h1, h2, h3, -, h4⟩ := C102_sgs cfg hlib hm0 hmin A hA hd hr hc order zo ho hz hM
    (m := (1 - δ) / (1 - δ + δ ^ 2)) (lam := (1 + δ) * κ) (div_pos (by linarith) hden)
    (by rw [div_le_one hden]; nlinarith [sq_nonneg δ]) (by
      intro v
      have h1 := sgs_below (M := Matrix.of (fun i j : Fin n => crsAt A i j)) hMt hpos hδ0 hdom v
      have h2 := (hb v).1
      simp only [Matrix.of_apply] at h1
      rw [div_mul_eq_mul_div, div_le_iff₀ hden]
      have h3 := mul_le_mul_of_nonneg_left h1 (show (0 : ℝ) ≤ 1 - δ by linarith)
      have h4 := mul_le_mul_of_nonneg_left h2 (sq_nonneg δ)
      linarith) (square_below hM (by positivity) (by
      intro v
      have h1 := (hb v).2
      have h2 : ∑ i : Fin n, crsAt A i i * v i ^ 2 ≤ κ * (v ⬝ᵥ v) := by
        rw [dotProduct, Finset.mul_sum]
        refine Finset.sum_le_sum fun i _ => ?_
        rw [← pow_two]
        exact mul_le_mul_of_nonneg_right (hκ i) (sq_nonneg _)
      have h3 := mul_le_mul_of_nonneg_left h2 (show (0:ℝ) ≤ 1 + δ by linarith)
      linarith)) x b xs hs hx k hk1 hmax hk
  exact ⟨j, y, h1, h2, h3, h4⟩

/-- The hypotheses of `C102_sgs_dominant` are met: `[2 1; 1 2]`, `δ = 1/2`. -/
example :
    ∃ j y, 1 ≤ j ∧ j ≤ 20 ∧ ∃ r : ℝ, CG.solve (fieldNum Real.sqrt) { tol := 1 / 1000, maxiter := 20, omega := 1, prevResid := 0 }
      (ofCrs [1, 0] [0, 1] Lobpcg.twoA) (sorPrecond (fieldNum Real.sqrt) 1 (ofCrs [1, 0] [0, 1] Lobpcg.twoA) (crsPrecond (fieldNum Real.sqrt) Lobpcg.twoA))
      (List.ofFn (![0, 0] : Fin 2 → ℝ)) (List.ofFn (![2, 1] : Fin 2 → ℝ)) =
        .ok { status := SUCCESS, x := List.ofFn (y : Fin 2 → ℝ), finalIter := j, finalResid := r } := by
  have e := Lobpcg.twoA_at
  have e' : ∀ i j : Fin 2, crsAt Lobpcg.twoA i j = (!![2, 1; 1, 2] : Matrix (Fin 2) (Fin 2) ℝ) i j := fun i j =>
    congrFun (congrFun e i) j
  obtain ⟨j, y, h1, h2, -, h⟩ := C102_sgs_dominant (n := 2) { tol := 1 / 1000, maxiter := 20, omega := 1, prevResid := 0 } rfl rfl rfl
    Lobpcg.twoA Lobpcg.twoA_safe Lobpcg.twoA_distinct rfl rfl [1, 0] [0, 1] (by unfold Order; decide) (by unfold Order; decide)
    Lobpcg.twoA_sym' (δ := 1 / 2) (κ := 2) (by norm_num) (by norm_num) Lobpcg.twoA_diag (by
      intro i
      rw [e']
      fin_cases i <;> simp) (by
      intro i
      simp only [e']
      fin_cases i <;> simp [Fin.sum_univ_two]) ![0, 0] ![2, 1] ![1, 0] (by
      rw [e]
      ext i
      fin_cases i <;> simp [Matrix.mulVec, dotProduct, Fin.sum_univ_two]) (by
      rw [e]
      intro h
      have := congrFun h 1
      simp [Matrix.mulVec, dotProduct, Fin.sum_univ_two] at this) 20 (by decide) (Nat.le_refl _) (by
      have : energy (Matrix.of (fun i j : Fin 2 => crsAt Lobpcg.twoA i j)) ![1, 0] ![0, 0] = 2 := by
        rw [e]
        simp [energy, Matrix.mulVec, dotProduct, Fin.sum_univ_two]
      rw [this]
      have h1 : (4 / 5 : ℝ) ≤ √((1 - 1 / 2) / (1 - 1 / 2 + (1 / 2) ^ 2)) := Real.le_sqrt_of_sq_le (by norm_num)
      have h2 : √((1 - 1 / 2) / (1 - 1 / 2 + (1 / 2) ^ 2)) ≤ (1 : ℝ) := Real.sqrt_le_one.mpr (by norm_num)
      have h3 : √((1 + 1 / 2) * 2 * 2) ≤ (3 : ℝ) := Real.sqrt_le_iff.mpr ⟨by norm_num, by norm_num⟩
      generalize √((1 - 1 / 2 : ℝ) / (1 - 1 / 2 + (1 / 2) ^ 2)) = s at *
      have h4 : (1 - s) / (1 + s) ≤ (1 / 2 : ℝ) := by
        rw [div_le_iff₀ (by linarith)]
        linarith
      have h5 : 0 ≤ (1 - s) / (1 + s) := div_nonneg (by linarith) (by linarith)
      have h6 := pow_le_pow_left₀ h5 h4 20
      have h7 : 2 * ((1 - s) / (1 + s)) ^ 20 * √((1 + 1 / 2) * 2 * 2) ≤ 2 * (1 / 2 : ℝ) ^ 20 * 3 :=
        mul_le_mul (by linarith) h3 (Real.sqrt_nonneg _) (by positivity)
      exact lt_of_le_of_lt h7 (by norm_num))
  exact ⟨j, y, h1, h2, _, h⟩

end Verif.Solver
