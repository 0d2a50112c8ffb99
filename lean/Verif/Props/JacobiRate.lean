import Verif.Props.Jacobi
import Verif.Props.CgJacobiRate

/-! C54: how many iterations the Jacobi solver needs, and how far its result is from the solution. -/

namespace Verif.Solver

open Spec Matrix

variable {n : Nat} {α : Type}

/-- **C54, rate**: for a matrix whose off-diagonal row sums are at most `q < 1` times the diagonal, whose row sums are at most
`c`, and an initial error of at most `e` in every component: as soon as `√n c q^k e < tol ‖b‖` the solver returns SUCCESS
after at most `k + 1` iterations, and every component of the result is within `q^j e` of the solution, `j` the number of
iterations. Exact real arithmetic. -/
theorem C54_rate {N : Num α} {ι : ℝ → α} (h : Exact N ι Real.sqrt) (cfg : Cfg α) (tol : ℝ) (ht : cfg.tol = ι tol)
    (hlib : cfg.lib = 0) (hm : cfg.residMethod = 0) (hmin : cfg.miniter = 0) (A : Mat α) (M : Matrix (Fin n) (Fin n) ℝ)
    (hA : IsMat A ι M) {q : ℝ} (hdom : Dominant M q) (pc : List α → Res (List α))
    (hpc : ∀ v : Fin n → ℝ, ∃ z, pc (vec ι v) = .ok z) (x b s : Fin n → ℝ) (hs : M *ᵥ s = b) (hb : b ≠ 0)
    {c e : ℝ} (hc : ∀ i, ∑ j, |M i j| ≤ c) (he : ∀ j, |x j - s j| ≤ e) (k : Nat) (hmax : k + 1 ≤ cfg.maxiter)
    (hk : √n * (c * (q ^ k * e)) < tol * √(b ⬝ᵥ b)) :
    ∃ j y r, 1 ≤ j ∧ j ≤ k + 1 ∧ (∀ i, |y i - s i| ≤ q ^ j * e) ∧
      Jacobi.solve N cfg A (.ok pc) (vec ι x) (vec ι b) =
        .ok { status := SUCCESS, x := vec ι y, finalIter := j, finalResid := r } := by
  have hd : ∀ i, M i i ≠ 0 := fun i => abs_pos.1 (hdom i).1
  have hbpos : 0 < √(b ⬝ᵥ b) := Real.sqrt_pos.mpr (Lobpcg.dot_pos hb)
  have hn : Nonempty (Fin n) := by
    by_contra h0
    rw [not_nonempty_iff] at h0
    exact hb (funext fun i => h0.elim i)
  have i0 := hn.some
  have he0 : 0 ≤ e := le_trans (abs_nonneg _) (he i0)
  have hc0 : 0 ≤ c := le_trans (Finset.sum_nonneg (fun j _ => abs_nonneg _)) (hc i0)
  have hq0 : 0 ≤ q := by
    by_contra hneg
    have h1 := (hdom i0).2
    have h2 : (0 : ℝ) ≤ ∑ j ∈ Finset.univ.erase i0, |M i0 j| := Finset.sum_nonneg (fun j _ => abs_nonneg _)
    have h3 := mul_neg_of_neg_of_pos (not_le.1 hneg) (hdom i0).1
    linarith
  have hE : 0 ≤ c * (q ^ k * e) := by positivity
  have hr : ∀ i, |(b - M *ᵥ jacobiAt M b x k) i| ≤ c * (q ^ k * e) := by
    intro i
    refine le_trans (residual_le hs _ (jacobi_error hdom hs x he k) i) ?_
    exact mul_le_mul_of_nonneg_right (hc i) (mul_nonneg (pow_nonneg hq0 _) he0)
  have hrel : jacobiRel Real.sqrt M b x (k + 1) < tol := by
    show √((b - M *ᵥ jacobiAt M b x k) ⬝ᵥ (b - M *ᵥ jacobiAt M b x k)) * (1 / √(b ⬝ᵥ b)) < tol
    rw [mul_one_div, div_lt_iff₀ hbpos]
    refine lt_of_le_of_lt ?_ hk
    rw [← Real.sqrt_sq hE, ← Real.sqrt_mul (Nat.cast_nonneg n)]
    apply Real.sqrt_le_sqrt
    have h1 : (b - M *ᵥ jacobiAt M b x k) ⬝ᵥ (b - M *ᵥ jacobiAt M b x k) ≤
        ∑ _i : Fin n, (c * (q ^ k * e)) * (c * (q ^ k * e)) := by
      apply Finset.sum_le_sum
      intro i _
      rw [← abs_mul_abs_self]
      exact mul_self_le_mul_self (abs_nonneg _) (hr i)
    rw [Finset.sum_const, Finset.card_univ, Fintype.card_fin, nsmul_eq_mul] at h1
    rwa [pow_two]
  obtain ⟨j, status, hj, heq, hfirst, hcase⟩ :=
    C31_exact_partial h cfg tol ht hlib hm A M hA hd pc hpc x b hbpos.ne'
  have hjk : j ≤ k + 1 := by
    by_contra hcon
    exact hfirst (k + 1) (by omega) (by omega) ⟨hrel, by omega⟩
  rcases hcase with ⟨hst, h1, _⟩ | ⟨_, hkm, hno⟩
  · subst hst
    exact ⟨j, _, _, h1, hjk, jacobi_error hdom hs x he j, heq⟩
  · have : j = k + 1 := by omega
    subst this
    exact absurd ⟨hrel, by omega⟩ (hno (by omega))

/-- The hypotheses of `C54_rate` are met: `[2 1; 1 2]`, `q = 1/2`, `c = 3`, `e = 1`. -/
example : ∃ j y r, 1 ≤ j ∧ j ≤ 21 ∧ (∀ i, |y i - (![1, 0] : Fin 2 → ℝ) i| ≤ (1 / 2) ^ j * 1) ∧
    Jacobi.solve (fieldNum Real.sqrt) { tol := 1 / 1000, maxiter := 21, omega := 1, prevResid := 0 }
      (ofCrs [1, 0] [0, 1] Lobpcg.twoA) noPrecond (Spec.vec id (![0, 0] : Fin 2 → ℝ)) (Spec.vec id (![2, 1] : Fin 2 → ℝ)) =
        .ok { status := SUCCESS, x := Spec.vec id y, finalIter := j, finalResid := r } := by
  have e := Lobpcg.twoA_at
  have hI := isMat_crs (n := 2) Lobpcg.twoA Lobpcg.twoA_safe Lobpcg.twoA_distinct rfl rfl [1, 0] [0, 1]
    (by unfold Order; decide) (by unfold Order; decide)
  rw [e] at hI
  refine C54_rate (fieldNum_exact Real.sqrt) { tol := 1 / 1000, maxiter := 21, omega := 1, prevResid := 0 } (1 / 1000) rfl rfl rfl rfl _ _ hI (c := 3) ?_ _ (fun v => ⟨_, rfl⟩) _ _ _ ?_ ?_
    ?_ ?_ 20 (by decide) ?_
  · intro i
    fin_cases i <;> simp [Finset.sum_erase_eq_sub, Fin.sum_univ_two]
  · ext i
    fin_cases i <;> simp [Matrix.mulVec, dotProduct, Fin.sum_univ_two]
  · intro h
    have := congrFun h 1
    simp at this
  · intro i
    fin_cases i <;> norm_num [Fin.sum_univ_two]
  · intro j
    fin_cases j <;> simp
  · have h1 : √((2 : Nat) : ℝ) ≤ 2 := Real.sqrt_le_iff.mpr ⟨by norm_num, by norm_num⟩
    have h2 : (1 : ℝ) ≤ √((![2, 1] : Fin 2 → ℝ) ⬝ᵥ ![2, 1]) := by
      apply Real.le_sqrt_of_sq_le
      simp [dotProduct, Fin.sum_univ_two]
    have h3 : √((2 : Nat) : ℝ) * (3 * ((1 / 2) ^ 20 * 1)) ≤ 2 * (3 * ((1 / 2) ^ 20 * 1)) :=
      mul_le_mul_of_nonneg_right h1 (by positivity)
    have h4 : (2 : ℝ) * (3 * ((1 / 2) ^ 20 * 1)) < 1 / 1000 := by norm_num
    linarith

end Verif.Solver
