import Verif.Props.JacobiRate
import Verif.Props.SorConv

/-! C57: how many iterations the SOR solver needs for diagonally dominant matrices. -/

namespace Verif.Solver

open Spec Matrix

variable {n : Nat} {α : Type}

/-- **C57, rate**: for a matrix whose off-diagonal row sums are at most `q < 1` times the diagonal, whose row sums are at most
`c`, `0 < w ≤ 1`, and an initial error of at most `e` in every component: as soon as `√n c (1 - w + w q)^k e < tol ‖b‖` the
SOR solver returns SUCCESS after at most `k + 1` iterations, and every component of the result is within `(1 - w + w q)^j e`
of the solution, `j` the number of iterations. Exact real arithmetic. -/
theorem C57_rate {N : Num α} {ι : ℝ → α} (h : Exact N ι Real.sqrt) (cfg : Cfg α) (tol : ℝ) (ht : cfg.tol = ι tol)
    (hlib : cfg.lib = 0) (hm : cfg.residMethod = 0) (hmin : cfg.miniter = 0) {w : ℝ} (hom : cfg.omega = ι w) (hw0 : 0 < w)
    (hw1 : w ≤ 1) (A : Mat α) (M : Matrix (Fin n) (Fin n) ℝ)
    (hA : IsMat A ι M) {q : ℝ} (hq : q ≤ 1) (hdom : Dominant M q) (lower : List α → List α → List α → Res (List α))
    (hlow : IsLower lower ι M) (create : Res (List α → Res (List α))) (hpc : IsPrecond (n := n) create ι id)
    (x b s : Fin n → ℝ) (hs : M *ᵥ s = b) (hb : b ≠ 0)
    {c e : ℝ} (hc : ∀ i, ∑ j, |M i j| ≤ c) (he : ∀ j, |x j - s j| ≤ e) (k : Nat) (hmax : k + 1 ≤ cfg.maxiter)
    (hk : √n * (c * ((1 - w + w * q) ^ k * e)) < tol * √(b ⬝ᵥ b)) :
    ∃ (j : Nat) (y : Fin n → ℝ) (out : Out α), 1 ≤ j ∧ j ≤ k + 1 ∧ (∀ i, |y i - s i| ≤ (1 - w + w * q) ^ j * e) ∧
      SOR.solve N cfg A lower create (vec ι x) (vec ι b) = .ok out ∧ out.status = SUCCESS ∧ out.x = vec ι y ∧
      out.finalIter = j := by
  have hd : ∀ i, M i i ≠ 0 := fun i => abs_pos.1 (hdom i).1
  have hbpos : 0 < √(b ⬝ᵥ b) := Real.sqrt_pos.mpr (Lobpcg.dot_pos hb)
  have hn : Nonempty (Fin n) := by
    by_contra h0
    rw [not_nonempty_iff] at h0
    exact hb (funext fun i => h0.elim i)
  have i0 := hn.some
  have he0 : 0 ≤ e := le_trans (abs_nonneg _) (he i0)
  have hc0 : 0 ≤ c := le_trans (Finset.sum_nonneg (fun j _ => abs_nonneg _)) (hc i0)
  have hq0 : 0 ≤ q := by
    by_contra hneg
    have h1 := (hdom i0).2
    have h2 : (0 : ℝ) ≤ ∑ j ∈ Finset.univ.erase i0, |M i0 j| := Finset.sum_nonneg (fun j _ => abs_nonneg _)
    have h3 := mul_neg_of_neg_of_pos (not_le.1 hneg) (hdom i0).1
    linarith
  have hρ : 0 ≤ 1 - w + w * q := by
    have := mul_nonneg hw0.le hq0
    linarith
  obtain ⟨xs, hxs, -⟩ := C32_iterates M hd w hw0.ne' id b x
  have herr := fun k => sor_error hdom hq hw0 hw1 hs hxs he k
  have hE : 0 ≤ c * ((1 - w + w * q) ^ k * e) := by positivity
  have hr : ∀ i, |(b - M *ᵥ xs k) i| ≤ c * ((1 - w + w * q) ^ k * e) := by
    intro i
    refine le_trans (residual_le hs _ (herr k) i) ?_
    exact mul_le_mul_of_nonneg_right (hc i) (mul_nonneg (pow_nonneg hρ _) he0)
  have hrel : norm2 Real.sqrt (b - M *ᵥ xs k) * (1 / norm2 Real.sqrt b) < tol := by
    show √((b - M *ᵥ xs k) ⬝ᵥ (b - M *ᵥ xs k)) * (1 / √(b ⬝ᵥ b)) < tol
    rw [mul_one_div, div_lt_iff₀ hbpos]
    refine lt_of_le_of_lt ?_ hk
    rw [← Real.sqrt_sq hE, ← Real.sqrt_mul (Nat.cast_nonneg n)]
    apply Real.sqrt_le_sqrt
    have h1 : (b - M *ᵥ xs k) ⬝ᵥ (b - M *ᵥ xs k) ≤
        ∑ _i : Fin n, (c * ((1 - w + w * q) ^ k * e)) * (c * ((1 - w + w * q) ^ k * e)) := by
      apply Finset.sum_le_sum
      intro i _
      rw [← abs_mul_abs_self]
      exact mul_self_le_mul_self (abs_nonneg _) (hr i)
    rw [Finset.sum_const, Finset.card_univ, Fintype.card_fin, nsmul_eq_mul] at h1
    rwa [pow_two]
  obtain ⟨j, status, hj, heq, hfirst, hcase⟩ :=
    C32_exact_partial h cfg tol w ht hlib hm hom hw0.ne' A M hA hd lower hlow create id hpc x b hbpos.ne' xs hxs
  have hjk : j ≤ k + 1 := by
    by_contra hcon
    exact hfirst (k + 1) (by omega) (by omega) ⟨hrel, by omega⟩
  rcases hcase with ⟨hst, h1, _⟩ | ⟨_, hkm, hno⟩
  · subst hst
    exact ⟨j, xs j, _, h1, hjk, herr j, heq, rfl, rfl, rfl⟩
  · have : j = k + 1 := by omega
    subst this
    exact absurd ⟨hrel, by omega⟩ (hno (by omega))

/-- The hypotheses of `C57_rate` are met: `[2 1; 1 2]`, `w = 1`, `q = 1/2`, `c = 3`, `e = 1`. -/
example : ∃ (j : Nat) (y : Fin 2 → ℝ) (out : Out ℝ), 1 ≤ j ∧ j ≤ 21 ∧
    (∀ i, |y i - (![1, 0] : Fin 2 → ℝ) i| ≤ (1 - 1 + 1 * (1 / 2)) ^ j * 1) ∧
    SOR.solve (fieldNum Real.sqrt) { tol := 1 / 1000, maxiter := 21, omega := 1, prevResid := 0 }
      (ofCrs [1, 0] [0, 1] Lobpcg.twoA) (crsLower (fieldNum Real.sqrt) (crsMap id Lobpcg.twoA)) noPrecond
      (Spec.vec id (![0, 0] : Fin 2 → ℝ)) (Spec.vec id (![2, 1] : Fin 2 → ℝ)) = .ok out ∧ out.status = SUCCESS ∧
    out.x = Spec.vec id y ∧ out.finalIter = j := by
  have e := Lobpcg.twoA_at
  have hI := isMat_crs (n := 2) Lobpcg.twoA Lobpcg.twoA_safe Lobpcg.twoA_distinct rfl rfl [1, 0] [0, 1]
    (by unfold Order; decide) (by unfold Order; decide)
  have hlow := C32_lower_crs (n := 2) (fieldNum_exact Real.sqrt) Lobpcg.twoA Lobpcg.twoA_safe rfl rfl (by
    intro i hi
    obtain rfl | rfl : i = 0 ∨ i = 1 := by omega
    all_goals
      simp [Crs.rowEntries, Lobpcg.twoA, Crs.ptr])
  rw [e] at hI hlow
  refine C57_rate (fieldNum_exact Real.sqrt) { tol := 1 / 1000, maxiter := 21, omega := 1, prevResid := 0 } (1 / 1000) rfl rfl
    rfl rfl (w := 1) rfl one_pos (le_refl _) _ _ hI (c := 3) (by norm_num) ?_ _ hlow _ ⟨_, rfl, fun v => rfl⟩ _ _ _ ?_ ?_
    ?_ ?_ 20 (by decide) ?_
  · intro i
    fin_cases i <;> simp [Finset.sum_erase_eq_sub, Fin.sum_univ_two]
  · ext i
    fin_cases i <;> simp [Matrix.mulVec, dotProduct, Fin.sum_univ_two]
  · intro h
    have := congrFun h 1
    simp at this
  · intro i
    fin_cases i <;> norm_num [Fin.sum_univ_two]
  · intro j
    fin_cases j <;> simp
  · have h1 : √((2 : Nat) : ℝ) ≤ 2 := Real.sqrt_le_iff.mpr ⟨by norm_num, by norm_num⟩
    have h2 : (1 : ℝ) ≤ √((![2, 1] : Fin 2 → ℝ) ⬝ᵥ ![2, 1]) := by
      apply Real.le_sqrt_of_sq_le
      simp [dotProduct, Fin.sum_univ_two]
    have h3 : √((2 : Nat) : ℝ) * (3 * ((1 - 1 + 1 * (1 / 2)) ^ 20 * 1)) ≤ 2 * (3 * ((1 - 1 + 1 * (1 / 2)) ^ 20 * 1)) :=
      mul_le_mul_of_nonneg_right h1 (by positivity)
    have h4 : (2 : ℝ) * (3 * ((1 - 1 + 1 * (1 / 2)) ^ 20 * 1)) < 1 / 1000 := by norm_num
    linarith

end Verif.Solver
