import Mathlib.Analysis.Matrix.Spectrum
import Mathlib.Tactic.Linarith
import Mathlib.Tactic.Positivity

/-!
Residuals and eigenvalues of symmetric matrices: if `‖M v - λ v‖ ≤ t ‖v‖`, an eigenvalue is within `t` of `λ`.
-/

namespace Verif

open Matrix

theorem eig_near {n : Nat} {M : Matrix (Fin n) (Fin n) ℝ} (hM : M.IsHermitian) {lam t : ℝ} (ht : 0 ≤ t)
    {v : Fin n → ℝ} (hv : v ⬝ᵥ v ≠ 0)
    (h : (M *ᵥ v - lam • v) ⬝ᵥ (M *ᵥ v - lam • v) ≤ t ^ 2 * (v ⬝ᵥ v)) :
    ∃ (mu : ℝ) (w : Fin n → ℝ), w ≠ 0 ∧ M *ᵥ w = mu • w ∧ |lam - mu| ≤ t := by
  by_contra hc
  push Not at hc
  let B := hM.eigenvectorBasis
  let e := hM.eigenvalues
  have he : ∀ i, t ^ 2 < (e i - lam) ^ 2 := by
    intro i
    have h1 := hc (e i) (B i).ofLp (by
      intro h0
      have : B i = 0 := by
        ext j
        exact congrFun h0 j
      have h1 := B.orthonormal.1 i
      rw [this, norm_zero] at h1
      norm_num at h1) (hM.mulVec_eigenvectorBasis i)
    rw [abs_sub_comm] at h1
    rw [← sq_abs (e i - lam)]
    exact pow_lt_pow_left₀ h1 ht (by norm_num)
  have rep : ∀ u : Fin n → ℝ, u ⬝ᵥ u = ∑ i, (B i).ofLp ⬝ᵥ u * ((B i).ofLp ⬝ᵥ u) := by
    intro u
    have h1 : ‖WithLp.toLp 2 u‖ ^ 2 = ∑ i, (B.repr (WithLp.toLp 2 u) i) ^ 2 := by
      rw [← B.repr.norm_map, EuclideanSpace.norm_sq_eq]
      simp
    have h2 : ‖WithLp.toLp 2 u‖ ^ 2 = u ⬝ᵥ u := by
      rw [EuclideanSpace.norm_sq_eq]
      simp [dotProduct, sq]
    rw [← h2, h1]
    refine Finset.sum_congr rfl (fun i _ => ?_)
    rw [B.repr_apply_apply, sq, EuclideanSpace.inner_eq_star_dotProduct]
    simp [dotProduct_comm]
  have co : ∀ i, (B i).ofLp ⬝ᵥ (M *ᵥ v - lam • v) = (e i - lam) * ((B i).ofLp ⬝ᵥ v) := by
    intro i
    have hsym : (B i).ofLp ⬝ᵥ (M *ᵥ v) = (M *ᵥ (B i).ofLp) ⬝ᵥ v := by
      rw [dotProduct_mulVec, ← mulVec_transpose]
      have : Mᵀ = M := by
        have := hM.eq
        simpa [conjTranspose_eq_transpose_of_trivial] using this
      rw [this]
    rw [dotProduct_sub, hsym, show M *ᵥ (B i).ofLp = e i • (B i).ofLp from hM.mulVec_eigenvectorBasis i, smul_dotProduct,
      dotProduct_smul, smul_eq_mul, smul_eq_mul]
    ring
  rw [rep (M *ᵥ v - lam • v), rep v, Finset.mul_sum] at h
  have hpos : ∃ i, (B i).ofLp ⬝ᵥ v ≠ 0 := by
    by_contra hz
    push Not at hz
    apply hv
    rw [rep v]
    simp [hz]
  obtain ⟨i0, hi0⟩ := hpos
  have : ∑ i, t ^ 2 * ((B i).ofLp ⬝ᵥ v * ((B i).ofLp ⬝ᵥ v)) <
      ∑ i, (B i).ofLp ⬝ᵥ (M *ᵥ v - lam • v) * ((B i).ofLp ⬝ᵥ (M *ᵥ v - lam • v)) := by
    refine Finset.sum_lt_sum (fun i _ => ?_) ⟨i0, Finset.mem_univ _, ?_⟩
    · rw [co i]
      have := he i
      have p : 0 ≤ (B i).ofLp ⬝ᵥ v * ((B i).ofLp ⬝ᵥ v) := mul_self_nonneg _
      nlinarith
    · rw [co i0]
      have := he i0
      have p : 0 < (B i0).ofLp ⬝ᵥ v * ((B i0).ofLp ⬝ᵥ v) := mul_self_pos.mpr hi0
      nlinarith
  linarith

end Verif
