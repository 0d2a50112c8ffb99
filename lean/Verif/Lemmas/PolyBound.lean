import Mathlib.Analysis.InnerProductSpace.Spectrum
import Mathlib.Analysis.SpecialFunctions.Trigonometric.Chebyshev.RootsExtrema
import Mathlib.Data.Real.Sqrt

/-!
Polynomials of a symmetric operator, and Chebyshev polynomials (C102).
-/

namespace Verif.PolyBound

open Polynomial

section

variable {E : Type} [NormedAddCommGroup E] [InnerProductSpace ℝ E] [FiniteDimensional ℝ E]

theorem repr_pow {T : E →ₗ[ℝ] E} (hT : T.IsSymmetric) (k : Nat) (v : E) (i : Fin (Module.finrank ℝ E)) :
    (hT.eigenvectorBasis rfl).repr ((T ^ k) v) i = hT.eigenvalues rfl i ^ k * (hT.eigenvectorBasis rfl).repr v i := by
  induction k with
  | zero => simp
  | succ k ih =>
    rw [pow_succ', Module.End.mul_apply, hT.eigenvectorBasis_apply_self_apply, ih, pow_succ']
    simp [mul_assoc]

theorem repr_aeval {T : E →ₗ[ℝ] E} (hT : T.IsSymmetric) (q : ℝ[X]) (v : E) (i : Fin (Module.finrank ℝ E)) :
    (hT.eigenvectorBasis rfl).repr (aeval T q v) i =
      q.eval (hT.eigenvalues rfl i) * (hT.eigenvectorBasis rfl).repr v i := by
  induction q using Polynomial.induction_on' with
  | add p q hp hq =>
    simp only [map_add, LinearMap.add_apply, PiLp.add_apply, eval_add, add_mul]
    rw [hp, hq]
  | monomial k a =>
    rw [aeval_monomial, Module.End.mul_apply, Module.algebraMap_end_apply, map_smul, PiLp.smul_apply, repr_pow hT,
      eval_monomial, smul_eq_mul, mul_assoc]

theorem norm_sq_repr {ι : Type} [Fintype ι] (B : OrthonormalBasis ι ℝ E) (v : E) :
    ‖v‖ ^ 2 = ∑ i, (B.repr v i) ^ 2 := by
  rw [← B.repr.norm_map v, EuclideanSpace.norm_sq_eq]
  simp

/-- A polynomial that is bounded on an interval containing the spectrum bounds the operator. -/
theorem aeval_le {T : E →ₗ[ℝ] E} (hT : T.IsSymmetric) {m M : ℝ}
    (h : ∀ v, m * inner ℝ v v ≤ inner ℝ (T v) v ∧ inner ℝ (T v) v ≤ M * inner ℝ v v)
    (q : ℝ[X]) {C : ℝ} (hq : ∀ t, m ≤ t → t ≤ M → |q.eval t| ≤ C) (v : E) :
    (inner ℝ (aeval T q v) (aeval T q v) : ℝ) ≤ C ^ 2 * inner ℝ v v := by
  rw [real_inner_self_eq_norm_sq, real_inner_self_eq_norm_sq]
  rw [norm_sq_repr (hT.eigenvectorBasis rfl) (aeval T q v), norm_sq_repr (hT.eigenvectorBasis rfl) v, Finset.mul_sum]
  refine Finset.sum_le_sum (fun i _ => ?_)
  rw [repr_aeval hT, mul_pow]
  refine mul_le_mul_of_nonneg_right ?_ (sq_nonneg _)
  have h1 := h (hT.eigenvectorBasis rfl i)
  have h2 : inner ℝ (hT.eigenvectorBasis rfl i) (hT.eigenvectorBasis rfl i) = (1 : ℝ) := by
    rw [real_inner_self_eq_norm_sq, (hT.eigenvectorBasis rfl).orthonormal.1 i, one_pow]
  rw [hT.apply_eigenvectorBasis, real_inner_smul_left, h2, mul_one, mul_one, mul_one] at h1
  have h3 := hq _ h1.1 h1.2
  rw [← sq_abs]
  exact pow_le_pow_left₀ (abs_nonneg _) h3 2

end

/-- `T_k((t + 1/t) / 2) = (t^k + t^-k) / 2` -/
theorem cheb_value (t : ℝ) (ht : t ≠ 0) (k : Nat) :
    (Chebyshev.T ℝ k).eval ((t + t⁻¹) / 2) = (t ^ k + (t⁻¹) ^ k) / 2 := by
  induction k using Nat.twoStepInduction with
  | zero => simp
  | one => simp
  | more k h1 h2 =>
    have e : ((k + 2 : Nat) : ℤ) = (k : ℤ) + 2 := by push_cast; rfl
    rw [e, Chebyshev.T_add_two]
    have e1 : ((k + 1 : Nat) : ℤ) = (k : ℤ) + 1 := by push_cast; rfl
    rw [e1] at h2
    rw [eval_sub, eval_mul, eval_mul, eval_ofNat, eval_X, h1, h2]
    have h3 : t * t⁻¹ = 1 := mul_inv_cancel₀ ht
    have h4 : t⁻¹ * t = 1 := inv_mul_cancel₀ ht
    generalize t⁻¹ = s at *
    rw [pow_add, pow_add, pow_add, pow_add]
    linear_combination (t ^ k + s ^ k) / 2 * h3

/-- A polynomial of degree `k` with value 1 at 0 that is small on `[m, M]`. -/
theorem exists_small {m M : ℝ} (hm : 0 < m) (hM : m < M) (k : Nat) :
    ∃ q : ℝ[X], q.natDegree ≤ k ∧ q.eval 0 = 1 ∧
      ∀ t, m ≤ t → t ≤ M → |q.eval t| ≤ 2 * ((√M - √m) / (√M + √m)) ^ k := by
  have hd : 0 < M - m := by linarith
  have hg : 0 < √m := Real.sqrt_pos.2 hm
  have hgh : √m < √M := Real.sqrt_lt_sqrt (le_of_lt hm) hM
  have eg : √m * √m = m := Real.mul_self_sqrt (le_of_lt hm)
  have eh : √M * √M = M := Real.mul_self_sqrt (by linarith)
  set g := √m
  set h := √M
  have h1 : 0 < h - g := by linarith
  have h2 : 0 < h + g := by linarith
  set t := (h + g) / (h - g) with ht
  have ht0 : 0 < t := div_pos h2 h1
  have hti : t⁻¹ = (h - g) / (h + g) := by rw [ht, inv_div]
  have hsig : (t + t⁻¹) / 2 = (M + m) / (M - m) := by
    have e1 : M - m = (h - g) * (h + g) := by linear_combination eg - eh
    have e2 : M + m = h * h + g * g := by linear_combination - eg - eh
    have h1' : h - g ≠ 0 := ne_of_gt h1
    have h2' : h + g ≠ 0 := ne_of_gt h2
    rw [hti, ht, e1, e2, div_add_div _ _ h1' h2', div_div, div_eq_div_iff
      (mul_ne_zero (mul_ne_zero h1' h2') two_ne_zero) (mul_ne_zero h1' h2')]
    ring
  have hval : (Chebyshev.T ℝ k).eval ((M + m) / (M - m)) = (t ^ k + (t⁻¹) ^ k) / 2 := by
    rw [← hsig]; exact cheb_value t (ne_of_gt ht0) k
  set V := (t ^ k + (t⁻¹) ^ k) / 2 with hV
  have hVpos : 0 < V := by
    have := pow_pos ht0 k
    have := pow_pos (inv_pos.2 ht0) k
    rw [hV]; linarith
  -- the polynomial
  set L : ℝ[X] := C ((M + m) / (M - m)) - C (2 / (M - m)) * X with hL
  have hLdeg : L.natDegree ≤ 1 := by
    rw [hL]
    refine (natDegree_sub_le _ _).trans ?_
    rw [natDegree_C]
    simpa using (natDegree_C_mul_le (2 / (M - m)) X).trans natDegree_X_le
  have hLev : ∀ s, L.eval s = (M + m - 2 * s) / (M - m) := by
    intro s
    rw [hL, eval_sub, eval_C, eval_mul, eval_C, eval_X]
    field_simp
  refine ⟨C V⁻¹ * (Chebyshev.T ℝ k).comp L, ?_, ?_, ?_⟩
  · refine (natDegree_C_mul_le _ _).trans ?_
    refine natDegree_comp_le.trans ?_
    rw [Chebyshev.natDegree_T, Int.natAbs_natCast]
    calc k * L.natDegree ≤ k * 1 := Nat.mul_le_mul_left _ hLdeg
      _ = k := Nat.mul_one k
  · rw [eval_mul, eval_C, eval_comp, hLev, mul_zero, sub_zero, hval, inv_mul_cancel₀ (ne_of_gt hVpos)]
  · intro s hs1 hs2
    rw [eval_mul, eval_C, eval_comp, hLev, abs_mul, abs_of_pos (inv_pos.2 hVpos)]
    have h3 : |(M + m - 2 * s) / (M - m)| ≤ 1 := by
      rw [abs_div, abs_of_pos hd, div_le_one hd, abs_le]
      constructor <;> linarith
    have h4 := Chebyshev.abs_eval_T_real_le_one k h3
    calc V⁻¹ * |eval ((M + m - 2 * s) / (M - m)) (Chebyshev.T ℝ k)| ≤ V⁻¹ * 1 :=
          mul_le_mul_of_nonneg_left h4 (le_of_lt (inv_pos.2 hVpos))
      _ = V⁻¹ := mul_one _
      _ ≤ (t ^ k / 2)⁻¹ := by
          apply inv_anti₀ (by have := pow_pos ht0 k; linarith)
          have := pow_pos (inv_pos.2 ht0) k
          rw [hV]; linarith
      _ = 2 * ((h - g) / (h + g)) ^ k := by rw [← hti, inv_div, inv_pow]; rfl

end Verif.PolyBound
