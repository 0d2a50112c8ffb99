import Mathlib.LinearAlgebra.Matrix.NonsingularInverse
import Mathlib.LinearAlgebra.Dimension.Constructions
import Mathlib.LinearAlgebra.FiniteDimensional.Lemmas
import Mathlib.LinearAlgebra.Matrix.ToLin
import Mathlib.Algebra.Order.BigOperators.Group.Finset
import Mathlib.Algebra.Order.Field.Basic
import Mathlib.Tactic.Linarith
import Mathlib.Tactic.Ring

/-!
The Rayleigh-Ritz procedure: `A = U M U'`, `B = U Q U'`, `A Z = B Z diag w`, `Z' B Z = 1`. The rows of `Y = Z' U` are
orthonormal for `Q`, their quotients are the `w`, and `w i` is at most the largest quotient on any space spanned by
`i + 1` of the rows of `U`.
-/

namespace Verif.Ritz

open Matrix

variable {K : Type} [Field K] [LinearOrder K] [IsStrictOrderedRing K] {n k : Nat}

omit [LinearOrder K] [IsStrictOrderedRing K] in
/-- the value of a form on a combination of rows -/
theorem quad (M : Matrix (Fin n) (Fin n) K) (Y : Matrix (Fin k) (Fin n) K) (c d : Fin k → K) :
    (c ᵥ* Y) ⬝ᵥ (M *ᵥ (d ᵥ* Y)) = c ⬝ᵥ ((Y * M * Yᵀ) *ᵥ d) := by
  rw [← Matrix.dotProduct_mulVec, ← Matrix.mulVec_mulVec, ← Matrix.mulVec_mulVec, ← Matrix.vecMul_transpose Yᵀ d,
    Matrix.transpose_transpose]

structure Solved (M Q : Matrix (Fin n) (Fin n) K) (U : Matrix (Fin k) (Fin n) K)
    (Z : Matrix (Fin k) (Fin k) K) (w : Fin k → K) : Prop where
  eigen : U * M * Uᵀ * Z = U * Q * Uᵀ * Z * diagonal w
  normal : Zᵀ * (U * Q * Uᵀ) * Z = 1
  sorted : ∀ i j : Fin k, i ≤ j → w i ≤ w j

variable {M Q : Matrix (Fin n) (Fin n) K} {U : Matrix (Fin k) (Fin n) K}
    {Z : Matrix (Fin k) (Fin k) K} {w : Fin k → K}

omit [IsStrictOrderedRing K] in
theorem Solved.q (h : Solved M Q U Z w) : Zᵀ * U * Q * (Zᵀ * U)ᵀ = 1 := by
  rw [← h.normal]
  simp only [Matrix.transpose_mul, Matrix.transpose_transpose, Matrix.mul_assoc]

omit [IsStrictOrderedRing K] in
theorem Solved.m (h : Solved M Q U Z w) : Zᵀ * U * M * (Zᵀ * U)ᵀ = diagonal w := by
  have e : Zᵀ * U * M * (Zᵀ * U)ᵀ = Zᵀ * (U * M * Uᵀ * Z) := by
    simp only [Matrix.transpose_mul, Matrix.transpose_transpose, Matrix.mul_assoc]
  rw [e, h.eigen, ← Matrix.mul_assoc, ← Matrix.mul_assoc, h.normal, Matrix.one_mul]

omit [IsStrictOrderedRing K] in
/-- the rows of `U` are combinations of the rows of `Y` -/
theorem Solved.back (h : Solved M Q U Z w) : U * Q * Uᵀ * Z * (Zᵀ * U) = U := by
  have h1 : Zᵀ * (U * Q * Uᵀ * Z) = 1 := by rw [← Matrix.mul_assoc]; exact h.normal
  have h2 := mul_eq_one_comm.mp h1
  rw [← Matrix.mul_assoc, h2, Matrix.one_mul]

theorem Solved.minmax (h : Solved M Q U Z w) {i : Nat} (hi : i < k) (r : Fin (i + 1) → Fin k)
    (hr : Function.Injective r) {ρ : K}
    (hρ : ∀ c : Fin (i + 1) → K, (∑ j, c j • U (r j)) ⬝ᵥ (M *ᵥ ∑ j, c j • U (r j)) ≤
      ρ * ((∑ j, c j • U (r j)) ⬝ᵥ (Q *ᵥ ∑ j, c j • U (r j)))) : w ⟨i, hi⟩ ≤ ρ := by
  classical
  -- the equations: the first `i` coordinates vanish
  let E : Matrix (Fin (i + 1)) (Fin k) K := fun j => (U * Q * Uᵀ * Z) (r j)
  let T : (Fin (i + 1) → K) →ₗ[K] (Fin i → K) :=
    { toFun := fun c t => (c ᵥ* E) ⟨t, lt_trans t.2 hi⟩
      map_add' := fun c d => by funext t; simp [Matrix.add_vecMul]
      map_smul' := fun a c => by funext t; simp [Matrix.smul_vecMul] }
  have hker : LinearMap.ker T ≠ ⊥ := LinearMap.ker_ne_bot_of_finrank_lt (by simp)
  obtain ⟨c, hc, hc0⟩ := (Submodule.ne_bot_iff _).mp hker
  have hz : ∀ t : Fin k, (t : Nat) < i → (c ᵥ* E) t = 0 := by
    intro t ht
    have := congrFun (LinearMap.mem_ker.mp hc) ⟨t, ht⟩
    exact this
  have hu : ∑ j, c j • U (r j) = (c ᵥ* E) ᵥ* (Zᵀ * U) := by
    rw [Matrix.vecMul_vecMul]
    have : E * (Zᵀ * U) = fun j => U (r j) := by
      funext j
      have hb := congrFun h.back (r j)
      rw [← hb]
      rfl
    rw [this]
    funext a
    simp [Matrix.vecMul, dotProduct, Finset.sum_apply]
  have hd0 : c ᵥ* E ≠ 0 := by
    intro h0
    apply hc0
    -- pad `c` with zeros
    let c' : Fin k → K := fun a => ∑ j, if r j = a then c j else 0
    have e1 : c' ᵥ* (U * Q * Uᵀ * Z) = c ᵥ* E := by
      funext t
      simp only [Matrix.vecMul, dotProduct, c', Finset.sum_mul]
      rw [Finset.sum_comm]
      refine Finset.sum_congr rfl fun j _ => ?_
      rw [Finset.sum_eq_single (r j)]
      · simp [E]
      · intro b _ hb; rw [if_neg (Ne.symm hb), zero_mul]
      · intro hb; exact absurd (Finset.mem_univ _) hb
    have h1 : Zᵀ * (U * Q * Uᵀ * Z) = 1 := by rw [← Matrix.mul_assoc]; exact h.normal
    have h2 := mul_eq_one_comm.mp h1
    have e2 : c' = 0 := by
      have : (c' ᵥ* (U * Q * Uᵀ * Z)) ᵥ* Zᵀ = c' := by
        rw [Matrix.vecMul_vecMul, h2, Matrix.vecMul_one]
      rw [← this, e1, h0, Matrix.zero_vecMul]
    funext j
    have := congrFun e2 (r j)
    simp only [c', Pi.zero_apply] at this
    rw [Finset.sum_eq_single j] at this
    · simpa using this
    · intro b _ hb; rw [if_neg (fun hh => hb (hr hh))]
    · intro hb; exact absurd (Finset.mem_univ _) hb
  have hq := hρ c
  rw [hu, quad M (Zᵀ * U), quad Q (Zᵀ * U), h.q, h.m, Matrix.one_mulVec] at hq
  generalize c ᵥ* E = d at hz hd0 hq
  have hpos : 0 < d ⬝ᵥ d := by
    obtain ⟨t, ht⟩ := Function.ne_iff.mp hd0
    unfold dotProduct
    exact Finset.sum_pos' (fun _ _ => mul_self_nonneg _) ⟨t, Finset.mem_univ _, mul_self_pos.mpr ht⟩
  have hge : w ⟨i, hi⟩ * (d ⬝ᵥ d) ≤ d ⬝ᵥ (diagonal w *ᵥ d) := by
    unfold dotProduct
    rw [Finset.mul_sum]
    refine Finset.sum_le_sum fun t _ => ?_
    rw [Matrix.mulVec_diagonal]
    by_cases ht : (t : Nat) < i
    · rw [hz t ht]; simp
    · have hw := h.sorted ⟨i, hi⟩ t (by rw [Fin.le_def]; simp only; omega)
      have := mul_le_mul_of_nonneg_right hw (mul_self_nonneg (d t))
      linarith [this, mul_comm (w t) (d t), mul_assoc (d t) (w t) (d t), mul_left_comm (d t) (w t) (d t)]
  exact le_of_mul_le_mul_right (le_trans hge hq) hpos

end Verif.Ritz
