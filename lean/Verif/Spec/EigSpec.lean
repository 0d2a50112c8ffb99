import Verif.Spec.CooSpec
import Mathlib.Data.Real.Basic
import Mathlib.Algebra.BigOperators.Group.Finset.Basic

/-! Eigenvalues of a stored matrix. -/

namespace Verif.Spec

/-- element `(i, j)` of a real coordinate matrix, as `at(i, j)` reports it -/
def elem (A : Coo ℝ) (i j : Nat) : ℝ :=
  match A.at_ i j with
  | .ok x => x
  | _ => 0

/-- `A v = lam B v` for `M × M` coefficient functions -/
def EigenPair (M : Nat) (A B : Nat → Nat → ℝ) (lam : ℝ) (v : Nat → ℝ) : Prop :=
  (∃ i, i < M ∧ v i ≠ 0) ∧
  ∀ i, i < M → ∑ j ∈ Finset.range M, A i j * v j = lam * ∑ j ∈ Finset.range M, B i j * v j

/-- `lam` is an eigenvalue of the `M × M` matrix `A` -/
def IsEigenvalue (M : Nat) (A : Nat → Nat → ℝ) (lam : ℝ) : Prop :=
  ∃ v : Nat → ℝ, (∃ i, i < M ∧ v i ≠ 0) ∧
    ∀ i, i < M → ∑ j ∈ Finset.range M, A i j * v j = lam * v i

end Verif.Spec
