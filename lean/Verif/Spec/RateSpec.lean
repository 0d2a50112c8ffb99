import Verif.Spec.SolverSpec

/-!
Error of an approximate solution, and bounds for a matrix and a preconditioner (C102).
-/

namespace Verif.Spec

open Matrix

variable {n : Nat} {K : Type} [Field K] [LinearOrder K]

/-- the squared energy norm of the error of `y`, where `xs` is the solution -/
def energy (A : Matrix (Fin n) (Fin n) K) (xs y : Fin n → K) : K := (xs - y) ⬝ᵥ (A *ᵥ (xs - y))

/-- the quadratic form of `A` is between `m` and `M` times the square of the length: all eigenvalues are between
`m` and `M` -/
def Between (A : Matrix (Fin n) (Fin n) K) (m M : K) : Prop :=
  ∀ v, m * (v ⬝ᵥ v) ≤ v ⬝ᵥ (A *ᵥ v) ∧ v ⬝ᵥ (A *ᵥ v) ≤ M * (v ⬝ᵥ v)

/-- the same for the preconditioned matrix `Q A`, in the energy norm -/
def PrecondBetween (A Q : Matrix (Fin n) (Fin n) K) (m M : K) : Prop :=
  ∀ v, m * (v ⬝ᵥ (A *ᵥ v)) ≤ (A *ᵥ v) ⬝ᵥ (Q *ᵥ (A *ᵥ v)) ∧ (A *ᵥ v) ⬝ᵥ (Q *ᵥ (A *ᵥ v)) ≤ M * (v ⬝ᵥ (A *ᵥ v))

end Verif.Spec
