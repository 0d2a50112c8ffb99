import Verif.Spec.SolverSpec

/-! Successive over-relaxation in matrix form. `A = L + D + U`: strict lower part, diagonal, strict
upper part. -/

namespace Verif.Spec

open Matrix

variable {α K : Type} {n : Nat} [Field K]

/-- strict lower triangle -/
def strictLower (A : Matrix (Fin n) (Fin n) K) : Matrix (Fin n) (Fin n) K :=
  Matrix.of (fun i j => if j < i then A i j else 0)

/-- strict upper triangle -/
def strictUpper (A : Matrix (Fin n) (Fin n) K) : Matrix (Fin n) (Fin n) K :=
  Matrix.of (fun i j => if i < j then A i j else 0)

/-- `x'` is the SOR iterate after `x`, with relaxation parameter `w`, for residual `r`:
`(D/w + L) (x' - x) = r` -/
def SorStep (A : Matrix (Fin n) (Fin n) K) (w : K) (r x x' : Fin n → K) : Prop :=
  (Matrix.diagonal (fun i => A i i / w) + strictLower A) *ᵥ (x' - x) = r

/-- `xs 0, xs 1, …` are the SOR iterates for `A x = b` from `x`; `P` is the function applied to the
iterate before the residual is formed (the identity without preconditioner). -/
def SorSeq (A : Matrix (Fin n) (Fin n) K) (w : K) (P : (Fin n → K) → Fin n → K) (b x : Fin n → K)
    (xs : Nat → Fin n → K) : Prop :=
  xs 0 = x ∧ ∀ k, SorStep A w (b - A *ᵥ P (xs k)) (xs k) (xs (k + 1))

/-- `t` solves the lower triangular system `(E + L) t = r`, where `d` is the reciprocal of the
diagonal matrix `E` -/
def LowerSolve (A : Matrix (Fin n) (Fin n) K) (d r t : Fin n → K) : Prop :=
  ∀ i, t i = (r i - ∑ j, strictLower A i j * t j) * d i

/-- the lower triangular solver `lower` (called with the reciprocal diagonal, the previous contents of
the output and the right-hand side) is right for `A` -/
def IsLower (lower : List α → List α → List α → Res (List α)) (ι : K → α)
    (A : Matrix (Fin n) (Fin n) K) : Prop :=
  ∀ (d r t : Fin n → K) (t0 : List α), t0.length = n → LowerSolve A d r t →
    lower (vec ι d) t0 (vec ι r) = .ok (vec ι t)

end Verif.Spec
