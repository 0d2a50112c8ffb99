import Verif.Model.Solver
import Mathlib.Data.Matrix.Mul
import Mathlib.Algebra.Order.Field.Basic

/-!
What the solvers are supposed to compute, in textbook form: vectors are functions `Fin n → K` over a
field, matrices are Mathlib matrices. `Exact` says what it means for the machine arithmetic to be
exact on the numbers that occur (division by zero is left open).
-/

namespace Verif.Spec

open Matrix

variable {α K : Type} {n : Nat}

/-- The operations of `N` on the images of field elements are the field operations. Nothing is said
about division by zero. `sq` is the square root that `N` computes. -/
structure Exact [Field K] [LinearOrder K] (N : Solver.Num α) (ι : K → α) (sq : K → K) : Prop where
  zero : N.zero = ι 0
  one : N.one = ι 1
  add : ∀ a b, N.add (ι a) (ι b) = ι (a + b)
  sub : ∀ a b, N.sub (ι a) (ι b) = ι (a - b)
  mul : ∀ a b, N.mul (ι a) (ι b) = ι (a * b)
  div : ∀ a b, b ≠ 0 → N.div (ι a) (ι b) = ι (a / b)
  neg : ∀ a, N.neg (ι a) = ι (-a)
  sqrt : ∀ a, 0 ≤ a → N.sqrt (ι a) = ι (sq a)
  lt : ∀ a b, N.lt (ι a) (ι b) = decide (a < b)
  isNaN : ∀ a, N.isNaN (ι a) = false
  isZero : ∀ a, N.isZero (ι a) = decide (a = 0)
  sum : ∀ l : List K, N.sum (l.map ι) = ι l.sum

/-- the machine vector that holds `v` -/
def vec (ι : K → α) (v : Fin n → K) : List α := List.ofFn (fun i => ι (v i))

/-- the matrix argument represents the square matrix `M` -/
structure IsMat [Field K] (A : Solver.Mat α) (ι : K → α) (M : Matrix (Fin n) (Fin n) K) : Prop where
  row : A.row = n
  col : A.col = n
  mv : ∀ v, A.mv (vec ι v) = .ok (vec ι (M *ᵥ v))
  diag : A.diag = .ok (vec ι M.diag)

/-- the preconditioner can be created and applies the function `P` -/
def IsPrecond (create : Res (List α → Res (List α))) (ι : K → α)
    (P : (Fin n → K) → Fin n → K) : Prop :=
  ∃ pc, create = .ok pc ∧ ∀ v, pc (vec ι v) = .ok (vec ι (P v))

variable [Field K]

/-- Euclidean norm, for the given square root -/
def norm2 (sq : K → K) (v : Fin n → K) : K := sq (v ⬝ᵥ v)

/-! ### The (preconditioned) conjugate gradient method -/

structure CG (n : Nat) (K : Type) where
  x : Fin n → K
  r : Fin n → K
  z : Fin n → K
  p : Fin n → K

/-- `r = b - A x, z = P r, p = z` -/
def CG.start (A : Matrix (Fin n) (Fin n) K) (P : (Fin n → K) → Fin n → K) (b x : Fin n → K) :
    CG n K where
  x := x
  r := b - A *ᵥ x
  z := P (b - A *ᵥ x)
  p := P (b - A *ᵥ x)

/-- step length `(z, r) / (p, A p)` -/
def CG.len (A : Matrix (Fin n) (Fin n) K) (s : CG n K) : K := (s.z ⬝ᵥ s.r) / (s.p ⬝ᵥ (A *ᵥ s.p))

/-- one iteration -/
def CG.next (A : Matrix (Fin n) (Fin n) K) (P : (Fin n → K) → Fin n → K) (s : CG n K) : CG n K :=
  let r := s.r - s.len A • (A *ᵥ s.p)
  { x := s.x + s.len A • s.p
    r := r
    z := P r
    p := P r + ((P r ⬝ᵥ r) / (s.z ⬝ᵥ s.r)) • s.p }

/-- the iterates -/
def CG.at (A : Matrix (Fin n) (Fin n) K) (P : (Fin n → K) → Fin n → K) (b x : Fin n → K) :
    Nat → CG n K
  | 0 => CG.start A P b x
  | k + 1 => (CG.at A P b x k).next A P

/-- the two divisions of the next iteration are by non-zero numbers -/
def CG.Regular (A : Matrix (Fin n) (Fin n) K) (s : CG n K) : Prop :=
  s.z ⬝ᵥ s.r ≠ 0 ∧ s.p ⬝ᵥ (A *ᵥ s.p) ≠ 0

/-- the acceptance test of the solvers: the *true* residual of `x` is below the tolerance, and at
least `miniter` iterations were made -/
def Accept [LinearOrder K] (sq : K → K) (A : Matrix (Fin n) (Fin n) K) (b : Fin n → K) (tol : K)
    (miniter k : Nat) (x : Fin n → K) : Prop :=
  norm2 sq (b - A *ᵥ x) < tol ∧ miniter ≤ k

/-- symmetric positive definite -/
def SPD [LinearOrder K] (A : Matrix (Fin n) (Fin n) K) : Prop :=
  A.transpose = A ∧ ∀ v, v ≠ 0 → 0 < v ⬝ᵥ (A *ᵥ v)

/-! ### The stabilised bi-conjugate gradient method -/

structure BiCG (n : Nat) (K : Type) where
  x : Fin n → K
  r : Fin n → K
  p : Fin n → K
  v : Fin n → K
  rho : K
  alpha : K
  omega : K

namespace BiCG

variable (A : Matrix (Fin n) (Fin n) K) (P : (Fin n → K) → Fin n → K) (r0 : Fin n → K)

/-- direction of iteration `k` (counted from 0) -/
def dir (k : Nat) (s : BiCG n K) : Fin n → K :=
  if k = 0 then s.r
  else s.r + (((s.r ⬝ᵥ r0) / s.rho) * (s.alpha / s.omega)) • (s.p - s.omega • s.v)

/-- `v = A P p` -/
def newV (k : Nat) (s : BiCG n K) : Fin n → K := A *ᵥ P (s.dir r0 k)

/-- `alpha = (r, r0) / (v, r0)` -/
def newAlpha (k : Nat) (s : BiCG n K) : K := (s.r ⬝ᵥ r0) / (s.newV A P r0 k ⬝ᵥ r0)

/-- intermediate residual -/
def mid (k : Nat) (s : BiCG n K) : Fin n → K := s.r - s.newAlpha A P r0 k • s.newV A P r0 k

/-- `t = A P s` -/
def newT (k : Nat) (s : BiCG n K) : Fin n → K := A *ᵥ P (s.mid A P r0 k)

/-- `omega = (t, s) / (t, t)` -/
def newOmega (k : Nat) (s : BiCG n K) : K :=
  (s.newT A P r0 k ⬝ᵥ s.mid A P r0 k) / (s.newT A P r0 k ⬝ᵥ s.newT A P r0 k)

/-- one iteration -/
def next (k : Nat) (s : BiCG n K) : BiCG n K where
  x := s.x + s.newAlpha A P r0 k • P (s.dir r0 k) + s.newOmega A P r0 k • P (s.mid A P r0 k)
  r := s.mid A P r0 k - s.newOmega A P r0 k • s.newT A P r0 k
  p := s.dir r0 k
  v := s.newV A P r0 k
  rho := s.r ⬝ᵥ r0
  alpha := s.newAlpha A P r0 k
  omega := s.newOmega A P r0 k

/-- the iterates -/
def at' (b x : Fin n → K) : Nat → BiCG n K
  | 0 => { x := x, r := b - A *ᵥ x, p := 0, v := 0, rho := 1, alpha := 1, omega := 1 }
  | k + 1 => (at' b x k).next A P (b - A *ᵥ x) k

/-- the divisions of iteration `k` are by non-zero numbers -/
def Regular (k : Nat) (s : BiCG n K) : Prop :=
  s.newV A P r0 k ⬝ᵥ r0 ≠ 0 ∧ s.newT A P r0 k ⬝ᵥ s.newT A P r0 k ≠ 0

/-- the method cannot go on: `rho = 0` or `omega = 0` -/
def Breaks (k : Nat) (s : BiCG n K) : Prop :=
  s.r ⬝ᵥ r0 = 0 ∨ s.newOmega A P r0 k = 0

end BiCG

/-! ### The Jacobi method -/

/-- one sweep: `x_i + (b - A x)_i / A_ii` -/
def jacobiNext (A : Matrix (Fin n) (Fin n) K) (b x : Fin n → K) : Fin n → K :=
  fun i => x i + (b - A *ᵥ x) i / A i i

/-- the iterates -/
def jacobiAt (A : Matrix (Fin n) (Fin n) K) (b x : Fin n → K) : Nat → Fin n → K
  | 0 => x
  | k + 1 => jacobiNext A b (jacobiAt A b x k)

end Verif.Spec
