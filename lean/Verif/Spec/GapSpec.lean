import Verif.Model.Solver
import Verif.Model.Reduce
import Verif.Spec.RoundSpec
import Mathlib.Data.Real.Sqrt
import Mathlib.Data.Matrix.Mul

/-!
The solvers in floating-point arithmetic: what is assumed about the operations and the matrix (C103).
-/

namespace Verif.Spec

open Verif.Solver

/-- the operations of the solvers are those of an arithmetic with rounding errors -/
structure RoundedNum {F : Type} [Zero F] [Add F] [Mul F] (R : Rounding F) (N : Num F) : Prop where
  add : ∀ a b, N.add a b = a + b
  mul : ∀ a b, N.mul a b = a * b
  neg_finite : ∀ a, R.Finite (N.neg a) ↔ R.Finite a
  neg_val : ∀ a, R.val (N.neg a) = - R.val a
  sub_finite : ∀ a b, R.Finite (N.sub a b) → R.Finite a ∧ R.Finite b
  sub_err : ∀ a b, R.Finite (N.sub a b) → |R.val (N.sub a b) - (R.val a - R.val b)| ≤ R.u * |R.val a - R.val b|

/-- the numbers a list of floating-point values stands for -/
def vals {F : Type} [Zero F] [Add F] [Mul F] (R : Rounding F) (n : Nat) (l : List F) : Fin n → ℝ :=
  fun i => R.val ((l[(i : Nat)]?).getD 0)

/-- all values are finite -/
def AllFinite {F : Type} [Zero F] [Add F] [Mul F] (R : Rounding F) (l : List F) : Prop := ∀ a ∈ l, R.Finite a

/-- `A.mv` multiplies by the matrix `M` with rounding errors: a relative error `γ` of the sum of the absolute values
of the terms (`Ma` bounds the absolute values of the elements) and an absolute error `τ`. -/
structure RoundedMat {F : Type} [Zero F] [Add F] [Mul F] (R : Rounding F) {n : Nat} (A : Mat F)
    (M Ma : Matrix (Fin n) (Fin n) ℝ) (γ τ : ℝ) : Prop where
  row : A.row = n
  γ_nonneg : 0 ≤ γ
  τ_nonneg : 0 ≤ τ
  abs_le : ∀ i l, |M i l| ≤ Ma i l
  mv : ∀ p q, p.length = n → A.mv p = .ok q → q.length = n ∧ (AllFinite R q → ∀ i,
    |vals R n q i - ∑ l, M i l * vals R n p l| ≤ γ * ∑ l, Ma i l * |vals R n p l| + τ)

/-- The loss per iteration in row `i`, if the iterates are bounded by `X`, the residuals by `r`, and the step lengths
by `a`: unit roundoff and `γ` times the sizes, and the underflow terms. -/
noncomputable def loss {F : Type} [Zero F] [Add F] [Mul F] (R : Rounding F) {n : Nat} (Ma : Matrix (Fin n) (Fin n) ℝ)
    (γ τ : ℝ) (X r : Fin n → ℝ) (a : ℝ) (i : Fin n) : ℝ :=
  (3 * γ + 4 * R.u) * (∑ l, Ma i l * X l) + 4 * R.u * r i +
    (2 * (γ + 1) * R.η * (∑ l, Ma i l) + 2 * R.η + a * τ)

/-- the norm of `n` numbers -/
noncomputable def euclid {n : Nat} (v : Fin n → ℝ) : ℝ := √(∑ i, v i ^ 2)

/-- the numbers that `N.nrm2` computes: products are summed up by some schedule of a parallel loop, the square root
is correct up to a relative error `u`; `N.lt` compares finite numbers -/
structure RoundedNorm {F : Type} [Zero F] [Add F] [Mul F] (R : Rounding F) (N : Num F) : Prop where
  sum : ∀ L, ∃ t : RTree, t.Legal L.length ∧ sumCore t L 0 = .ok (N.sum L)
  sqrt : ∀ a, R.Finite (N.sqrt a) → R.Finite a ∧ 0 ≤ R.val a ∧ |R.val (N.sqrt a) - √(R.val a)| ≤ R.u * √(R.val a)
  lt : ∀ a b, R.Finite a → R.Finite b → N.lt a b = true → R.val a < R.val b

/-- the matrix a CRS matrix stands for: element `(i, l)` is the sum of the values stored at this position -/
noncomputable def crsVal {F : Type} [Zero F] [Add F] [Mul F] (R : Rounding F) (A : Crs F) (n : Nat) : Matrix (Fin n) (Fin n) ℝ :=
  fun i l => (((A.rowEntries i).filter (fun e => e.2.1 == (l : Nat))).map (fun e => R.val e.2.2)).sum

/-- the sums of the absolute values -/
noncomputable def crsAbs {F : Type} [Zero F] [Add F] [Mul F] (R : Rounding F) (A : Crs F) (n : Nat) : Matrix (Fin n) (Fin n) ℝ :=
  fun i l => (((A.rowEntries i).filter (fun e => e.2.1 == (l : Nat))).map (fun e => |R.val e.2.2|)).sum

/-- what an iteration of BiCGSTAB computes on the way -/
structure BiMid (F : Type) where
  phat : List F
  /-- the approximation after the first half -/
  x : List F
  /-- the residual after the first half -/
  s : List F
  shat : List F
  t : List F

/-- One iteration of (preconditioned) BiCGSTAB, as the textbook writes it: `r0` is the shadow residual, `iter` the
number of the iteration, `s` and `s'` the vectors and scalars before and after it. -/
structure BiStep {F : Type} (N : Num F) (A : Mat F) (pc : List F → Res (List F)) (r0 : List F) (iter : Nat)
    (s : BiCG.St F) (h : BiMid F) (s' : BiCG.St F) : Prop where
  rho : N.dot s.r r0 = .ok s'.rhoOld
  first : iter = 0 → s'.p = s.r
  later : iter ≠ 0 → ∃ p, N.axpy (N.neg s.omega) s.v s.p = .ok p ∧
    N.xpay (N.mul (N.div s'.rhoOld s.rhoOld) (N.div s.alpha s.omega)) s.r p = .ok s'.p
  phat : pc s'.p = .ok h.phat
  v : A.mv h.phat = .ok s'.v
  alpha : ∃ d, N.dot s'.v r0 = .ok d ∧ s'.alpha = N.div s'.rhoOld d
  half : N.axpy (N.neg s'.alpha) s'.v s.r = .ok h.s
  halfx : N.axpy s'.alpha h.phat s.x = .ok h.x
  shat : pc h.s = .ok h.shat
  t : A.mv h.shat = .ok h.t
  omega : ∃ ts tt, N.dot h.t h.s = .ok ts ∧ N.dot h.t h.t = .ok tt ∧ s'.omega = N.div ts tt
  r : N.axpy (N.neg s'.omega) h.t h.s = .ok s'.r
  x : N.axpy s'.omega h.shat h.x = .ok s'.x

end Verif.Spec
