import Verif.Spec.CrsSpec
import Mathlib.Data.Real.Basic
import Mathlib.Algebra.Order.BigOperators.Group.List

/-!
Floating-point arithmetic with rounding, as the standard model of rounding-error analysis has it: every
operation returns the exact result with a relative error of at most `u`, products also with an absolute error
of at most `η` (underflow); an operation whose result is finite had finite operands.
-/

namespace Verif.Spec

/-- an arithmetic with rounding errors on the type `F` -/
structure Rounding (F : Type) [Zero F] [Add F] [Mul F] where
  /-- the number a finite floating-point value stands for -/
  val : F → ℝ
  /-- neither infinite nor NaN -/
  Finite : F → Prop
  /-- unit roundoff (2^-53 for double) -/
  u : ℝ
  /-- half of the smallest positive number (2^-1075 for double) -/
  η : ℝ
  u_nonneg : 0 ≤ u
  η_nonneg : 0 ≤ η
  zero_finite : Finite 0
  zero_val : val 0 = 0
  add_finite : ∀ a b, Finite (a + b) → Finite a ∧ Finite b
  add_err : ∀ a b, Finite (a + b) → |val (a + b) - (val a + val b)| ≤ u * |val a + val b|
  /-- adding zero is exact -/
  zero_add : ∀ a b, Finite (a + b) → val a = 0 → val (a + b) = val b
  add_zero : ∀ a b, Finite (a + b) → val b = 0 → val (a + b) = val a
  mul_finite : ∀ a b, Finite (a * b) → Finite a ∧ Finite b
  mul_err : ∀ a b, Finite (a * b) → |val (a * b) - val a * val b| ≤ u * |val a * val b| + η

/-- `r` is the sum of the numbers `L` up to rounding errors -/
def NearSum {F : Type} [Zero F] [Add F] [Mul F] (R : Rounding F) (L : List ℝ) (r : F) : Prop :=
  |R.val r - L.sum| ≤ ((1 + R.u) ^ (L.length - 1) - 1) * (L.map abs).sum

/-- `r` is the sum of the products `L` up to rounding errors -/
def NearDot {F : Type} [Zero F] [Add F] [Mul F] (R : Rounding F) (L : List ℝ) (r : F) : Prop :=
  |R.val r - L.sum| ≤ ((1 + R.u) ^ L.length - 1) * (L.map abs).sum
    + (1 + R.u) ^ (L.length - 1) * (L.length * R.η)

end Verif.Spec
