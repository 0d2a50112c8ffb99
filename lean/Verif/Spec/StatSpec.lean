import Verif.Spec.GapSpec

/-!
Stationary iterations in floating-point arithmetic: what is assumed about division and comparison, and the quantities of
the bounds (C110).
-/

namespace Verif.Spec

open Verif.Solver

variable {F : Type} [Zero F] [Add F] [Mul F]

/-- quotients of finite numbers are correct up to a relative error `u` and an absolute error `η`; the test
`|r| / |b| < tol` is not passed with an infinite or undefined norm of `r` -/
structure RoundedQuot (R : Rounding F) (N : Num F) : Prop where
  one : R.val N.one = 1
  div : ∀ a b, R.Finite a → R.Finite b → R.Finite (N.div a b) →
    R.val b ≠ 0 ∧ |R.val (N.div a b) - R.val a / R.val b| ≤ R.u * |R.val a / R.val b| + R.η
  test : ∀ a b c, R.Finite (N.sqrt b) → R.Finite c → N.lt (N.mul (N.sqrt a) (N.div N.one (N.sqrt b))) c = true →
    R.Finite N.one ∧ R.Finite (N.mul (N.sqrt a) (N.div N.one (N.sqrt b)))

/-- upper bound for the norm of `n` numbers whose norm was computed as `t`: the rounding errors of `nrm2` -/
noncomputable def atMost (R : Rounding F) (n : Nat) (t : ℝ) : ℝ :=
  (t + (1 + R.u) * √((1 + R.u) ^ (n - 1) * (n * R.η))) / (2 - (1 + R.u) ^ (n + 1))

/-- upper bound for a computed norm that passed the test "times the computed `1 / nb` less than `tol`" -/
noncomputable def passed (R : Rounding F) (tol nb : ℝ) : ℝ :=
  nb * (tol + R.η) / ((1 - R.u) * (1 - R.u - R.η * nb))

/-- rounding errors of one evaluation of `b - A y`, row `i` -/
noncomputable def evalErr (R : Rounding F) {n : Nat} (Ma : Matrix (Fin n) (Fin n) ℝ) (γ τ : ℝ) (y : Fin n → ℝ)
    (i : Fin n) : ℝ :=
  (γ + R.u + R.u * γ) * (∑ l, Ma i l * |y l|) + ((1 + R.u) * τ + R.η)

end Verif.Spec
