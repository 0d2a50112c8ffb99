import Mathlib.Analysis.SpecialFunctions.Trigonometric.Basic

/-!
Model of the closed-form eigenvalue functions that accompany the matrix generators
(src/utils/create_matrix). Simplification: `T` is the field of real numbers (`std::cos`, `M_PI` and the
arithmetic are exact); `int` arguments do not overflow.
-/

namespace Verif
namespace Gen

open Real

/-- `util::tridiagonal_toeplitz_matrix_eigenvalue`: tridiagonal_toeplitz.cpp:30-34 -/
noncomputable def tridiagonalEig (M N : Int) (a b : ℝ) : ℝ :=
  a - 2 * |b| * cos (π * (N + 1) / (M + 1))

/-- `util::laplacian_matrix_1D_eigenvalue`: laplacian.cpp:12-15 -/
noncomputable def laplacian1DEig (M N : Int) : ℝ := tridiagonalEig M N 2 (-1)

/-- `util::toeplitz_plus_hankel_matrix_eigenvalue`: toeplitz_plus_hankel.cpp:45-54 -/
noncomputable def toeplitzHankelEig (M N : Int) (a0 a1 a2 b0 b1 b2 : ℝ) : ℝ :=
  (a0 + 2 * (a1 * cos (π * 1 * (N + 1) / (M + 1)) + a2 * cos (π * 2 * (N + 1) / (M + 1)))) /
  (b0 + 2 * (b1 * cos (π * 1 * (N + 1) / (M + 1)) + b2 * cos (π * 2 * (N + 1) / (M + 1))))

/-- `util::frank_matrix_eigenvalue`: frank.cpp:25-31. The argument of `cos` is
`M_PI * (2 * (M - N + 1) + 1) / (2 * M + 1)`. -/
noncomputable def frankEig (M N : Int) : ℝ :=
  1 / (2 * (1 - cos (π * (((2 * (M - N + 1) + 1 : Int)) : ℝ) / ((2 * M + 1 : Int) : ℝ))))

end Gen
end Verif
