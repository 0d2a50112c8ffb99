import Verif.Props.SorConv
import Verif.Props.BiCG

/-! C42 `solver_check`, C58 selecting a solver library that does not exist, C59 `get_residual_l2`. -/

namespace Verif.Solver

open Verif.Spec Matrix

variable {α K : Type} {n : Nat}

/-- C42 is violated: `solver_check` returns the same value for every argument. -/
theorem C42_constant (err : Int) : solverCheck err = false := by
  unfold solverCheck
  split <;> try rfl
  split <;> try rfl
  split <;> try rfl
  split <;> try rfl
  split <;> try rfl
  split <;> rfl

/-- C42 is violated: no error code is distinguished from SUCCESS. -/
theorem C42_violated : ¬ ∃ err, err ≠ SUCCESS ∧ solverCheck err ≠ solverCheck SUCCESS := by
  rintro ⟨err, _, h⟩
  exact h (by rw [C42_constant, C42_constant])

/-- C58 is violated: with `set_lib(l)`, `l ≠ 0`, every iterative solver returns SUCCESS without doing
anything: `x` is unchanged, whatever the system is (even a non-square matrix). -/
theorem C58_violated (N : Num α) (cfg : Cfg α) (hlib : cfg.lib ≠ 0) (A : Mat α)
    (lower : List α → List α → List α → Res (List α)) (create : Res (List α → Res (List α)))
    (x b : List α) :
    let out : Out α := { status := SUCCESS, x := x, finalIter := cfg.prevIter, finalResid := cfg.prevResid }
    CG.solve N cfg A create x b = .ok out ∧ BiCG.solve N cfg A create x b = .ok out ∧
    Jacobi.solve N cfg A create x b = .ok out ∧ SOR.solve N cfg A lower create x b = .ok out := by
  simp [CG.solve, BiCG.solve, Jacobi.solve, SOR.solve, hlib, SUCCESS]

variable [Field K] [LinearOrder K] [IsStrictOrderedRing K]

/-- C59: in exact arithmetic `get_residual_l2(A, x, y)` is the Euclidean norm of `y - A x`, for every
square matrix. -/
theorem C59_residual {N : Num α} {ι : K → α} {sq : K → K} (h : Exact N ι sq) (A : Mat α)
    (M : Matrix (Fin n) (Fin n) K) (hA : IsMat A ι M) (x y : Fin n → K) :
    residualL2 N A (vec ι x) (vec ι y) = .ok (ι (norm2 sq (y - M *ᵥ x))) := by
  simp [residualL2, hA.row, hA.col, vec_length, cassert, hA.mv, Res.ok_bind, vsub_vec h, nrm2_vec h]

/-- C59 is violated for matrices that are not square: `get_residual_l2` aborts although `A x` and `y`
have the same size. -/
theorem C59_rectangular_violated (N : Num α) (A : Mat α) (hA : A.row ≠ A.col) (x y : List α)
    (hx : x.length = A.col) : ∃ msg, residualL2 N A x y = .abort msg := by
  refine ⟨"A.get_row() == y.size()", ?_⟩
  have : ¬ A.row = x.length := by rw [hx]; exact hA
  simp [residualL2, this, cassert]

example : residualL2 (fieldNum (id : ℚ → ℚ)) (ofCrs [1, 0] [0, 1] sorA) [1, 1] [5, 6] = .ok 1 := by
  decide +kernel

end Verif.Solver
