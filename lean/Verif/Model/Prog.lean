import Verif.Model.Mm
import Verif.Model.Crs
import Verif.Model.Gen
import Verif.Model.Solver
import Verif.Model.SolverMat
import Verif.Model.Sor

/-!
Whole programs: the example `examples/cpu_only/cg/cg.cpp` (read a Matrix Market file, convert to CRS, solve
with Jacobi-preconditioned CG), the same program with the `sort()` the comment in it asks for after editing,
and the set-up of the benchmark programs `benchmark/equation/CG.cpp` and `SOR.cpp` (generate a matrix, convert
to CRS, solve) with the solver options a user would set (the benchmarks themselves ask for a fixed number of
iterations with tolerance -100).

The two vectors the programs draw or fill are parameters (`x`, `b`: any numbers), and so are the schedules of
the parallel loops. `set_print_rhistory` and the logger, off in the programs, are left out; printing `x`
(`x.print_all()`) is left out: the outcome holds the vector.
-/

namespace Verif.Prog

open Verif.Solver

variable {α : Type} [Zero α] [One α] [Add α] [Mul α]

/-- a `vector<double>` of length `n` holding the first `n` numbers of a stream:
`vector(A.get_row(), 1.0, 2.0, seed)`, cg.cpp:24-25 -/
def fill (n : Nat) (g : Nat → α) : List α := List.ofFn fun i : Fin n => g i

/-- the object `COO(filename)` starts from: monolish_coo.hpp:451 with the member initialisers 67-101 (the
dimensions are not initialised there; `input_mm` sets them before use) -/
def blank (r c : Nat) : Coo α :=
  { rowN := r, colN := c, rowIdx := [], colIdx := [], val := [], nnz := 0, alloc := 0, created := false }

/-- solver options and call: cg.cpp:28-46 (`tol`, `maxiter = A.get_row()`, Jacobi preconditioner, the other
options at their defaults, monolish_solver.hpp) -/
def cgJacobi (N : Num α) (tol omega resid0 : α) (order zo : Nat → List Nat) (A : Crs α) (x b : Nat → α) :
    Res (Out α) :=
  let M := ofCrs (order A.rowN) (zo A.rowN) A
  CG.solve N { tol := tol, maxiter := A.rowN, omega := omega, prevResid := resid0 } M (jacobiPrecond N M)
    (fill A.rowN x) (fill A.rowN b)

/-- examples/cpu_only/cg/cg.cpp:4-52 with the file contents `text` -/
def cgExample (N : Num α) (K : Mm.Codec α) (r c : Nat) (tol omega resid0 : α)
    (order zo : Nat → List Nat) (text : List Char) (x b : Nat → α) : Res (Out α) := do
  let coo ← Mm.input K (blank r c) text
  let A ← Crs.ofCoo coo
  cgJacobi N tol omega resid0 order zo A x b

/-- the same program with `A_COO.sort(false)` before the conversion (cg.cpp:12-13: "Execute A_COO.sort()
after editing the matrix") -/
def cgExampleSorted (N : Num α) (K : Mm.Codec α) (r c : Nat) (tol omega resid0 : α)
    (order zo : Nat → List Nat) (text : List Char) (x b : Nat → α) : Res (Out α) := do
  let coo ← Mm.input K (blank r c) text
  let coo ← coo.sort false
  let A ← Crs.ofCoo coo
  cgJacobi N tol omega resid0 order zo A x b

/-- generate, convert, solve with CG: benchmark/equation/CG.cpp:6-26 for a generator `gen` -/
def cgGenerated (N : Num α) (gen : Res (Coo α)) (tol omega resid0 : α)
    (order zo : Nat → List Nat) (x b : Nat → α) : Res (Out α) := do
  let coo ← gen
  let A ← Crs.ofCoo coo
  cgJacobi N tol omega resid0 order zo A x b

/-- generate, convert, solve with SOR: benchmark/equation/SOR.cpp:6-26 for a generator `gen`, without
preconditioner -/
def sorGenerated (N : Num α) (gen : Res (Coo α)) (tol omega resid0 : α) (maxiter : Nat)
    (order zo : Nat → List Nat) (x b : Nat → α) : Res (Out α) := do
  let coo ← gen
  let A ← Crs.ofCoo coo
  SOR.solve N { tol := tol, maxiter := maxiter, omega := omega, prevResid := resid0 }
    (ofCrs (order A.rowN) (zo A.rowN) A) (crsLower N A) noPrecond (fill A.rowN x) (fill A.rowN b)

end Verif.Prog
