import Verif.Model.Lapack
import Verif.Model.Gen
import Verif.Model.Solver
import Verif.Model.Print
import Verif.Model.Prog

/-!
The eigenvalue example `examples/eigen/DC/DC.cpp`: generate a tridiagonal matrix, convert it to Dense, call the
divide-and-conquer solver, print the eigenvalues; and the two dense instances of
`examples/cpu_only/templated_solver/solver.cpp`: read a Matrix Market file, convert it to Dense, solve with LU or
with BiCGSTAB, print the solution.
-/

namespace Verif.Prog

variable {α : Type} [Ring α]

/-- examples/eigen/DC/DC.cpp:5-33 for the size `n` and the matrix values `a`, `b` (10, 10.0 and -1.0 there); the
outcome is the exit code and the printed lines -/
def dcExample (L : Lapack.Lib α) (n : Nat) (a b : α) : Res (Int × List (Line α)) := do
  let coo ← Gen.tridiagonal n a b
  let A ← Dense.convertCoo Dense.empty coo
  let lambda ← Vec.new n
  let r ← Lapack.DC.standard L 0 A lambda
  if Solver.solverCheck r.1 then .ok (1, []) else do
  let out ← r.2.2.print
  .ok (0, out)

/-- a `vector` object holding the numbers `l`: vector_constructor.cpp:97-114 (`vector(N, min, max, seed)`) -/
def vecOf (l : List α) : Vec α :=
  { val := l
    nnz := l.length
    alloc := l.length
    first := 0
    created := true }

/-- examples/cpu_only/templated_solver/solver.cpp:7-43, instance `Dense<double>`, `LU`, `none` (lines 70-76): the
preconditioner and the options are stored but not read by `LU::solve`. The outcome is the printed text. -/
def luExample (L : Lapack.Lib α) (K : Mm.Codec α) (r c : Nat) (text : List Char) (x b : Nat → α) :
    Res (List (Line α)) := do
  let coo ← Mm.input K (blank r c) text
  let A ← Dense.convertCoo Dense.empty coo
  let s ← Lapack.LU.solve L A (vecOf (fill A.rowN x)) (vecOf (fill A.rowN b))
  if Solver.solverCheck s.1 then .ok [] else s.2.2.print

/-- solver.cpp:7-43, instance `Dense<float>`, `BiCGSTAB`, `none` (lines 61-67) -/
def bicgExample (N : Solver.Num α) (K : Mm.Codec α) (r c : Nat) (tol omega resid0 : α) (order : Nat → List Nat)
    (text : List Char) (x b : Nat → α) : Res (List (Line α)) := do
  let coo ← Mm.input K (blank r c) text
  let A ← Dense.convertCoo Dense.empty coo
  let o ← Solver.BiCG.solve N { tol := tol, maxiter := A.rowN, omega := omega, prevResid := resid0 }
    (Solver.ofDense (order A.rowN) A) Solver.noPrecond (fill A.rowN x) (fill A.rowN b)
  if Solver.solverCheck o.status then .ok [] else (vecOf o.x).print

end Verif.Prog
