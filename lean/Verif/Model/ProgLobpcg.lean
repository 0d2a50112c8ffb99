import Verif.Model.Prog
import Verif.Model.ProgEig
import Verif.Model.Print
import Verif.Model.Lobpcg

/-!
The eigenvalue example `examples/eigen/lobpcg/lobpcg.cpp`: generate a tridiagonal matrix, convert it to CRS, call
LOBPCG with the Jacobi preconditioner, print the eigenvalues and the eigenvectors.

The numbers of the matrix are in `K`, the arithmetic of the solver is in `α`, and `ι` is the inclusion (the generator is
modelled over rings, the solver over numbers with infinities and NaNs). The random numbers the program and the solver
draw are parameters: `eigs` (the initial contents of `eigs`) and `rs` (the initial vectors). Since the solver need not
end, its number of passes is bounded by `fuel`; `none` means that the bound was reached.
-/

namespace Verif.Prog

variable {K α : Type} [Ring K] [Zero α] [One α] [Add α] [Mul α]

/-- what the program leaves behind: the exit code, the lines printed for the eigenvalues, and for each eigenvector the
lines printed (the headings are left out) -/
structure Shown (α : Type) where
  code : Int
  values : List (Line α)
  vectors : List (List (Line α))

/-- lobpcg.cpp:10-57: the matrix and the solver call. `set_maxiter(A.get_row())`, the other options at their defaults
(monolish_solver.hpp:33-60, among them random initial vectors) -/
def lobpcgSolve (N : Solver.Num α) (ι : K → α) (L : Lapack.Lib α) (n m : Nat) (a b : K) (tol omega resid0 : α)
    (order zo : Nat → List Nat) (eigs : Nat → α) (rs : List (List α)) (fuel : Nat) :
    Option (Res (Lobpcg.Out α)) :=
  match (do
    let coo ← Gen.tridiagonal n a b
    Crs.ofCoo coo) with
  | .ok A =>
    let M := Solver.ofCrs (order A.rowN) (zo A.rowN)
      { rowN := A.rowN
        colN := A.colN
        rowPtr := A.rowPtr
        colInd := A.colInd
        val := A.val.map ι
        nnz := A.nnz
        alloc := A.alloc
        created := A.created }
    Lobpcg.standard N L { tol := tol, maxiter := A.rowN, omega := omega, prevResid := resid0 } M
      (Solver.jacobiPrecond N M) (fill m eigs) (List.replicate m (List.replicate A.rowN N.zero)) A.rowN (some rs) fuel
  | .throw e => some (.throw e)
  | .abort e => some (.abort e)
  | .ub e => some (.ub e)

/-- lobpcg.cpp:62-76: print `eigs` and, for each `i`, the view `x(eigvecs, i * A.get_col(), size i)`, where the program
passes `(i + 1) * A.get_col()` as `size i` -/
def showPairs (size : Nat → Nat) (n : Nat) (eigs : Vec α) (vecs : List α) : Res (Shown α) := do
  let values ← eigs.print
  let vectors ← forN eigs.nnz (fun i out => do
    let l ← (View1D.ofTarget (i * n) (size i)).print vecs
    .ok (out ++ [l])) []
  .ok { code := 0, values := values, vectors := vectors }

/-- lobpcg.cpp:52-79, with `size i` as third argument of the views -/
def lobpcgWith (size : Nat → Nat) (n : Nat) : Option (Res (Lobpcg.Out α)) → Option (Res (Shown α))
  | some (.ok o) => some (
      if Solver.solverCheck o.status then .ok { code := 1, values := [], vectors := [] }
      else showPairs size n (vecOf o.l) o.x.flatten)
  | some (.throw e) => some (.throw e)
  | some (.abort e) => some (.abort e)
  | some (.ub e) => some (.ub e)
  | none => none

/-- the whole example, lobpcg.cpp:5-79, for `n` rows (10 there), `m` eigenpairs (2 there) and the matrix values
`a`, `b` (10.0 and -1.0 there) -/
def lobpcgExample (N : Solver.Num α) (ι : K → α) (L : Lapack.Lib α) (n m : Nat) (a b : K) (tol omega resid0 : α)
    (order zo : Nat → List Nat) (eigs : Nat → α) (rs : List (List α)) (fuel : Nat) : Option (Res (Shown α)) :=
  lobpcgWith (fun i => (i + 1) * n) n (lobpcgSolve N ι L n m a b tol omega resid0 order zo eigs rs fuel)

/-- the example with the length of a row as the size of the views -/
def lobpcgRepaired (N : Solver.Num α) (ι : K → α) (L : Lapack.Lib α) (n m : Nat) (a b : K) (tol omega resid0 : α)
    (order zo : Nat → List Nat) (eigs : Nat → α) (rs : List (List α)) (fuel : Nat) : Option (Res (Shown α)) :=
  lobpcgWith (fun _ => n) n (lobpcgSolve N ι L n m a b tol omega resid0 order zo eigs rs fuel)

end Verif.Prog
