import Verif.Model.Solver
import Verif.Model.Matvec
import Verif.Model.Getvec

/-! The matrix argument of a solver made from the models of the matrix classes. -/

namespace Verif.Solver

variable {α : Type} [Zero α] [One α] [Add α] [Mul α]

/-- A CRS matrix as solver argument: `blas::matvec(A, x, q)` into a fresh vector of `A.get_row()`
elements and `A.diag(d)` into a fresh vector (cg.cpp:27-30, 47; jacobi.cpp:100, 107). `order`, `zo`:
schedules of the parallel loops. -/
def ofCrs (order zo : List Nat) (A : Crs α) : Mat α where
  row := A.rowN
  col := A.colN
  mv := fun x => do
    let y ← A.matvec order ⟨x, 0, x.length⟩ ⟨List.replicate A.rowN 0, 0, A.rowN⟩
    .ok y.buf
  diag := do
    let d ← A.diag zo order ⟨List.replicate A.rowN 0, 0, A.rowN⟩
    .ok d.buf

/-- A Dense matrix as solver argument; `matvec(A, x, y)` calls the core with 1.0 and 0.0
(src/blas/matrix/matvec/matvec_blas.cpp). -/
def ofDense (order : List Nat) (A : Dense α) : Mat α where
  row := A.rowN
  col := A.colN
  mv := fun x => do
    let y ← A.matvecCore 1 ⟨x, 0, x.length⟩ 0 ⟨List.replicate A.rowN 0, 0, A.rowN⟩ false
    .ok y.buf
  diag := do
    let d ← A.diag order ⟨List.replicate A.rowN 0, 0, A.rowN⟩
    .ok d.buf

end Verif.Solver
