import Verif.Model.Crs

/-!
Model of `monolish::matrix::Dense` (row-major dense matrix), CPU side: constructors, `resize`,
`at`, `insert`, conversions from and to COO, transpose.

Simplifications: `gpu_status` false. `#pragma omp parallel for` loops over independent elements are
written as sequential loops here; that their result does not depend on the schedule is C24.
The comparison `!= 0` of the code is equality with `0` in the element type.
-/

namespace Verif

/-- `class Dense<Float>`: include/monolish/common/monolish_dense.hpp:32-78. `val` is the whole
shared allocation (`alloc_nnz` elements), `first` the offset at which this matrix starts. -/
structure Dense (α : Type) where
  rowN : Nat
  colN : Nat
  val : List α
  nnz : Nat
  alloc : Nat
  first : Nat
  created : Bool
  deriving Repr, DecidableEq

namespace Dense

variable {α : Type}

/-- `Dense()`: monolish_dense.hpp:78 (`rowN`, `colN` uninitialised in the code, 0 here). -/
def empty : Dense α :=
  { rowN := 0, colN := 0, val := [], nnz := 0, alloc := 0, first := 0, created := true }

/-- `Dense::resize(N, Val)`: monolish_dense.hpp:632-659. Note that the reallocating branch copies
from `data()`, not `begin()`. -/
def resize (A : Dense α) (N : Nat) (v : α) : Res (Dense α) :=
  if A.first + N < A.alloc then do
    let val' ← forRange A.nnz N (fun i b => wr b (A.first + i) v) A.val
    .ok { A with val := val', nnz := N }
  else if A.created then do
    let val' ← reallocCopy A.val A.nnz N v
    .ok { A with val := val', alloc := N, nnz := N, first := 0 }
  else .throw "Error, not create vector cant use resize"

/-- `Dense(M, N)`: src/utils/dense_constructor.cpp:12-21. -/
def new [Zero α] (M N : Nat) : Res (Dense α) :=
  resize { (empty : Dense α) with rowN := M, colN := N } (M * N) 0

/-- `Dense::at(i)`: src/utils/at_insert_sort/at_insert_sort_dense.cpp:9-18. -/
def at1 (A : Dense α) (i : Nat) : Res α := do
  cassert (decide (i < A.nnz))
  cassert (decide (A.first + i < A.alloc))
  rd A.val (A.first + i)

/-- `Dense::at(i, j)`: at_insert_sort_dense.cpp:22-31. -/
def at_ (A : Dense α) (i j : Nat) : Res α := do
  cassert (decide (i < A.rowN))
  cassert (decide (j < A.colN))
  at1 A (A.colN * i + j)

/-- `Dense::insert(i, Val)`: at_insert_sort_dense.cpp:36-45. -/
def insert1 (A : Dense α) (i : Nat) (v : α) : Res (Dense α) := do
  cassert (decide (i < A.nnz))
  cassert (decide (A.first + i < A.alloc))
  let val' ← wr A.val (A.first + i) v
  .ok { A with val := val' }

/-- `Dense::insert(i, j, Val)`: at_insert_sort_dense.cpp:49-59. -/
def insert (A : Dense α) (i j : Nat) (v : α) : Res (Dense α) := do
  cassert (decide (i < A.rowN))
  cassert (decide (j < A.colN))
  insert1 A (A.colN * i + j) v

/-- `Dense::convert(const COO &)` on a target `A`: src/utils/convert/convert_dense.cpp:9-26.
Note that the zero fill goes through `data()`, the insertions through `data()[first + ..]`. -/
def convertCoo [Zero α] (A : Dense α) (coo : Coo α) : Res (Dense α) := do
  let A ← resize { A with rowN := coo.rowN, colN := coo.colN, created := true }
    (coo.rowN * coo.colN) 0
  let z ← forN A.nnz (fun i b => wr b i 0) A.val
  forN coo.nnz (fun k (A : Dense α) => do
    let r ← rd coo.rowIdx k
    let c ← rd coo.colIdx k
    let v ← rd coo.val k
    A.insert r c v) { A with val := z }

/-- `Dense::convert(const Dense &)` on a target `A`: convert_dense.cpp:30-49. Both sides go
through `data()`. -/
def convertDense [Zero α] (A mat : Dense α) : Res (Dense α) := do
  let A ← resize { A with created := true } mat.nnz 0
  let v ← vcopy A.nnz mat.val A.val
  .ok { A with rowN := mat.rowN, colN := mat.colN, val := v }

/-- `Dense(const Dense &)`: dense_constructor.cpp:180-199: copies `begin()`, result has offset 0. -/
def copy [Zero α] (mat : Dense α) : Res (Dense α) := do
  let A ← resize (empty : Dense α) mat.nnz 0
  let v ← vcopy A.nnz (mat.val.drop mat.first) A.val
  .ok { A with rowN := mat.rowN, colN := mat.colN, first := 0, val := v }

/-- element exchange in the square branch of `Dense::transpose`:
src/utils/transpose/transpose_dense.cpp:15-20 -/
def trSwap (M i j : Nat) (b : List α) : Res (List α) := Coo.swapBuf b (i * M + j) (j * M + i)

/-- `Dense::transpose()`: transpose_dense.cpp:9-34. -/
def transpose [Zero α] (A : Dense α) : Res (Dense α) :=
  if A.rowN = A.colN then do
    let v ← forN A.rowN (fun i b => forRange (i + 1) A.rowN (fun j b => trSwap A.rowN i j b) b) A.val
    .ok { A with val := v }
  else do
    let B ← (new A.colN A.rowN : Res (Dense α))
    let bv ← forN (A.rowN * A.colN) (fun n b => do
      let x ← rd A.val (A.colN * (n % A.rowN) + n / A.rowN)
      wr b n x) B.val
    let v ← vcopy (A.rowN * A.colN) bv A.val
    .ok { A with val := v, rowN := A.colN, colN := A.rowN }

/-- `Dense::transpose(const Dense &B)` on a target `A`: transpose_dense.cpp:39-61 (CPU branch).
`B` is a different object. -/
def transposeFrom [Zero α] (A B : Dense α) : Res (Dense α) := do
  let A ← resize { A with rowN := B.colN, colN := B.rowN, created := true } (B.rowN * B.colN) 0
  let v ← forN (A.rowN * A.colN) (fun n b => do
    let x ← rd B.val (A.rowN * (n % A.colN) + n / A.colN)
    wr b n x) A.val
  .ok { A with val := v }

end Dense

namespace Coo

variable {α : Type}

/-- loop body of `COO::convert(const Dense &)`: src/utils/convert/convert_coo.cpp:47-55; the state
is `(row_index, col_index, val, nz)` -/
def fromDenseElem [Zero α] [DecidableEq α] (D : Dense α) (i j : Nat)
    (s : List Nat × List Nat × List α × Nat) : Res (List Nat × List Nat × List α × Nat) := do
  let x ← D.at_ i j
  if x ≠ 0 then do
    let y ← D.at_ i j
    let v ← wr s.2.2.1 s.2.2.2 y
    .ok (s.1 ++ [i], s.2.1 ++ [j], v, s.2.2.2 + 1)
  else .ok s

/-- `COO::convert(const Dense &)` on a target `A`: convert_coo.cpp:34-59. -/
def convertDense [Zero α] [DecidableEq α] (A : Coo α) (D : Dense α) : Res (Coo α) := do
  let A ← resize { A with rowN := D.rowN, colN := D.colN, created := true } (D.rowN * D.colN) 0
  let (r, c, v, nz) ← forN D.rowN (fun i s => forN D.colN (fun j s => fromDenseElem D i j s) s)
    (([] : List Nat), ([] : List Nat), A.val, 0)
  resize { A with rowIdx := r, colIdx := c, val := v } nz 0

/-- `COO::transpose()`: src/utils/transpose/transpose_coo.cpp:9-17. -/
def transpose (A : Coo α) : Coo α :=
  { A with rowN := A.colN, colN := A.rowN, rowIdx := A.colIdx, colIdx := A.rowIdx }

/-- `COO::transpose(const COO &B)` on a target `A` (a different object): transpose_coo.cpp:21-42;
`get_val_ptr()` (monolish_coo.hpp) copies the first `nnz` values. -/
def transposeFrom [Zero α] (A B : Coo α) : Res (Coo α) := do
  let val ← readN B.val B.nnz
  let A ← resize { A with rowN := B.colN, colN := B.rowN, rowIdx := B.colIdx, colIdx := B.rowIdx,
                          created := true } val.length 0
  let v ← vcopy val.length val A.val
  .ok { A with val := v }

/-- `A.transpose(A)`: the same code with `B` being the object itself, so that every assignment is
visible to the next one: transpose_coo.cpp:21-42 (`set_col(B.get_row())` reads the row number just
set, `col_index = B.get_row_ptr()` copies the row index just overwritten). -/
def transposeSelf [Zero α] (A : Coo α) : Res (Coo α) := do
  let A := { A with rowN := A.colN }
  let A := { A with colN := A.rowN }
  let A := { A with rowIdx := A.colIdx }
  let A := { A with colIdx := A.rowIdx }
  let val ← readN A.val A.nnz
  let A ← resize { A with created := true } val.length 0
  let v ← vcopy val.length val A.val
  .ok { A with val := v }

end Coo
end Verif
