import Verif.Model.TensorDense
import Verif.Model.Scale

/-!
Products and sums of a dense tensor with a vector along its lines: `times_row`, `times_col`, `adds_row`,
`adds_col`, for all lines and for one line. The tensor is moved into a matrix that shares its storage and the
functions for dense matrices are called.
-/

namespace Verif

variable {α : Type}

namespace TDense

/-- `times_row_core(A, x, C)`: src/blas/tensor/times/tensor_dense_times.hpp:24-42; `adds_row_core`:
src/blas/tensor/adds/tensor_dense_adds.hpp:23-41; `is_same_structure`:
src/utils/compare/compare_tensor_dense.cpp:82-97 -/
def scaleRows (op : α → α → α) (same : Bool) (order : List Nat) (A : TDense α) (x : Win α) (C : TDense α) :
    Res (TDense α) := do
  cassert (decide (A.shape = C.shape))
  let l ← lastExtent A.shape
  let Am ← A.toDense (-1) l
  cassert (decide (Am.colN = x.size))
  let Cm ← C.toDense Am.rowN Am.colN
  let r ← Dense.scaleRows op same order Am x Cm
  .ok { C with val := r.val }

/-- `times_col_core(A, x, C)`: tensor_dense_times.hpp:45-61; `adds_col_core`: tensor_dense_adds.hpp:44-60 -/
def scaleCols (op : α → α → α) (same : Bool) (order : List Nat) (A : TDense α) (x : Win α) (C : TDense α) :
    Res (TDense α) := do
  cassert (decide (A.shape = C.shape))
  let l ← rd A.shape 0
  let Am ← A.toDense l (-1)
  cassert (decide (Am.rowN = x.size))
  let Cm ← C.toDense Am.rowN Am.colN
  let r ← Dense.scaleCols op same order Am x Cm
  .ok { C with val := r.val }

/-- `times_row_core(A, num, x, C)`: src/blas/tensor/times/tensor_dense_line_times.hpp:9-26; `adds_row_core`:
src/blas/tensor/adds/tensor_dense_line_adds.hpp:9-26 -/
def scaleRow (op : α → α → α) (same : Bool) (order : List Nat) (A : TDense α) (num : Nat) (x : Win α)
    (C : TDense α) : Res (TDense α) := do
  cassert (decide (A.shape = C.shape))
  let l ← lastExtent A.shape
  let Am ← A.toDense (-1) l
  cassert (decide (Am.colN = x.size))
  cassert (decide (Am.rowN ≥ num))
  let Cm ← C.toDense Am.rowN Am.colN
  let r ← Dense.scaleRow op same order Am num x Cm
  .ok { C with val := r.val }

/-- `times_col_core(A, num, x, C)`: tensor_dense_line_times.hpp:29-46; `adds_col_core`:
tensor_dense_line_adds.hpp:29-46 -/
def scaleCol (op : α → α → α) (same : Bool) (order : List Nat) (A : TDense α) (num : Nat) (x : Win α)
    (C : TDense α) : Res (TDense α) := do
  cassert (decide (A.shape = C.shape))
  let l ← rd A.shape 0
  let Am ← A.toDense l (-1)
  cassert (decide (Am.rowN = x.size))
  cassert (decide (Am.colN ≥ num))
  let Cm ← C.toDense Am.rowN Am.colN
  let r ← Dense.scaleCol op same order Am num x Cm
  .ok { C with val := r.val }

end TDense
end Verif
