import Verif.Core.Par
import Verif.Spec.LinAlg
import Verif.Model.Hash

/-!
Model of `times`, `times_row`, `times_col`, `adds`, `adds_row`, `adds_col` on dense and CRS matrices,
CPU side. `op` is `*` (times) or `+` (adds). The source `A` and the destination `C` may be the same
object (`same = true`): then loads see what earlier iterations stored. `order` is the schedule of the
`omp parallel for`.
-/

namespace Verif

variable {α : Type}

/-- the buffer a load from `A` sees while `b` is the destination buffer -/
def srcBuf (same : Bool) (a b : List α) : List α := if same then b else a

namespace Dense

/-- `util::is_same_structure(Dense, Dense)`: src/utils/compare/compare_dense.cpp:79-96 -/
def sameShape (A C : Dense α) : Bool := decide (A.rowN = C.rowN ∧ A.colN = C.colN)

/-- `times_core(alpha, A, C)` / `adds_core`: src/blas/matrix/times/dense_times.hpp:9-21,
src/blas/matrix/adds/dense_adds.hpp:9-21; the loop is `vmul/vadd(N, a, alpha, y)`:
src/internal/arithmetic/double_arithmetic.cpp -/
def scaleS (op : α → α → α) (same : Bool) (order : List Nat) (alpha : α) (A C : Dense α) :
    Res (Dense α) := do
  cassert (A.sameShape C)
  let v ← forList order (fun k b => do
    let u ← rd (srcBuf same A.val b) (A.first + k)
    wr b (C.first + k) (op u alpha)) C.val
  .ok { C with val := v }

/-- `times_row_core(A, x, C)`: dense_times.hpp:24-61; `adds_row_core`: dense_adds.hpp:24-61 -/
def scaleRows (op : α → α → α) (same : Bool) (order : List Nat) (A : Dense α) (x : Win α)
    (C : Dense α) : Res (Dense α) := do
  cassert (A.sameShape C)
  cassert (decide (A.colN = x.size))
  let v ← forList order (fun i b => forN A.colN (fun j b => do
    let u ← rd (srcBuf same A.val b) (A.first + (i * A.colN + j))
    let y ← rd x.buf (x.off + j)
    wr b (C.first + (i * A.colN + j)) (op u y)) b) C.val
  .ok { C with val := v }

/-- `times_col_core(A, x, C)`: dense_times.hpp:64-101; `adds_col_core`: dense_adds.hpp:64-101 -/
def scaleCols (op : α → α → α) (same : Bool) (order : List Nat) (A : Dense α) (x : Win α)
    (C : Dense α) : Res (Dense α) := do
  cassert (A.sameShape C)
  cassert (decide (A.rowN = x.size))
  let v ← forList order (fun i b => forN A.colN (fun j b => do
    let u ← rd (srcBuf same A.val b) (A.first + (i * A.colN + j))
    let y ← rd x.buf (x.off + i)
    wr b (C.first + (i * A.colN + j)) (op u y)) b) C.val
  .ok { C with val := v }

/-- `times_row_core(A, num, x, C)`: src/blas/matrix/times/dense_line_times.hpp:9-43;
`adds_row_core`: src/blas/matrix/adds/dense_line_adds.hpp:9-43. The bound is `get_row() >= num`. -/
def scaleRow (op : α → α → α) (same : Bool) (order : List Nat) (A : Dense α) (num : Nat) (x : Win α)
    (C : Dense α) : Res (Dense α) := do
  cassert (A.sameShape C)
  cassert (decide (A.colN = x.size))
  cassert (decide (A.rowN ≥ num))
  let v ← forList order (fun j b => do
    let u ← rd (srcBuf same A.val b) (A.first + (num * A.colN + j))
    let y ← rd x.buf (x.off + j)
    wr b (C.first + (num * A.colN + j)) (op u y)) C.val
  .ok { C with val := v }

/-- `times_col_core(A, num, x, C)`: dense_line_times.hpp:46-81; `adds_col_core`:
dense_line_adds.hpp:46-81. The bound is `get_col() >= num`. -/
def scaleCol (op : α → α → α) (same : Bool) (order : List Nat) (A : Dense α) (num : Nat) (x : Win α)
    (C : Dense α) : Res (Dense α) := do
  cassert (A.sameShape C)
  cassert (decide (A.rowN = x.size))
  cassert (decide (A.colN ≥ num))
  let v ← forList order (fun i b => do
    let u ← rd (srcBuf same A.val b) (A.first + (i * A.colN + num))
    let y ← rd x.buf (x.off + i)
    wr b (C.first + (i * A.colN + num)) (op u y)) C.val
  .ok { C with val := v }

end Dense

namespace HCrs

/-- `times_core(alpha, A, C)` for CRS: src/blas/matrix/times/crs_times.hpp:9-22 -/
def scaleS (op : α → α → α) (same : Bool) (order : List Nat) (alpha : α) (A C : HCrs α) :
    Res (HCrs α) := do
  cassert (A.isSameStructure C)
  let v ← forList order (fun k b => do
    let u ← rd (srcBuf same A.mat.val b) k
    wr b k (op u alpha)) C.mat.val
  .ok { C with mat := { C.mat with val := v } }

/-- `times_row_core(A, x, C)` for CRS: crs_times.hpp:25-63 -/
def scaleRows (op : α → α → α) (same : Bool) (order : List Nat) (A : HCrs α) (x : Win α)
    (C : HCrs α) : Res (HCrs α) := do
  cassert (A.isSameStructure C)
  cassert (decide (A.mat.colN = x.size))
  let v ← forList order (fun i b => do
    let p ← rd A.mat.rowPtr i
    let q ← rd A.mat.rowPtr (i + 1)
    forRange p q (fun j b => do
      let u ← rd (srcBuf same A.mat.val b) j
      let c ← rd A.mat.colInd j
      let y ← rd x.buf (x.off + c)
      wr b j (op u y)) b) C.mat.val
  .ok { C with mat := { C.mat with val := v } }

/-- `times_col_core(A, x, C)` for CRS: crs_times.hpp:66-103 -/
def scaleCols (op : α → α → α) (same : Bool) (order : List Nat) (A : HCrs α) (x : Win α)
    (C : HCrs α) : Res (HCrs α) := do
  cassert (A.isSameStructure C)
  cassert (decide (A.mat.rowN = x.size))
  let v ← forList order (fun i b => do
    let p ← rd A.mat.rowPtr i
    let q ← rd A.mat.rowPtr (i + 1)
    forRange p q (fun j b => do
      let u ← rd (srcBuf same A.mat.val b) j
      let y ← rd x.buf (x.off + i)
      wr b j (op u y)) b) C.mat.val
  .ok { C with mat := { C.mat with val := v } }

/-- `times_row_core(A, num, x, C)` for CRS: src/blas/matrix/times/crs_line_times.hpp:9-46; `order` is
the schedule of the loop over the stored elements of the row (their offsets in it) -/
def scaleRow (op : α → α → α) (same : Bool) (order : List Nat) (A : HCrs α) (num : Nat) (x : Win α)
    (C : HCrs α) : Res (HCrs α) := do
  cassert (A.isSameStructure C)
  cassert (decide (A.mat.colN = x.size))
  cassert (decide (A.mat.rowN ≥ num))
  let p ← rd A.mat.rowPtr num
  let _ ← rd A.mat.rowPtr (num + 1)
  let v ← forList order (fun t b => do
    let u ← rd (srcBuf same A.mat.val b) (p + t)
    let c ← rd A.mat.colInd (p + t)
    let y ← rd x.buf (x.off + c)
    wr b (p + t) (op u y)) C.mat.val
  .ok { C with mat := { C.mat with val := v } }

/-- `times_col_core(A, num, x, C)` for CRS: crs_line_times.hpp:49-94 -/
def scaleCol (op : α → α → α) (same : Bool) (order : List Nat) (A : HCrs α) (num : Nat) (x : Win α)
    (C : HCrs α) : Res (HCrs α) := do
  cassert (A.isSameStructure C)
  cassert (decide (A.mat.rowN = x.size))
  cassert (decide (A.mat.colN ≥ num))
  let v ← forList order (fun i b => do
    let p ← rd A.mat.rowPtr i
    let q ← rd A.mat.rowPtr (i + 1)
    forRange p q (fun j b => do
      let c ← rd A.mat.colInd j
      if c = num then do
        let u ← rd (srcBuf same A.mat.val b) j
        let y ← rd x.buf (x.off + i)
        wr b j (op u y)
      else .ok b) b) C.mat.val
  .ok { C with mat := { C.mat with val := v } }

end HCrs

end Verif
