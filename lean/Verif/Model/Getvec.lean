import Verif.Core.Par
import Verif.Spec.LinAlg
import Verif.Model.Dense

/-!
Model of `diag`, `row`, `col` of the matrix classes (extraction of a line into a vector or view) and of
`diag_add/sub/mul/div`, CPU side.

The destination is a window of a buffer: for a `vector` the offset is 0 (or that of an alias), for a
`view1D` it is the view's offset. `vec[i]` adds the offset, `vec.data()[i]` does not.
-/

namespace Verif

variable {α : Type}

/-- the two loops of `COO::diag/row/col`: zero fill of the vector, then one pass over the stored
triples; `sel` says to which element a triple is assigned:
src/utils/getvec/coo_getvec.cpp:14-23, 110-118, 205-213 -/
def Coo.extract [Zero α] (A : Coo α) (sel : Nat → Nat → Option Nat) (v : Win α) : Res (Win α) := do
  let b ← forN v.size (fun i b => wr b (v.off + i) 0) v.buf
  let b ← forN A.nnz (fun k b => do
    let r ← rd A.rowIdx k
    let c ← rd A.colIdx k
    match sel r c with
    | some t => do
      let x ← rd A.val k
      wr b (v.off + t) x
    | none => .ok b) b
  .ok { v with buf := b }

/-- `COO::diag(vec)`: coo_getvec.cpp:8-26 (views: 30-98) -/
def Coo.diag [Zero α] (A : Coo α) (v : Win α) : Res (Win α) := do
  cassert (decide ((if A.rowN > A.colN then A.colN else A.rowN) = v.size))
  A.extract (fun r c => if r = c then some r else none) v

/-- `COO::row(r, vec)`: coo_getvec.cpp:104-121 (views: 127-194) -/
def Coo.row [Zero α] (A : Coo α) (r : Nat) (v : Win α) : Res (Win α) := do
  cassert (decide (A.colN = v.size))
  A.extract (fun r' c => if r' = r then some c else none) v

/-- `COO::col(c, vec)`: coo_getvec.cpp:199-215 (views: 222-290) -/
def Coo.col [Zero α] (A : Coo α) (c : Nat) (v : Win α) : Res (Win α) := do
  cassert (decide (A.rowN = v.size))
  A.extract (fun r c' => if c' = c then some r else none) v

/-- the two parallel loops of `CRS::diag` and `CRS::col`: `vecd[i] = 0`, then for each row the stored
elements in column `want i` are assigned to `vecd[i]`; `vecd` is `vec.data()`:
src/utils/getvec/crs_getvec.cpp:38-52, 444-455. `zo`, `order` are the schedules. -/
def Crs.pick [Zero α] (A : Crs α) (zo order : List Nat) (want : Nat → Nat) (v : Win α) :
    Res (Win α) := do
  let b ← forList zo (fun i b => wr b i 0) v.buf
  let b ← forList order (fun i b => do
    let p ← rd A.rowPtr i
    let q ← rd A.rowPtr (i + 1)
    forRange p q (fun j b => do
      let c ← rd A.colInd j
      if want i = c then do
        let x ← rd A.val j
        wr b i x
      else .ok b) b) b
  .ok { v with buf := b }

/-- `CRS::diag(vec)`: crs_getvec.cpp:8-55 (views: 59-219) -/
def Crs.diag [Zero α] (A : Crs α) (zo order : List Nat) (v : Win α) : Res (Win α) := do
  cassert (decide ((if A.rowN < A.colN then A.rowN else A.colN) = v.size))
  A.pick zo order (fun i => i) v

/-- `CRS::col(c, vec)`: crs_getvec.cpp:412-459 (views: 466-630); the length is `get_col()` -/
def Crs.col [Zero α] (A : Crs α) (zo order : List Nat) (c : Nat) (v : Win α) : Res (Win α) := do
  cassert (decide (A.colN = v.size))
  A.pick zo order (fun _ => c) v

/-- `CRS::row(r, vec)`: crs_getvec.cpp:221-261 (views: 268-410); the length is `get_row()`. The second
loop runs over the stored elements of the row in parallel: `order` is a permutation of their
offsets. -/
def Crs.row [Zero α] (A : Crs α) (zo order : List Nat) (r : Nat) (v : Win α) : Res (Win α) := do
  cassert (decide (A.rowN = v.size))
  let b ← forList zo (fun i b => wr b i 0) v.buf
  let p ← rd A.rowPtr r
  let b ← forList order (fun t b => do
    let c ← rd A.colInd (p + t)
    let x ← rd A.val (p + t)
    wr b c x) b
  .ok { v with buf := b }

/-- `Dense::diag(vec)`: src/utils/getvec/dense_getvec.cpp:8-40 (views: 43-155); both `data()` without
offset -/
def Dense.diag (A : Dense α) (order : List Nat) (v : Win α) : Res (Win α) := do
  cassert (decide (min A.rowN A.colN = v.size))
  let b ← forList order (fun i b => do
    let x ← rd A.val (A.colN * i + i)
    wr b i x) v.buf
  .ok { v with buf := b }

/-- `Dense::row(r, vec)`: dense_getvec.cpp:157-187 (views: 194-306) -/
def Dense.row (A : Dense α) (order : List Nat) (r : Nat) (v : Win α) : Res (Win α) := do
  cassert (decide (A.colN = v.size))
  let b ← forList order (fun i b => do
    let x ← rd A.val (r * A.colN + i)
    wr b i x) v.buf
  .ok { v with buf := b }

/-- `Dense::col(c, vec)`: dense_getvec.cpp:308-339 (views: 346-462) -/
def Dense.col (A : Dense α) (order : List Nat) (c : Nat) (v : Win α) : Res (Win α) := do
  cassert (decide (A.rowN = v.size))
  let b ← forList order (fun i b => do
    let x ← rd A.val (i * A.colN + c)
    wr b i x) v.buf
  .ok { v with buf := b }

/-- `Dense_diag_{add,sub,mul,div}_core(MAT, alpha)`: src/blas/matrix/diag_op/dense_diag_op.hpp:8-35,
71-98, 133-160, 195-222; `op` is the arithmetic operator, `vald` is `MAT.data()` without offset -/
def Dense.diagOpS (op : α → α → α) (A : Dense α) (order : List Nat) (alpha : α) : Res (Dense α) := do
  let v ← forList order (fun i b => do
    let x ← rd b (A.colN * i + i)
    wr b (A.colN * i + i) (op x alpha)) A.val
  .ok { A with val := v }

/-- iterations of the loop above: `Len` -/
def Dense.diagLen (A : Dense α) : Nat := if A.rowN < A.colN then A.rowN else A.colN

/-- `Dense_diag_*_core(MAT, size, vecd)`: dense_diag_op.hpp:38-67, 101-130, 163-192, 225-254 -/
def Dense.diagOpV (op : α → α → α) (A : Dense α) (order : List Nat) (d : Win α) : Res (Dense α) := do
  cassert (decide (A.diagLen = d.size))
  let v ← forList order (fun i b => do
    let x ← rd b (A.colN * i + i)
    let y ← rd d.buf (d.off + i)
    wr b (A.colN * i + i) (op x y)) A.val
  .ok { A with val := v }

/-- `CRS_diag_*_core(MAT, alpha)`: src/blas/matrix/diag_op/crs_diag_op.hpp:8-43, 88-122, 167-201,
246-280; all rows -/
def Crs.diagOpS (op : α → α → α) (A : Crs α) (order : List Nat) (alpha : α) : Res (Crs α) := do
  let v ← forList order (fun i b => do
    let p ← rd A.rowPtr i
    let q ← rd A.rowPtr (i + 1)
    forRange p q (fun j b => do
      let c ← rd A.colInd j
      if i = c then do
        let x ← rd b j
        wr b j (op x alpha)
      else .ok b) b) A.val
  .ok { A with val := v }

/-- `CRS_diag_*_core(MAT, size, vecd)`: crs_diag_op.hpp:46-84, 126-163, 205-242, 284-321; the first
`Len` rows -/
def Crs.diagOpV (op : α → α → α) (A : Crs α) (order : List Nat) (d : Win α) : Res (Crs α) := do
  cassert (decide ((if A.rowN < A.colN then A.rowN else A.colN) = d.size))
  let v ← forList order (fun i b => do
    let p ← rd A.rowPtr i
    let q ← rd A.rowPtr (i + 1)
    forRange p q (fun j b => do
      let c ← rd A.colInd j
      if i = c then do
        let x ← rd b j
        let y ← rd d.buf (d.off + i)
        wr b j (op x y)
      else .ok b) b) A.val
  .ok { A with val := v }

end Verif
