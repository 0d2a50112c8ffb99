import Verif.Model.Compare

/-!
Model of the COO constructors from arrays, the copy constructors, `operator=` and `set_ptr`, host side:
src/utils/coo_constructor.cpp, src/utils/copy/copy_coo.cpp.

Pointer arguments are lists; reading past them is undefined behaviour. Sizes and indices are natural
numbers.
-/

namespace Verif.Coo

variable {α : Type}

/-- `COO(M, N, NNZ, row, col, value)`: src/utils/coo_constructor.cpp:13-31 -/
def ofArrays [Zero α] (M N NNZ : Nat) (row col : List Nat) (value : List α) : Res (Coo α) := do
  let A ← resize { (new M N : Coo α) with rowIdx := stdResize [] NNZ 0, colIdx := stdResize [] NNZ 0 } NNZ 0
  let r ← vcopy NNZ row A.rowIdx
  let c ← vcopy NNZ col A.colIdx
  let v ← vcopy NNZ value A.val
  .ok { A with rowIdx := r, colIdx := c, val := v }

/-- the loop of `COO(M, N, NNZ, row, col, value, origin)`: coo_constructor.cpp:58-62. Simplification: an
index below `origin` becomes negative, which no use of the matrix survives; it is a failure here. -/
def shiftDown (l : List Nat) (NNZ origin : Nat) : Res (List Nat) :=
  forN NNZ (fun i l => do
    let x ← rd l i
    if x < origin then .ub "negative index" else wr l i (x - origin)) l

/-- `COO(M, N, NNZ, row, col, value, origin)`: coo_constructor.cpp:39-65 -/
def ofArraysOrigin [Zero α] (M N NNZ : Nat) (row col : List Nat) (value : List α) (origin : Nat) :
    Res (Coo α) := do
  let A ← ofArrays M N NNZ row col value
  let r ← shiftDown A.rowIdx NNZ origin
  let c ← shiftDown A.colIdx NNZ origin
  .ok { A with rowIdx := r, colIdx := c }

/-- `COO(const COO &)`: coo_constructor.cpp:74-97 -/
def copy [Zero α] (B : Coo α) : Res (Coo α) := ofArrays B.rowN B.colN B.nnz B.rowIdx B.colIdx B.val

/-- `COO(const COO &, value)`: coo_constructor.cpp:102-127; `vbroadcast` writes `value` to the first `nnz`
elements -/
def copyWith [Zero α] (B : Coo α) (value : α) : Res (Coo α) :=
  ofArrays B.rowN B.colN B.nnz B.rowIdx B.colIdx (List.replicate B.nnz value)

/-- `A.set_ptr(rN, cN, r, c, vsize, v)`: src/utils/copy/copy_coo.cpp:29-42 -/
def setPtr [Zero α] (A : Coo α) (rN cN : Nat) (r c : List Nat) (vsize : Nat) (v : List α) : Res (Coo α) := do
  let A ← resize { A with colIdx := c, rowIdx := r } vsize 0
  let w ← vcopy A.nnz v A.val
  .ok { A with val := w, rowN := rN, colN := cN }

/-- `A.set_ptr(rN, cN, r, c, vsize, v)` with one value: copy_coo.cpp:53-66 -/
def setPtrConst [Zero α] (A : Coo α) (rN cN : Nat) (r c : List Nat) (vsize : Nat) (v : α) : Res (Coo α) :=
  setPtr A rN cN r c vsize (List.replicate vsize v)

/-- `A = B`: copy_coo.cpp:10-24 -/
def assign (A B : Coo α) : Res (Coo α) := do
  cassert (isSameSize A.rowN A.colN B.rowN B.colN)
  let b ← isSameStructure A B
  cassert b
  let v ← vcopy A.nnz B.val A.val
  .ok { A with val := v }

end Verif.Coo
