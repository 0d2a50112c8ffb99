import Verif.Model.CooCopy
import Verif.Model.Hash
import Verif.Model.TensorCoo

/-!
Model of the remaining CRS constructors, `CRS::operator=`, `CRS::set_ptr`, and of the constructors,
`set_ptr` and comparisons of `tensor_COO`, host side.

Pointer arguments are lists; reading past them is undefined behaviour. Sizes and indices are natural
numbers.
-/

namespace Verif

variable {α : Type}

/-- `CRS(M, N, NNZ, rowptr, colind, value, origin)`: src/utils/crs_constructor.cpp:51-74; an index below
`origin` is a failure, as in `Coo.shiftDown` -/
def Crs.ofArraysOrigin [Zero α] (M N NNZ : Nat) (rowptr colind : List Nat) (value : List α) (origin : Nat) :
    Res (Crs α) := do
  let A ← Crs.ofArrays M N NNZ rowptr colind value
  let c ← Coo.shiftDown A.colInd NNZ origin
  .ok { A with colInd := c }

/-- `CRS(M, N, rowptr, colind, value)` with `std::vector` arguments: crs_constructor.cpp:82-99, and with a
`monolish::vector` without offset: 109-142 -/
def Crs.ofVectors [Zero α] (M N : Nat) (rowptr colind : List Nat) (value : List α) : Res (Crs α) :=
  Crs.ofArrays M N value.length rowptr colind value

/-- `A.set_ptr(M, N, rowptr, colind, vsize, value)`: src/utils/copy/copy_crs.cpp:29-46 -/
def Crs.setPtr [Zero α] (A : Crs α) (M N : Nat) (rowptr colind : List Nat) (vsize : Nat)
    (value : List α) : Res (Crs α) := do
  let A ← Crs.resize { A with colInd := colind, rowPtr := rowptr, created := true } vsize 0
  let v ← vcopy A.nnz value A.val
  .ok { A with val := v, rowN := M, colN := N }

/-- `A = B`: copy_crs.cpp:10-25 -/
def HCrs.assign (A B : HCrs α) : Res (HCrs α) := do
  cassert (isSameSize A.mat.rowN A.mat.colN B.mat.rowN B.mat.colN)
  cassert (A.isSameStructure B)
  let v ← vcopy A.mat.nnz B.mat.val A.mat.val
  .ok { A with mat := { A.mat with val := v, created := true } }

namespace TCoo

/-- `tensor_COO(shape, index, value)`: src/utils/tensor_coo_constructor.cpp:11-25 -/
def ofArrays [Zero α] (shape : List Nat) (index : List (List Nat)) (value : List α) : Res (TCoo α) := do
  let T ← resize { (new shape : TCoo α) with index := index } index.length 0
  let v ← vcopy T.nnz value T.val
  .ok { T with val := v }

/-- `tensor_COO(const tensor_COO &)`: tensor_coo_constructor.cpp:33-48 -/
def copy [Zero α] (B : TCoo α) : Res (TCoo α) := do
  let T ← resize { (new B.shape : TCoo α) with index := B.index } B.nnz 0
  let v ← vcopy B.nnz B.val T.val
  .ok { T with val := v }

/-- `tensor_COO(const tensor_COO &, value)`: tensor_coo_constructor.cpp:53-68 -/
def copyWith [Zero α] (B : TCoo α) (value : α) : Res (TCoo α) := do
  let T ← resize { (new B.shape : TCoo α) with index := B.index } B.nnz 0
  let v ← vcopy B.nnz (List.replicate B.nnz value) T.val
  .ok { T with val := v }

/-- `T.set_ptr(shape, index, vsize, v)`: src/utils/copy/copy_tensor_coo.cpp:26-38 -/
def setPtr [Zero α] (T : TCoo α) (shape : List Nat) (index : List (List Nat)) (vsize : Nat)
    (value : List α) : Res (TCoo α) := do
  let T ← resize { T with created := true, shape := shape, index := index } vsize 0
  let v ← vcopy T.nnz value T.val
  .ok { T with val := v }

/-- one step of the index loop of `tensor_COO::equal`: src/utils/compare/compare_tensor_coo.cpp:43-53.
`none`: returned `false`. -/
def equalStep (A B : TCoo α) (i : Nat) (ok : Bool) : Res Bool :=
  if ok then do
    let p ← rd A.index i
    let q ← rd B.index i
    if p.length ≠ q.length then .ok false
    else vequal p.length p q
  else .ok false

/-- `tensor_COO::equal` / `operator==`: compare_tensor_coo.cpp:9-57 -/
def equal [DecidableEq α] (A B : TCoo α) : Res Bool :=
  if A.shape ≠ B.shape then .ok false
  else andThen (vequal A.nnz A.val B.val) (forN A.nnz (equalStep A B) true)

end TCoo
end Verif
