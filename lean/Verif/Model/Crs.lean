import Verif.Model.Coo

/-!
Model of `monolish::matrix::CRS` (compressed-row sparse matrix), CPU side: constructors, `resize`,
conversions between COO and CRS, copies, transpose.

Simplifications: `row_ptr`/`col_ind` (`std::vector<int>`) hold `Nat`s; the data offset `first` is
always 0 for CRS (nothing in the library ever sets it to another value); `structure_hash` is left
out of the state and modelled in `Verif/Model/Hash.lean`; GPU status is false.
-/

namespace Verif

/-- `class CRS<Float>`: include/monolish/common/monolish_crs.hpp:38-103. -/
structure Crs (α : Type) where
  rowN : Nat
  colN : Nat
  rowPtr : List Nat
  colInd : List Nat
  val : List α
  nnz : Nat
  alloc : Nat
  created : Bool
  deriving Repr, DecidableEq

namespace Crs

variable {α : Type}

/-- `CRS()`: monolish_crs.hpp:105. `rowN`, `colN` are uninitialised there; 0 stands for them (they
are overwritten before they are read). -/
def empty : Crs α :=
  { rowN := 0, colN := 0, rowPtr := [], colInd := [], val := [], nnz := 0, alloc := 0,
    created := true }

/-- the in-place branch of `CRS::resize`: monolish_crs.hpp:518-520, `for i in [val_nnz, N)` -/
def fillFrom (v : α) (i : Nat) (b : List α) : Res (List α) := wr b i v

/-- `CRS::resize(N, Val)`: monolish_crs.hpp:516-543 (with `first = 0`). -/
def resize (A : Crs α) (N : Nat) (v : α) : Res (Crs α) :=
  if N < A.alloc then do
    let val' ← forRange A.nnz N (fillFrom v) A.val
    .ok { A with val := val', nnz := N }
  else if A.created then do
    let val' ← reallocCopy A.val A.nnz N v
    .ok { A with val := val', alloc := N, nnz := N }
  else .throw "Error, not create vector cant use resize"

/-- `CRS(M, N, NNZ)`: src/utils/crs_constructor.cpp:11-22. -/
def new [Zero α] (M N NNZ : Nat) : Res (Crs α) :=
  resize { (empty : Crs α) with rowN := M, colN := N, rowPtr := stdResize [] (M + 1) 0,
                                colInd := stdResize [] NNZ 0 } NNZ 0

/-- `CRS(M, N, NNZ, rowptr, colind, value)`: crs_constructor.cpp:27-44. The pointer arguments are
lists; reading past them is undefined behaviour. -/
def ofArrays [Zero α] (M N NNZ : Nat) (rowptr colind : List Nat) (value : List α) :
    Res (Crs α) := do
  let A ← new M N NNZ
  let rp ← vcopy (M + 1) rowptr A.rowPtr
  let ci ← vcopy NNZ colind A.colInd
  let v ← vcopy NNZ value A.val
  .ok { A with rowPtr := rp, colInd := ci, val := v }

/-- one iteration of the row-pointer loop of `CRS::convert(COO)`:
src/utils/convert/convert_crs.cpp:27-40. The state is `(c_row, row_ptr)`. -/
def convStep (rowIdx : List Nat) (i : Nat) (s : Nat × List Nat) : Res (Nat × List Nat) := do
  let r ← rd rowIdx i
  if s.1 = r then do
    let rp ← wr s.2 (s.1 + 1) (i + 1)
    .ok (s.1, rp)
  else do
    let rp ← forRange (s.1 + 1) r (fun j rp => wr rp (j + 1) i) s.2
    let rp ← wr rp (r + 1) (i + 1)
    .ok (r, rp)

/-- `CRS::convert(COO&)` on a target `A`: convert_crs.cpp:9-43 (without the hash). -/
def convertCoo [Zero α] (A : Crs α) (coo : Coo α) : Res (Crs α) := do
  let A ← resize { A with rowN := coo.rowN, colN := coo.colN, created := true } coo.nnz 0
  let v ← vcopy coo.nnz coo.val A.val
  let rp := stdResize A.rowPtr (A.rowN + 1) 0
  let rp ← wr rp 0 0
  let (_, rp) ← forN coo.nnz (convStep coo.rowIdx) (0, rp)
  .ok { A with val := v, colInd := coo.colIdx, rowPtr := rp }

/-- `CRS(COO&)`: monolish_crs.hpp:217-220. -/
def ofCoo [Zero α] (coo : Coo α) : Res (Crs α) := convertCoo empty coo

/-- `CRS(const CRS &mat)`: crs_constructor.cpp:151-183 (CPU part). -/
def copy [Zero α] (mat : Crs α) : Res (Crs α) := do
  let A ← resize (empty : Crs α) mat.nnz 0
  let ci := stdResize A.colInd mat.colInd.length 0
  let rp := stdResize A.rowPtr mat.rowPtr.length 0
  let rp ← vcopy mat.rowPtr.length mat.rowPtr rp
  let ci ← vcopy mat.colInd.length mat.colInd ci
  let v ← vcopy mat.nnz mat.val A.val
  .ok { A with rowN := mat.rowN, colN := mat.colN, rowPtr := rp, colInd := ci, val := v }

/-- `CRS(const CRS &mat, value)`: crs_constructor.cpp:188-221 (CPU part). `vbroadcast` writes
`value` to the first `nnz` elements. -/
def copyWith [Zero α] (mat : Crs α) (value : α) : Res (Crs α) := do
  let A ← resize (empty : Crs α) mat.nnz 0
  let ci := stdResize A.colInd mat.nnz 0
  let rp := stdResize A.rowPtr (mat.rowN + 1) 0
  let rp ← vcopy mat.rowPtr.length mat.rowPtr rp
  let ci ← vcopy mat.colInd.length mat.colInd ci
  let v ← vcopy mat.nnz (List.replicate mat.nnz value) A.val
  .ok { A with rowN := mat.rowN, colN := mat.colN, rowPtr := rp, colInd := ci, val := v }

/-- `CRS::convert(CRS&)` on a target `A`: convert_crs.cpp:47-72. -/
def convertCrs [Zero α] (A : Crs α) (mat : Crs α) : Res (Crs α) := do
  let A ← resize A mat.nnz 0
  let ci := stdResize A.colInd mat.nnz 0
  let rp := stdResize A.rowPtr (mat.rowN + 1) 0
  let rp ← vcopy mat.rowPtr.length mat.rowPtr rp
  let ci ← vcopy mat.colInd.length mat.colInd ci
  let v ← vcopy mat.nnz mat.val A.val
  .ok { A with rowN := mat.rowN, colN := mat.colN, rowPtr := rp, colInd := ci, val := v,
               created := true }

/-! ### transpose -/

/-- counting loop: src/utils/transpose/transpose_crs.cpp:21-23 and 75-77 -/
def trCount (colInd : List Nat) (i : Nat) (rp : List Nat) : Res (List Nat) := do
  let c ← rd colInd i
  let x ← rd rp c
  wr rp c (x + 1)

/-- exclusive prefix sum: transpose_crs.cpp:25-29 and 79-83; state `(sum, row_ptr)` -/
def trPrefix (i : Nat) (s : Nat × List Nat) : Res (Nat × List Nat) := do
  let tmp ← rd s.2 i
  let rp ← wr s.2 i s.1
  .ok (s.1 + tmp, rp)

/-- inner scatter loop body: transpose_crs.cpp:34-41 and 88-95; state `(row_ptr, col_ind, val)` -/
def trScatter (B : Crs α) (i j : Nat) (s : List Nat × List Nat × List α) :
    Res (List Nat × List Nat × List α) := do
  let c ← rd B.colInd j
  let d ← rd s.1 c
  let ci ← wr s.2.1 d i
  let b ← rd B.val j
  let v ← wr s.2.2 d b
  let rp ← wr s.1 c (d + 1)
  .ok (rp, ci, v)

/-- outer scatter loop body: transpose_crs.cpp:33-42 and 87-96 -/
def trRow (B : Crs α) (i : Nat) (s : List Nat × List Nat × List α) :
    Res (List Nat × List Nat × List α) := do
  let a ← rd B.rowPtr i
  let b ← rd B.rowPtr (i + 1)
  forRange a b (trScatter B i) s

/-- shifting the row pointer back: transpose_crs.cpp:44-48 and 98-102; state `(sum, row_ptr)` -/
def trShift (i : Nat) (s : Nat × List Nat) : Res (Nat × List Nat) := do
  let tmp ← rd s.2 i
  let rp ← wr s.2 i s.1
  .ok (tmp, rp)

/-- the part shared by both `transpose` functions: transpose_crs.cpp:20-48 and 74-102.
`std::fill` overwrites the first `colN + 1` row pointers with 0. -/
def trCore (A B : Crs α) : Res (Crs α) := do
  let rp ← vcopy (B.colN + 1) (List.replicate (B.colN + 1) 0) A.rowPtr
  let rp ← forN A.nnz (trCount B.colInd) rp
  let (_, rp) ← forN B.colN trPrefix (0, rp)
  let rp ← wr rp B.colN B.nnz
  let (rp, ci, v) ← forN B.rowN (trRow B) (rp, A.colInd, A.val)
  let (_, rp) ← forN B.colN trShift (0, rp)
  .ok { A with rowPtr := rp, colInd := ci, val := v }

/-- `CRS::transpose()`: transpose_crs.cpp:9-52. -/
def transpose [Zero α] (A : Crs α) : Res (Crs α) := do
  let B ← ofArrays A.rowN A.colN A.nnz A.rowPtr A.colInd A.val
  trCore { A with rowN := B.colN, colN := B.rowN, rowPtr := stdResize A.rowPtr (B.colN + 1) 0,
                  colInd := stdResize A.colInd B.nnz 0 } B

/-- `CRS::transpose(const CRS &B)` on a target `A`: transpose_crs.cpp:57-107. -/
def transposeFrom [Zero α] (A B : Crs α) : Res (Crs α) := do
  let A ← resize { A with rowN := B.colN, colN := B.rowN,
                          rowPtr := stdResize A.rowPtr (B.colN + 1) 0,
                          colInd := stdResize A.colInd B.nnz 0, created := true } B.nnz 0
  trCore A B

end Crs

namespace Coo

variable {α : Type}

/-- body of the inner loop of `COO::convert(CRS)`: src/utils/convert/convert_coo.cpp:22-26;
state `(row_index, col_index, val)` -/
def fromCrsElem (crs : Crs α) (i j : Nat) (s : List Nat × List Nat × List α) :
    Res (List Nat × List Nat × List α) := do
  let r ← wr s.1 j i
  let c ← rd crs.colInd j
  let ci ← wr s.2.1 j c
  let x ← rd crs.val j
  let v ← wr s.2.2 j x
  .ok (r, ci, v)

/-- `COO::convert(const CRS &)` on a target `A`: convert_coo.cpp:9-30. -/
def convertCrs [Zero α] (A : Coo α) (crs : Crs α) : Res (Coo α) := do
  let A ← resize { A with rowN := crs.rowN, colN := crs.colN, created := true } crs.nnz 0
  let r := stdResize A.rowIdx crs.nnz 0
  let c := stdResize A.colIdx crs.nnz 0
  let (r, c, v) ← forN A.rowN (fun i s => do
    let a ← rd crs.rowPtr i
    let b ← rd crs.rowPtr (i + 1)
    forRange a b (fromCrsElem crs i) s) (r, c, A.val)
  .ok { A with rowIdx := r, colIdx := c, val := v }

end Coo
end Verif
