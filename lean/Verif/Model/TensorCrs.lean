import Verif.Model.TensorCoo
import Verif.Model.Hash
import Verif.Model.Matvec

/-!
Model of `monolish::tensor::tensor_CRS` (a tensor stored as a stack of CRS matrices over the last two
axes), CPU side: `resize`, constructors, the conversions `tensor_COO -> tensor_CRS`,
`tensor_CRS -> tensor_COO`, `tensor_CRS -> tensor_CRS`, `CRS -> tensor_CRS`, `equal`, and the kernels
`times`, `times_row` and `tensvec`.

Simplifications: `int` members of `row_ptrs`/`col_inds` hold `Nat`s and 32-bit truncation of the slice
number is not modelled; GPU status is false. `structure_hash` is left out; where a kernel asserts
`is_same_structure` the model takes the outcome of that test as an argument (the hash itself is the
subject of `Verif/Model/Hash.lean`).
-/

namespace Verif

variable {α : Type}

/-- `class tensor_CRS<Float>`: include/monolish/common/monolish_tensor_crs.hpp:17-33 -/
structure TCrs (α : Type) where
  shape : List Nat
  rowPtrs : List (List Nat)
  colInds : List (List Nat)
  val : List α
  nnz : Nat
  alloc : Nat
  first : Nat
  created : Bool
  deriving Repr, DecidableEq

namespace TCrs

/-- `tensor_CRS()`: monolish_tensor_crs.hpp:35-37 -/
def empty : TCrs α :=
  { shape := [], rowPtrs := [], colInds := [], val := [], nnz := 0, alloc := 0, first := 0,
    created := true }

/-- `resize(N, Val)`: monolish_tensor_crs.hpp:267-293 -/
def resize (T : TCrs α) (N : Nat) (v : α) : Res (TCrs α) :=
  if T.first + N < T.alloc then do
    let b ← forRange T.nnz N (fun i b => wr b (T.first + i) v) T.val
    .ok { T with val := b, nnz := N }
  else if T.created then do
    let b ← reallocCopy T.val T.nnz N v
    .ok { T with val := b, alloc := N, nnz := N, first := 0 }
  else .throw "Error, not create vector cant use resize"

/-- the number of slices, the product of all extents but the last two:
src/utils/convert/convert_tensor_crs.cpp:19-22 (`for (i = 0; i < dim - 2; ++i) upper_d *= shape[i]`) -/
def slices (shape : List Nat) : Nat := (shape.take (shape.length - 2)).foldl (fun N n => N * n) 1

/-- slice, row and column of a position, `dim` its rank: convert_tensor_crs.cpp:38-41, 48, 58.
`upper_d_tmp` is the Horner value of the first `dim - 2` indices. -/
def locate (shape pos : List Nat) : Res (Nat × Nat × Nat) := do
  if pos.length < shape.length then .ub "index out of range" else do
  let r ← rd pos (shape.length - 2)
  let c ← rd pos (shape.length - 1)
  .ok (horner (shape.take (shape.length - 2)) pos 0, r, c)

/-- state of the conversion loop: `row_ptrs`, `col_inds`, `c_rows`, `new_i`, `prev_upper_d_tmp` -/
structure Conv where
  rowPtrs : List (List Nat)
  colInds : List (List Nat)
  cRows : List Nat
  newI : Nat
  prev : Nat
  deriving Repr, DecidableEq

/-- update of one slice's row pointer: convert_tensor_crs.cpp:48-57; `c` is `c_rows[upper_d_tmp]`, the
result is the new `c_rows[upper_d_tmp]` and row pointer -/
def ptrStep (r i : Nat) (s : Nat × List Nat) : Res (Nat × List Nat) :=
  if s.1 = r then do
    let rp ← wr s.2 (s.1 + 1) (i + 1)
    .ok (s.1, rp)
  else do
    let rp ← forRange (s.1 + 1) r (fun j rp => wr rp (j + 1) i) s.2
    let rp ← wr rp (r + 1) (i + 1)
    .ok (r, rp)

/-- one iteration over the stored elements: convert_tensor_crs.cpp:37-61 -/
def convStep (coo : TCoo α) (i : Nat) (s : Conv) : Res Conv := do
  let pos ← rd coo.index i
  let (u, r, c) ← locate coo.shape pos
  let newI := if u ≠ s.prev then 0 else s.newI
  let cr ← rd s.cRows u
  let rp ← rd s.rowPtrs u
  let (cr, rp) ← ptrStep r newI (cr, rp)
  let cRows ← wr s.cRows u cr
  let rowPtrs ← wr s.rowPtrs u rp
  let ci ← rd s.colInds u
  let colInds ← wr s.colInds u (ci ++ [c])
  .ok { rowPtrs := rowPtrs, colInds := colInds, cRows := cRows, newI := newI + 1, prev := u }

/-- `convert(const tensor_COO &coo)`: convert_tensor_crs.cpp:10-65 (without the hash). `shape[dim - 2]`
is undefined for a rank below 2. -/
def convertCoo [Zero α] (T : TCrs α) (coo : TCoo α) : Res (TCrs α) := do
  let T ← resize { T with shape := coo.shape, created := true } coo.nnz 0
  let U := slices coo.shape
  let v ← forN coo.nnz (fun i b => do
    let x ← rd coo.val i
    wr b (T.first + i) x) T.val
  if coo.shape.length < 2 then .ub "shape[dim - 2]" else do
  let R ← rd coo.shape (coo.shape.length - 2)
  let rowPtrs := (stdResize T.rowPtrs U []).map (fun p => stdResize p (R + 1) 0)
  let colInds := stdResize T.colInds U []
  let s ← forN coo.nnz (convStep coo)
    { rowPtrs := rowPtrs, colInds := colInds, cRows := List.replicate U 0, newI := 0, prev := 0 }
  .ok { T with val := v, rowPtrs := s.rowPtrs, colInds := s.colInds }

/-- `tensor_CRS(const tensor_COO &coo)`: monolish_tensor_crs.hpp:51-54 -/
def ofCoo [Zero α] (coo : TCoo α) : Res (TCrs α) := convertCoo empty coo

/-- `convert(const tensor_CRS &)`, also the copy constructor: convert_tensor_crs.cpp:71-99. Every row
pointer gets one element more than its source. -/
def convertCrs [Zero α] (T A : TCrs α) : Res (TCrs α) := do
  let T ← resize T A.nnz 0
  let rps := stdResize T.rowPtrs A.rowPtrs.length []
  let cis := stdResize T.colInds A.colInds.length []
  let (rps, cis) ← forN A.colInds.length (fun i s => do
    let ci ← rd s.2 i
    let aci ← rd A.colInds i
    let rp ← rd s.1 i
    let arp ← rd A.rowPtrs i
    let cis ← wr s.2 i (stdResize ci aci.length 0)
    let rps ← wr s.1 i (stdResize rp (arp.length + 1) 0)
    pure (rps, cis)) (rps, cis)
  let (rps, cis) ← forN A.colInds.length (fun i s => do
    let arp ← rd A.rowPtrs i
    let rp ← rd s.1 i
    let rp ← vcopy arp.length arp rp
    let aci ← rd A.colInds i
    let ci ← rd s.2 i
    let ci ← vcopy aci.length aci ci
    let rps ← wr s.1 i rp
    let cis ← wr s.2 i ci
    pure (rps, cis)) (rps, cis)
  let v ← vcopy A.nnz A.val T.val
  .ok { T with shape := A.shape, val := v, rowPtrs := rps, colInds := cis, created := true }

/-- `tensor_CRS(const tensor_CRS &)`: monolish_tensor_crs.hpp:58-61 -/
def copy [Zero α] (A : TCrs α) : Res (TCrs α) := convertCrs empty A

/-- `convert(const matrix::CRS &crs)`: convert_tensor_crs.cpp:105-132 -/
def convertMat [Zero α] (T : TCrs α) (A : Crs α) : Res (TCrs α) := do
  let T ← resize T A.nnz 0
  let cis := stdResize T.colInds 1 []
  let rps := stdResize T.rowPtrs 1 []
  let ci ← rd cis 0
  let rp ← rd rps 0
  let rp ← vcopy A.rowPtr.length A.rowPtr (stdResize rp (A.rowN + 1) 0)
  let ci ← vcopy A.colInd.length A.colInd (stdResize ci A.nnz 0)
  let v ← vcopy A.nnz A.val T.val
  .ok { T with shape := [A.rowN, A.colN], rowPtrs := [rp], colInds := [ci], val := v, created := true }

/-- `tensor_CRS(shape, row_ptrs, col_inds, value)`: src/utils/tensor_crs_constructor.cpp:11-30 -/
def ofArrays [Zero α] (shape : List Nat) (rowPtrs colInds : List (List Nat)) (value : List α) :
    Res (TCrs α) := do
  let num := colInds.foldl (fun n c => n + c.length) 0
  let T ← resize { (empty : TCrs α) with shape := shape, rowPtrs := rowPtrs, colInds := colInds } num 0
  let v ← vcopy T.nnz value T.val
  .ok { T with val := v }

/-! ### `equal` -/

/-- `internal::vequal(N, a, b)` for the index arrays: src/internal/math; reads `N` elements of both -/
def vequal {β : Type} [DecidableEq β] (N : Nat) (a b : List β) : Res Bool := do
  let x ← readN a N
  let y ← readN b N
  .ok (decide (x = y))

/-- a loop of comparisons that stops at the first difference: compare_tensor_crs.cpp:50-66 -/
def allEqual : (X Y : List (List Nat)) → Res Bool
  | [], _ => .ok true
  | _ :: _, [] => .ub "index out of range"
  | x :: X, y :: Y => do
    if ← vequal x.length x y then allEqual X Y else .ok false

/-- `equal(const tensor_CRS &)`: src/utils/compare/compare_tensor_crs.cpp:10-71 (CPU branch) -/
def equal [DecidableEq α] (A B : TCrs α) : Res Bool :=
  if A.shape ≠ B.shape then .ok false else do
    if ← vequal A.nnz A.val B.val then do
      if ← allEqual A.colInds B.colInds then allEqual A.rowPtrs B.rowPtrs else .ok false
    else .ok false

/-! ### kernels -/

/-- `internal::vcopy(n, src + o, dst)` into a fresh buffer of length `n` -/
def rdN (l : List α) (o n : Nat) : Res (List α) :=
  if o + n ≤ l.length then .ok ((l.drop o).take n) else .ub "copy reads out of bounds"

/-- `internal::vcopy(b.size(), b, dst + o)` -/
def wrN (l : List α) (o : Nat) (b : List α) : Res (List α) :=
  if o + b.length ≤ l.length then .ok (l.take o ++ b ++ l.drop (o + b.length))
  else .ub "copy writes out of bounds"

/-- the temporary CRS matrix of slice `d`: `CRS(row, col, A.row_ptrs[d], A.col_inds[d], Aval)`
(src/utils/crs_constructor.cpp:83-99, reads `row + 1` row pointers) and the copy of its values from
`A.begin() + nsum`: src/blas/tensor/tensvec/tensor_crs_tensvec.hpp:28-37,
src/blas/tensor/tensmat/tensor_crs-dense_tensmat.hpp:35-44,
src/blas/tensor/tensmul/tensor_crs-tensor_dense_tensmul.hpp:46-55 -/
def mat (A : TCrs α) (row col d nsum : Nat) : Res (Crs α) := do
  let rp ← rd A.rowPtrs d
  let ci ← rd A.colInds d
  let rp ← readN rp (row + 1)
  let v ← rdN A.val (A.first + nsum) ci.length
  .ok { rowN := row, colN := col, rowPtr := rp, colInd := ci, val := v, nnz := ci.length,
        alloc := ci.length, created := true }

/-- the loop over the slices shared by `tensvec`, `tensmat` and `tensmul`: block `d` of the output
(`n` elements from `o + d * n`) is copied out, handed to the matrix kernel and copied back; `nsum` counts
the values of the slices before: same places as `mat` -/
def forSlices (A : TCrs α) (row col n : Nat) (kernel : Crs α → List α → Res (List α)) (o : Nat)
    (buf : List α) : Res (List α) := do
  let s ← forN A.rowPtrs.length (fun d s => do
    let M ← A.mat row col d s.1
    let c ← rdN s.2 (o + d * n) n
    let c ← kernel M c
    let b ← wrN s.2 (o + d * n) c
    .ok (s.1 + M.colInd.length, b)) (0, buf)
  .ok s.2

/-- `Dtensvec_core` / `Stensvec_core` for tensor_CRS, `transA = false`:
tensor_crs_tensvec.hpp:9-51, 54-96 -/
def tensvec [Zero α] [Add α] [Mul α] (order : List Nat) (a : α) (A : TCrs α) (x : Win α) (b : α)
    (C : TDense α) : Res (TDense α) := do
  if A.shape.length < 2 then .ub "Ashape[size - 2]" else do
  let row ← rd A.shape (A.shape.length - 2)
  let col ← rd A.shape (A.shape.length - 1)
  cassert (decide (col = x.size))
  cassert (decide (A.shape = C.shape ++ [col]))
  let v ← A.forSlices row col row (fun M c => do
    let y ← M.matvecCore order [] a x b ⟨c, 0, row⟩ false
    .ok y.buf) C.first C.val
  .ok { C with val := v }

/-- `tensor_CRS_Dense_Dtensmat_core` and `S`: tensor_crs-dense_tensmat.hpp:9-60, 63-114. `mm` is the product
of one slice with `B`, `CRS_Dense_?matmul_core` as compiled (with or without AVX). -/
def tensmatWith (mm : Crs α → Dense α → Dense α → Res (Dense α)) (A : TCrs α)
    (B : Dense α) (C : TDense α) : Res (TDense α) := do
  if A.shape.length < 2 then .ub "Ashape[size - 2]" else do
  let row ← rd A.shape (A.shape.length - 2)
  let col ← rd A.shape (A.shape.length - 1)
  cassert (decide (col = B.rowN))
  let cl ← TDense.lastExtent C.shape
  cassert (decide (B.colN = cl))
  cassert (decide (A.shape.length = C.shape.length))
  cassert (decide (A.shape.set (A.shape.length - 1) cl = C.shape))
  let v ← A.forSlices row col (row * B.colN) (fun M c => do
    let D : Dense α := { rowN := row, colN := B.colN, val := c, nnz := row * B.colN,
                         alloc := row * B.colN, first := 0, created := true }
    let D ← mm M B D
    .ok D.val) C.first C.val
  .ok { C with val := v }

/-- `tensmat` without AVX: the slices are multiplied by the scalar kernel (same lines) -/
def tensmat [Zero α] [Add α] [Mul α] (order : List Nat) (a : α) (A : TCrs α) (B : Dense α) (b : α)
    (C : TDense α) : Res (TDense α) := A.tensmatWith (fun M B D => M.matmulScalar order a B b D) B C

/-- `tensor_CRS_tensor_Dense_Dtensmul_core` and `S`; `mm` as in `tensmatWith`:
tensor_crs-tensor_dense_tensmul.hpp:10-76, with `CRS_tensor_Dense_?mattens_core`
(src/blas/tensor/mattens/crs-tensor_dense_mattens.hpp:10-25) -/
def tensmulWith (mm : Crs α → Dense α → Dense α → Res (Dense α)) (A : TCrs α)
    (B : TDense α) (C : TDense α) : Res (TDense α) := do
  if A.shape.length < 2 then .ub "Ashape[size - 2]" else do
  let row ← rd A.shape (A.shape.length - 2)
  let col ← rd A.shape (A.shape.length - 1)
  let b0 ← rd B.shape 0
  cassert (decide (col = b0))
  cassert (decide (A.shape.take (A.shape.length - 1) ++ B.shape.drop 1 = C.shape))
  let n := TDense.extent (B.shape.set 0 row)
  let v ← A.forSlices row col n (fun M c => do
    let T : TDense α := { shape := B.shape.set 0 row, val := c, nnz := n, alloc := n, first := 0,
                          created := true }
    let Bm ← B.toDense b0 (-1)
    let Cm ← T.toDense M.rowN Bm.colN
    let r ← mm M Bm Cm
    .ok r.val) C.first C.val
  .ok { C with val := v }

/-- `tensmul` without AVX (same lines) -/
def tensmul [Zero α] [Add α] [Mul α] (order : List Nat) (a : α) (A : TCrs α) (B : TDense α) (b : α)
    (C : TDense α) : Res (TDense α) := A.tensmulWith (fun M B D => M.matmulScalar order a B b D) B C

/-- `times_core(alpha, A, C)`: src/blas/tensor/times/tensor_crs_times.hpp:10-22. `same` is whether `A`
and `C` are the same object, `isSame` the outcome of `is_same_structure`. -/
def timesS [Mul α] (isSame same : Bool) (order : List Nat) (alpha : α) (A C : TCrs α) : Res (TCrs α) := do
  cassert isSame
  let v ← forList order (fun k b => do
    let u ← rd (if same then b else A.val) (A.first + k)
    wr b (C.first + k) (u * alpha)) C.val
  .ok { C with val := v }

/-- `times_row_core(A, x, C)`: tensor_crs_times.hpp:25-70; `orders d` is the schedule of the row loop of
slice `d` -/
def timesRow [Mul α] (isSame same : Bool) (orders : Nat → List Nat) (A : TCrs α) (x : Win α)
    (C : TCrs α) : Res (TCrs α) := do
  cassert isSame
  let l ← TDense.lastExtent A.shape
  cassert (decide (l = x.size))
  let s ← forN A.rowPtrs.length (fun d s => do
    let rp ← rd A.rowPtrs d
    let ci ← rd A.colInds d
    let b ← forList (orders d) (fun i b => do
      let p ← rd rp i
      let q ← rd rp (i + 1)
      forRange p q (fun j b => do
        let u ← rd (if same then b else A.val) (A.first + (j + s.1))
        let c ← rd ci j
        let y ← rd x.buf (x.off + c)
        wr b (C.first + (j + s.1)) (u * y)) b) s.2
    .ok (s.1 + ci.length, b)) (0, C.val)
  .ok { C with val := s.2 }

end TCrs

namespace TCoo

/-- the indices of slice `d`: src/utils/convert/convert_tensor_coo.cpp:24-28
(`for (k = dim - 3; k >= 0; --k) pos[k] = d_copy % shape[k]`) -/
def slicePos (shape : List Nat) (d : Nat) : Res (List Nat) := unindex (shape.take (shape.length - 2)) d

/-- one stored element: convert_tensor_coo.cpp:31-35; the state is `index`, the value buffer, `nz` -/
def crsElem (A : TCrs α) (first : Nat) (up : List Nat) (i : Nat) (ci : List Nat) (j : Nat)
    (s : List (List Nat) × List α × Nat) : Res (List (List Nat) × List α × Nat) := do
  let c ← rd ci j
  let x ← rd A.val (A.first + s.2.2)
  let b ← wr s.2.1 (first + s.2.2) x
  .ok (s.1 ++ [up ++ [i, c]], b, s.2.2 + 1)

/-- one slice: convert_tensor_coo.cpp:23-38. `i + 1 < row_ptrs[d].size()` -/
def crsSlice (A : TCrs α) (d : Nat) (s : List (List Nat) × List α × Nat) :
    Res (List (List Nat) × List α × Nat) := do
  let up ← slicePos A.shape d
  let rp ← rd A.rowPtrs d
  let ci ← rd A.colInds d
  forN (rp.length - 1) (fun i s => do
    let lo ← rd rp i
    let hi ← rd rp (i + 1)
    forRange lo hi (crsElem A 0 up i ci) s) s

/-- `convert(const tensor_CRS &crs)`: convert_tensor_coo.cpp:10-41 -/
def convertCrs [Zero α] (T : TCoo α) (A : TCrs α) : Res (TCoo α) := do
  let T ← resize { T with shape := A.shape, created := true } A.nnz 0
  if A.shape.length < 2 then .ub "pos[dim - 2]" else do
  let (ix, b, _) ← forN A.colInds.length (crsSlice A) ([], T.val, 0)
  .ok { T with index := ix, val := b }

end TCoo
end Verif
