import Verif.Model.Matvec

/-!
The sparse matrix classes with the integer types of the C++ code: row and column indices are `int`
(`std::vector<int>`, 32 bits), sizes and loop counters are `size_t` (64 bits) or `int` as written there.
The models in `Verif/Model/Coo.lean`, `Crs.lean`, `Matvec.lean` use natural numbers instead; here the
conversions are written out, and signed overflow is undefined behaviour.

The sizes of allocations (`2 * alloc + 1`) stay natural numbers: memory runs out long before they
overflow.
-/

namespace Verif.Machine

variable {α : Type}

/-- conversion `size_t` to `int`: the value modulo 2^32 in the range of `int` -/
def toInt (n : Nat) : Int := Int.bmod n 4294967296

/-- conversion `int` to `size_t`: the value modulo 2^64 -/
def toSize (z : Int) : Nat := (z % 18446744073709551616).toNat

/-- the result of an `int` operation; overflow is undefined behaviour -/
def chk (z : Int) : Res Int :=
  if -2147483648 ≤ z ∧ z < 2147483648 then .ok z else .ub "signed overflow"

/-- `a[i]` with an `int` index -/
def rdI {β : Type} (l : List β) (i : Int) : Res β := if i < 0 then .ub "read out of bounds" else rd l i.toNat

/-- `a[i] = b` with an `int` index -/
def wrI {β : Type} (l : List β) (i : Int) (b : β) : Res (List β) :=
  if i < 0 then .ub "write out of bounds" else wr l i.toNat b

/-- `n` iterations of a loop with an `int` counter that starts at `lo` -/
def forFromI {σ : Type} (lo : Int) : (n : Nat) → (body : Int → σ → Res σ) → σ → Res σ
  | 0, _, s => .ok s
  | n + 1, body, s => do
    let s ← body lo s
    forFromI (lo + 1) n body s

/-- `for (int j = lo; j < hi; j++)`. (The counter cannot overflow: it stops at `hi`.) -/
def forI {σ : Type} (lo hi : Int) (body : Int → σ → Res σ) (s : σ) : Res σ :=
  forFromI lo (hi - lo).toNat body s

/-- `class COO<Float>`: include/monolish/common/monolish_coo.hpp:53-115 -/
structure MCoo (α : Type) where
  rowN : Nat
  colN : Nat
  rowIdx : List Int
  colIdx : List Int
  val : List α
  nnz : Nat
  alloc : Nat
  created : Bool
  deriving Repr, DecidableEq

/-- `class CRS<Float>`: include/monolish/common/monolish_crs.hpp:38-103 -/
structure MCrs (α : Type) where
  rowN : Nat
  colN : Nat
  rowPtr : List Int
  colInd : List Int
  val : List α
  nnz : Nat
  alloc : Nat
  created : Bool
  deriving Repr, DecidableEq

namespace MCoo

/-- `COO(M, N)`: monolish_coo.hpp:118-122 -/
def new (M N : Nat) : MCoo α :=
  { rowN := M, colN := N, rowIdx := [], colIdx := [], val := [], nnz := 0, alloc := 0,
    created := true }

/-- `COO::resize(N, Val)`: monolish_coo.hpp:406-428 -/
def resize (A : MCoo α) (N : Nat) (v : α) : Res (MCoo α) :=
  if A.created then do
    let val' ← reallocCopy A.val A.nnz N v
    .ok { A with val := val', alloc := N, nnz := N,
                 rowIdx := stdResize A.rowIdx N 0, colIdx := stdResize A.colIdx N 0 }
  else .throw "Error, not create vector cant use resize"

/-- `COO::insert(m, n, value)`: src/utils/at_insert_sort/at_insert_sort_coo.cpp:29-51. The `size_t`
arguments are stored in `std::vector<int>`. -/
def insert [Zero α] (A : MCoo α) (m n : Nat) (value : α) : Res (MCoo α) :=
  if A.created then do
    cassert (decide (m ≤ A.rowN))
    cassert (decide (n ≤ A.colN))
    let A ← if A.nnz ≥ A.alloc then do
              let tmp := A.nnz
              let alloc' := 2 * A.alloc + 1
              let A' ← resize { A with alloc := alloc' } alloc' 0
              pure { A' with nnz := tmp }
            else pure A
    let r ← wr A.rowIdx A.nnz (toInt m)
    let c ← wr A.colIdx A.nnz (toInt n)
    let v ← wr A.val A.nnz value
    .ok { A with rowIdx := r, colIdx := c, val := v, nnz := A.nnz + 1 }
  else .throw "Error, not create coo matrix cant use insert"

/-- the loop of `COO::at`: at_insert_sort_coo.cpp:17-21, `row_index[k - 1] == (int)i` -/
def atScan [Zero α] (A : MCoo α) (i j : Nat) : (k : Nat) → Res α
  | 0 => .ok 0
  | k + 1 => do
    let r ← rd A.rowIdx k
    if r = toInt i then do
      let c ← rd A.colIdx k
      if c = toInt j then rd A.val k else atScan A i j k
    else atScan A i j k

/-- `COO::at(i, j)`: at_insert_sort_coo.cpp:9-24 -/
def at_ [Zero α] (A : MCoo α) (i j : Nat) : Res α := do
  cassert (decide (i ≤ A.rowN))
  cassert (decide (j ≤ A.colN))
  atScan A i j A.nnz

/-- `(row[a] != row[b]) ? row[a] - row[b] : col[a] - col[b]`: at_insert_sort_coo.cpp:73-75, 78-80; the
subtraction is an `int` operation -/
def cmpAt (R C : List Int) (a b : Int) : Res Int := do
  let ra ← rdI R a
  let rb ← rdI R b
  if ra ≠ rb then chk (ra - rb) else do
    let ca ← rdI C a
    let cb ← rdI C b
    chk (ca - cb)

/-- `while ((l < h) && cmp(l, p) <= 0) l = l + 1;` at_insert_sort_coo.cpp:73-77 -/
def scanUp (R C : List Int) (p h : Int) : (fuel : Nat) → (l : Int) → Res Int
  | 0, l => .ok l
  | n + 1, l =>
    if l < h then do
      let d ← cmpAt R C l p
      if d ≤ 0 then do
        let l ← chk (l + 1)
        scanUp R C p h n l
      else .ok l
    else .ok l

/-- `while ((h > l) && cmp(h, p) >= 0) h = h - 1;` at_insert_sort_coo.cpp:78-82 -/
def scanDown (R C : List Int) (p l : Int) : (fuel : Nat) → (h : Int) → Res Int
  | 0, h => .ok h
  | n + 1, h =>
    if h > l then do
      let d ← cmpAt R C h p
      if d ≥ 0 then do
        let h ← chk (h - 1)
        scanDown R C p l n h
      else .ok h
    else .ok h

/-- exchange of two elements: at_insert_sort_coo.cpp:84-94 -/
def swapBuf {β : Type} (b : List β) (l h : Int) : Res (List β) := do
  let t ← rdI b l
  let u ← rdI b h
  let b ← wrI b l u
  wrI b h t

/-- the partition loop: at_insert_sort_coo.cpp:72-96 -/
def partLoop (p : Int) :
    (fuel : Nat) → (l h : Int) → List Int → List Int → List α → Res (Int × List Int × List Int × List α)
  | 0, _, _, _, _, _ => .ub "fuel"
  | n + 1, l, h, R, C, V => do
    let l ← scanUp R C p h (h - l).toNat l
    let h ← scanDown R C p l (h - l).toNat h
    if l < h then do
      let R ← swapBuf R l h
      let C ← swapBuf C l h
      let V ← swapBuf V l h
      partLoop p n l h R C V
    else .ok (l, R, C, V)

/-- `COO::_q_sort(int lo, int hi)`: at_insert_sort_coo.cpp:59-115 -/
def qSort : (fuel : Nat) → (lo hi : Int) → List Int → List Int → List α →
    Res (List Int × List Int × List α)
  | 0, _, _, _, _, _ => .ub "fuel"
  | n + 1, lo, hi, R, C, V =>
    if lo ≥ hi then .ok (R, C, V) else do
      let p1 ← rdI R hi
      let p2 ← rdI C hi
      let p3 ← rdI V hi
      let (l, R, C, V) ← partLoop hi (hi + 1 - lo).toNat lo hi R C V
      let x ← rdI R l
      let R ← wrI R hi x
      let R ← wrI R l p1
      let y ← rdI C l
      let C ← wrI C hi y
      let C ← wrI C l p2
      let z ← rdI V l
      let V ← wrI V hi z
      let V ← wrI V l p3
      let a ← chk (l - lo)
      let b ← chk (hi - l)
      if a < b then do
        let l1 ← chk (l - 1)
        let (R, C, V) ← qSort n lo l1 R C V
        let l2 ← chk (l + 1)
        qSort n l2 hi R C V
      else do
        let l2 ← chk (l + 1)
        let (R, C, V) ← qSort n l2 hi R C V
        let l1 ← chk (l - 1)
        qSort n lo l1 R C V

/-- one iteration of the duplicate removal: at_insert_sort_coo.cpp:132-138 (`k`, `i` are `size_t`) -/
def mergeStep (i : Nat) (s : Nat × List Int × List Int × List α) :
    Res (Nat × List Int × List Int × List α) := do
  let (k, R, C, V) := s
  let rk ← rd R k
  let ri ← rd R i
  let ck ← rd C k
  let ci ← rd C i
  if rk ≠ ri ∨ ck ≠ ci then do
    let k := k + 1
    let R ← wr R k ri
    let C ← wr C k ci
    let v ← rd V i
    let V ← wr V k v
    .ok (k, R, C, V)
  else do
    let v ← rd V i
    let V ← wr V k v
    .ok (k, R, C, V)

/-- `COO::sort(merge)`: at_insert_sort_coo.cpp:119-144. `val_nnz - 1` is a `size_t` (2^64 - 1 for an
empty matrix) and is converted to `int`. -/
def sort (A : MCoo α) (merge : Bool) : Res (MCoo α) := do
  let (R, C, V) ← qSort (A.nnz + 1) 0 (toInt ((A.nnz + 18446744073709551615) % 18446744073709551616))
    A.rowIdx A.colIdx A.val
  if merge then do
    let (k, R, C, V) ← forRange 1 A.nnz mergeStep (0, R, C, V)
    .ok { A with rowIdx := R, colIdx := C, val := V, nnz := k + 1 }
  else .ok { A with rowIdx := R, colIdx := C, val := V }

end MCoo

namespace MCrs

/-- `CRS()`: monolish_crs.hpp:105 -/
def empty : MCrs α :=
  { rowN := 0, colN := 0, rowPtr := [], colInd := [], val := [], nnz := 0, alloc := 0,
    created := true }

/-- `CRS::resize(N, Val)`: monolish_crs.hpp:516-543 -/
def resize (A : MCrs α) (N : Nat) (v : α) : Res (MCrs α) :=
  if N < A.alloc then do
    let val' ← forRange A.nnz N (Crs.fillFrom v) A.val
    .ok { A with val := val', nnz := N }
  else if A.created then do
    let val' ← reallocCopy A.val A.nnz N v
    .ok { A with val := val', alloc := N, nnz := N }
  else .throw "Error, not create vector cant use resize"

/-- one iteration of the row-pointer loop of `CRS::convert(COO)`: src/utils/convert/convert_crs.cpp:27-40.
`c_row`, `i`, `j` are `size_t`; `j < coo.row_index[i]` compares as `size_t`. -/
def convStep (rowIdx : List Int) (i : Nat) (s : Nat × List Int) : Res (Nat × List Int) := do
  let r ← rd rowIdx i
  if toInt s.1 = r then do
    let rp ← wr s.2 (s.1 + 1) (toInt (i + 1))
    .ok (s.1, rp)
  else do
    let rp ← forRange (s.1 + 1) (toSize r) (fun j rp => wr rp (j + 1) (toInt i)) s.2
    let rp ← wr rp (toSize r + 1) (toInt (i + 1))
    .ok (toSize r, rp)

/-- `CRS::convert(COO&)`: convert_crs.cpp:9-43 -/
def convertCoo [Zero α] (A : MCrs α) (coo : MCoo α) : Res (MCrs α) := do
  let A ← resize { A with rowN := coo.rowN, colN := coo.colN, created := true } coo.nnz 0
  let v ← vcopy coo.nnz coo.val A.val
  let rp := stdResize A.rowPtr (A.rowN + 1) 0
  let rp ← wr rp 0 0
  let (_, rp) ← forN coo.nnz (convStep coo.rowIdx) (0, rp)
  .ok { A with val := v, colInd := coo.colIdx, rowPtr := rp }

/-- `CRS(M, N, NNZ, rowptr, colind, value)`: src/utils/crs_constructor.cpp:27-44 -/
def ofArrays [Zero α] (M N NNZ : Nat) (rowptr colind : List Int) (value : List α) :
    Res (MCrs α) := do
  let A ← resize { (empty : MCrs α) with rowN := M, colN := N, rowPtr := stdResize [] (M + 1) 0,
                                         colInd := stdResize [] NNZ 0 } NNZ 0
  let rp ← vcopy (M + 1) rowptr A.rowPtr
  let ci ← vcopy NNZ colind A.colInd
  let v ← vcopy NNZ value A.val
  .ok { A with rowPtr := rp, colInd := ci, val := v }

/-- `row_ptr[B.col_ind[i]]++`: src/utils/transpose/transpose_crs.cpp:21-23 (an `int` increment) -/
def trCount (colInd : List Int) (i : Nat) (rp : List Int) : Res (List Int) := do
  let c ← rd colInd i
  let x ← rdI rp c
  let x ← chk (x + 1)
  wrI rp c x

/-- `int tmp = row_ptr[i]; row_ptr[i] = sum; sum += tmp;`: transpose_crs.cpp:25-29; `sum` is `size_t` -/
def trPrefix (i : Nat) (s : Nat × List Int) : Res (Nat × List Int) := do
  let tmp ← rd s.2 i
  let rp ← wr s.2 i (toInt s.1)
  .ok ((s.1 + toSize tmp) % 18446744073709551616, rp)

/-- the inner scatter loop: transpose_crs.cpp:34-41 (all `int`) -/
def trScatter (B : MCrs α) (i j : Int) (s : List Int × List Int × List α) :
    Res (List Int × List Int × List α) := do
  let c ← rdI B.colInd j
  let d ← rdI s.1 c
  let ci ← wrI s.2.1 d i
  let b ← rdI B.val j
  let v ← wrI s.2.2 d b
  let d1 ← chk (d + 1)
  let rp ← wrI s.1 c d1
  .ok (rp, ci, v)

/-- the outer scatter loop: transpose_crs.cpp:33-42 (`i` is `int`) -/
def trRow (B : MCrs α) (i : Int) (s : List Int × List Int × List α) :
    Res (List Int × List Int × List α) := do
  let a ← rdI B.rowPtr i
  let i1 ← chk (i + 1)
  let b ← rdI B.rowPtr i1
  forI a b (trScatter B i) s

/-- shifting the row pointer back: transpose_crs.cpp:44-48; `sum` is `size_t`, `tmp` is `int` -/
def trShift (i : Nat) (s : Nat × List Int) : Res (Nat × List Int) := do
  let tmp ← rd s.2 i
  let rp ← wr s.2 i (toInt s.1)
  .ok (toSize tmp, rp)

/-- transpose_crs.cpp:20-48; `i < (int)B.get_row()`, `row_ptr[B.get_col()] = B.get_nnz()` -/
def trCore (A B : MCrs α) : Res (MCrs α) := do
  let rp ← vcopy (B.colN + 1) (List.replicate (B.colN + 1) 0) A.rowPtr
  let rp ← forN A.nnz (trCount B.colInd) rp
  let (_, rp) ← forN B.colN trPrefix (0, rp)
  let rp ← wr rp B.colN (toInt B.nnz)
  let (rp, ci, v) ← forI 0 (toInt B.rowN) (trRow B) (rp, A.colInd, A.val)
  let (_, rp) ← forN B.colN trShift (0, rp)
  .ok { A with rowPtr := rp, colInd := ci, val := v }

/-- `CRS::transpose()`: transpose_crs.cpp:9-52 -/
def transpose [Zero α] (A : MCrs α) : Res (MCrs α) := do
  let B ← ofArrays A.rowN A.colN A.nnz A.rowPtr A.colInd A.val
  trCore { A with rowN := B.colN, colN := B.rowN, rowPtr := stdResize A.rowPtr (B.colN + 1) 0,
                  colInd := stdResize A.colInd B.nnz 0 } B

/-- inner loop of the row product: src/blas/matrix/matvec/crs_matvec.hpp:103-105 (`i` is `size_t`, `j` is
`int`) -/
def rowDot [Zero α] [Add α] [Mul α] (A : MCrs α) (x : Win α) (i : Nat) : Res α := do
  let a ← rd A.rowPtr i
  let b ← rd A.rowPtr (i + 1)
  forI a b (fun j acc => do
    let v ← rdI A.val j
    let c ← rdI A.colInd j
    let xv ← (if c < 0 then .ub "read out of bounds" else rd x.buf (x.off + c.toNat) : Res α)
    .ok (acc + v * xv)) 0

/-- `matvec(A, x, y)`: crs_matvec.hpp:98-108 -/
def matvec [Zero α] [Add α] [Mul α] (order : List Nat) (A : MCrs α) (x y : Win α) : Res (Win α) := do
  cassert (decide (A.rowN = y.size))
  cassert (decide (A.colN = x.size))
  let b ← forList order (fun i b => do
    let t ← A.rowDot x i
    wr b (y.off + i) t) y.buf
  .ok { y with buf := b }

end MCrs

/-- body of the inner loop of `COO::convert(CRS)`: src/utils/convert/convert_coo.cpp:22-26 (`i`, `j` are
`size_t`) -/
def MCoo.fromCrsElem (crs : MCrs α) (i j : Nat) (s : List Int × List Int × List α) :
    Res (List Int × List Int × List α) := do
  let r ← wr s.1 j (toInt i)
  let c ← rd crs.colInd j
  let ci ← wr s.2.1 j c
  let x ← rd crs.val j
  let v ← wr s.2.2 j x
  .ok (r, ci, v)

/-- `COO::convert(const CRS &)`: convert_coo.cpp:9-30; the bounds are `(size_t)crs.row_ptr[i]` -/
def MCoo.convertCrs [Zero α] (A : MCoo α) (crs : MCrs α) : Res (MCoo α) := do
  let A ← resize { A with rowN := crs.rowN, colN := crs.colN, created := true } crs.nnz 0
  let r := stdResize A.rowIdx crs.nnz 0
  let c := stdResize A.colIdx crs.nnz 0
  let (r, c, v) ← forN A.rowN (fun i s => do
    let a ← rd crs.rowPtr i
    let b ← rd crs.rowPtr (i + 1)
    forRange (toSize a) (toSize b) (fromCrsElem crs i) s) (r, c, A.val)
  .ok { A with rowIdx := r, colIdx := c, val := v }

/-- a conditional insertion of `laplacian_matrix_2D_5p` with the increment of the counter `ctr`:
`if (c) { mat.insert(ii, jj, v); ctr++; }` -/
def lapInsert [Zero α] (c : Bool) (s : Int × MCoo α) (i j : Int) (v : α) : Res (Int × MCoo α) :=
  if c then do
    let A ← s.2.insert (toSize i) (toSize j) v
    let k ← chk (s.1 + 1)
    .ok (k, A)
  else .ok s

/-- `util::laplacian_matrix_2D_5p(m, n)` for `m`, `n` at least 0: src/utils/create_matrix/laplacian_2D5p.cpp:6-49
with `int` arithmetic: `size = m * n`, the counter `ctr`. (The indices `ii - m`, `ii + m`, ... are only
computed for points that exist and are between 0 and `size`.) -/
def laplacian2D [Zero α] [IntCast α] (m n : Nat) : Res (MCoo α) := do
  let size ← chk ((m : Int) * n)
  let s ← forI 0 size (fun ii s => do
    let i := ii / m
    let j := ii - i * m
    let s ← lapInsert (decide (i > 0)) s ii (ii - m) ((-1 : Int) : α)
    let s ← lapInsert (decide (j > 0)) s ii (ii - 1) ((-1 : Int) : α)
    let s ← lapInsert true s ii ii ((4 : Int) : α)
    let s ← lapInsert (decide (j < (m : Int) - 1)) s ii (ii + 1) ((-1 : Int) : α)
    lapInsert (decide (i < (n : Int) - 1)) s ii (ii + m) ((-1 : Int) : α))
    (0, MCoo.new (toSize size) (toSize size))
  .ok s.2

end Verif.Machine
