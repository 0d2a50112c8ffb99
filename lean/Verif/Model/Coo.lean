import Verif.Core.Buf

/-!
Model of `monolish::matrix::COO` (coordinate-format sparse matrix), CPU side:
construction, `resize`, `insert`, `at`, `_q_sort`, `sort`.

Simplifications: indices (`std::vector<int>`, `size_t`) are `Nat`; `gpu_status` is always false
(the GPU checks only throw); `double p3`/`double td` temporaries hold the element type exactly
(true for `double`, and for `float` because widening is exact).
-/

namespace Verif

/-- `class COO<Float>`: include/monolish/common/monolish_coo.hpp:53-115 (members `rowN`, `colN`,
`row_index`, `col_index`, `val`, `val_nnz`, `alloc_nnz`, `val_create_flag`). The shared buffer
`val` is a list whose length is its allocated size. -/
structure Coo (α : Type) where
  rowN : Nat
  colN : Nat
  rowIdx : List Nat
  colIdx : List Nat
  val : List α
  nnz : Nat
  alloc : Nat
  created : Bool
  deriving Repr, DecidableEq

namespace Coo

variable {α : Type}

/-- `COO(M, N)`: monolish_coo.hpp:118-122. -/
def new (M N : Nat) : Coo α :=
  { rowN := M, colN := N, rowIdx := [], colIdx := [], val := [], nnz := 0, alloc := 0,
    created := true }

/-- `COO::resize(N, Val)`: monolish_coo.hpp:406-428. `std::vector<int>::resize` pads with 0. -/
def resize (A : Coo α) (N : Nat) (v : α) : Res (Coo α) :=
  if A.created then do
    let val' ← reallocCopy A.val A.nnz N v
    .ok { A with val := val', alloc := N, nnz := N,
                 rowIdx := stdResize A.rowIdx N 0, colIdx := stdResize A.colIdx N 0 }
  else .throw "Error, not create vector cant use resize"

/-- `COO::insert(m, n, value)`: src/utils/at_insert_sort/at_insert_sort_coo.cpp:29-51. -/
def insert [Zero α] (A : Coo α) (m n : Nat) (value : α) : Res (Coo α) :=
  if A.created then do
    cassert (decide (m ≤ A.rowN))
    cassert (decide (n ≤ A.colN))
    let A ← if A.nnz ≥ A.alloc then do
              let tmp := A.nnz
              let alloc' := 2 * A.alloc + 1
              let A' ← resize { A with alloc := alloc' } alloc' 0
              pure { A' with nnz := tmp }
            else pure A
    let r ← wr A.rowIdx A.nnz m
    let c ← wr A.colIdx A.nnz n
    let v ← wr A.val A.nnz value
    .ok { A with rowIdx := r, colIdx := c, val := v, nnz := A.nnz + 1 }
  else .throw "Error, not create coo matrix cant use insert"

/-- the backward search loop of `COO::at`: at_insert_sort_coo.cpp:17-21 (argument `k`) -/
def atScan [Zero α] (A : Coo α) (i j : Nat) : (k : Nat) → Res α
  | 0 => .ok 0
  | k + 1 => do
    let r ← rd A.rowIdx k
    if r = i then do
      let c ← rd A.colIdx k
      if c = j then rd A.val k else atScan A i j k
    else atScan A i j k

/-- `COO::at(i, j)`: at_insert_sort_coo.cpp:9-24. -/
def at_ [Zero α] (A : Coo α) (i j : Nat) : Res α := do
  cassert (decide (i ≤ A.rowN))
  cassert (decide (j ≤ A.colN))
  atScan A i j A.nnz

/-! ### `_q_sort` -/

/-- the comparison `(row[a] != row[b]) ? row[a]-row[b] : col[a]-col[b]`:
at_insert_sort_coo.cpp:73-75 and 78-80 -/
def cmpAt (R C : List Nat) (a b : Nat) : Res Int := do
  let ra ← rd R a
  let rb ← rd R b
  if ra ≠ rb then .ok ((ra : Int) - rb) else do
    let ca ← rd C a
    let cb ← rd C b
    .ok ((ca : Int) - cb)

/-- `while ((l < h) && cmp(l, p) <= 0) l = l + 1;` at_insert_sort_coo.cpp:73-77. The first argument
bounds the iterations; it is called with `h - l`, which the guard `l < h` never exceeds. -/
def scanUp (R C : List Nat) (p h : Nat) : (fuel l : Nat) → Res Nat
  | 0, l => .ok l
  | n + 1, l =>
    if l < h then do
      let d ← cmpAt R C l p
      if d ≤ 0 then scanUp R C p h n (l + 1) else .ok l
    else .ok l

/-- `while ((h > l) && cmp(h, p) >= 0) h = h - 1;` at_insert_sort_coo.cpp:78-82. Called with
`h - l` as bound. -/
def scanDown (R C : List Nat) (p l : Nat) : (fuel h : Nat) → Res Nat
  | 0, h => .ok h
  | n + 1, h =>
    if h > l then do
      let d ← cmpAt R C h p
      if d ≥ 0 then scanDown R C p l n (h - 1) else .ok h
    else .ok h

/-- exchange of two elements of a buffer through a temporary: at_insert_sort_coo.cpp:84-94 -/
def swapBuf {β : Type} (b : List β) (l h : Nat) : Res (List β) := do
  let t ← rd b l
  let u ← rd b h
  let b ← wr b l u
  wr b h t

/-- the `do { ... } while (l < h)` partition loop: at_insert_sort_coo.cpp:72-96. Returns the final
`l` and the three buffers. `fuel` bounds the number of iterations; running out of it is reported
as `ub`, and the theorems show that it never happens. -/
def partLoop (p : Nat) :
    (fuel l h : Nat) → List Nat → List Nat → List α → Res (Nat × List Nat × List Nat × List α)
  | 0, _, _, _, _, _ => .ub "fuel"
  | n + 1, l, h, R, C, V => do
    let l ← scanUp R C p h (h - l) l
    let h ← scanDown R C p l (h - l) h
    if l < h then do
      let R ← swapBuf R l h
      let C ← swapBuf C l h
      let V ← swapBuf V l h
      partLoop p n l h R C V
    else .ok (l, R, C, V)

/-- `COO::_q_sort(lo, hi)`: at_insert_sort_coo.cpp:59-115. The interval is kept half-open: the
argument `hi1` is the code's `hi + 1`, so that the code's `hi = -1` (empty matrix) and
`l - 1 = -1` need no negative numbers. `fuel` bounds the recursion depth (`ub` when exhausted;
proved unreachable from `sort`). -/
def qSort : (fuel lo hi1 : Nat) → List Nat → List Nat → List α →
    Res (List Nat × List Nat × List α)
  | 0, _, _, _, _, _ => .ub "fuel"
  | n + 1, lo, hi1, R, C, V =>
    if lo + 1 ≥ hi1 then .ok (R, C, V) else do
      let p := hi1 - 1
      let p1 ← rd R p
      let p2 ← rd C p
      let p3 ← rd V p
      let (l, R, C, V) ← partLoop p (hi1 - lo) lo p R C V
      let x ← rd R l
      let R ← wr R p x
      let R ← wr R l p1
      let y ← rd C l
      let C ← wr C p y
      let C ← wr C l p2
      let z ← rd V l
      let V ← wr V p z
      let V ← wr V l p3
      if l - lo < p - l then do
        let (R, C, V) ← qSort n lo l R C V
        qSort n (l + 1) hi1 R C V
      else do
        let (R, C, V) ← qSort n (l + 1) hi1 R C V
        qSort n lo l R C V

/-- one iteration of the duplicate-removal loop: at_insert_sort_coo.cpp:133-138 -/
def mergeStep (i : Nat) (s : Nat × List Nat × List Nat × List α) :
    Res (Nat × List Nat × List Nat × List α) := do
  let (k, R, C, V) := s
  let rk ← rd R k
  let ri ← rd R i
  let ck ← rd C k
  let ci ← rd C i
  if rk ≠ ri ∨ ck ≠ ci then do
    let k := k + 1
    let R ← wr R k ri
    let C ← wr C k ci
    let v ← rd V i
    let V ← wr V k v
    .ok (k, R, C, V)
  else do
    let v ← rd V i
    let V ← wr V k v
    .ok (k, R, C, V)

/-- `COO::sort(merge)`: at_insert_sort_coo.cpp:119-144. -/
def sort (A : Coo α) (merge : Bool) : Res (Coo α) := do
  let (R, C, V) ← qSort (A.nnz + 1) 0 A.nnz A.rowIdx A.colIdx A.val
  if merge then do
    let (k, R, C, V) ← forRange 1 A.nnz mergeStep (0, R, C, V)
    .ok { A with rowIdx := R, colIdx := C, val := V, nnz := k + 1 }
  else .ok { A with rowIdx := R, colIdx := C, val := V }

end Coo
end Verif
