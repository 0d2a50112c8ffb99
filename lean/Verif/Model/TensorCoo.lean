import Verif.Model.TensorDense

/-!
Model of `monolish::tensor::tensor_COO` (coordinate-format sparse tensor), CPU side: construction,
`resize`, `insert`, `at`, `_q_sort`, `sort`, `diag`, and the conversions to and from `tensor_Dense`.

Unlike for the matrix classes the 32-bit truncation `(int)get_index(...)` in `_q_sort` is modelled,
because coordinate tensors of more than 2^31 positions are ordinary. (Wrap-around of the 64-bit index
computation itself does not change the truncated value.)
-/

namespace Verif

variable {α : Type}

/-- `class tensor_COO<Float>`: include/monolish/common/monolish_tensor_coo.hpp:20-50 -/
structure TCoo (α : Type) where
  shape : List Nat
  index : List (List Nat)
  val : List α
  nnz : Nat
  alloc : Nat
  created : Bool
  deriving Repr, DecidableEq

/-- conversion of `size_t` to `int` (32 bits, two's complement) -/
def toInt32 (n : Nat) : Int := (((n + 2147483648) % 4294967296 : Nat) : Int) - 2147483648

/-- subtraction of two `int`s; overflow is undefined -/
def subInt32 (a b : Int) : Res Int :=
  if -2147483648 ≤ a - b ∧ a - b ≤ 2147483647 then .ok (a - b) else .ub "signed overflow"

namespace TCoo

/-- `tensor_COO(shape)`: monolish_tensor_coo.hpp:64-67 -/
def new (shape : List Nat) : TCoo α :=
  { shape := shape, index := [], val := [], nnz := 0, alloc := 0, created := true }

/-- `resize(N, Val)`: monolish_tensor_coo.hpp:378-399; `index.resize(N)` pads with empty positions -/
def resize (T : TCoo α) (N : Nat) (v : α) : Res (TCoo α) :=
  if T.created then do
    let b ← reallocCopy T.val T.nnz N v
    .ok { T with val := b, alloc := N, nnz := N, index := stdResize T.index N [] }
  else .throw "Error, not create vector cant use resize"

/-- `insert(pos, value)`: src/utils/at_insert_sort/at_insert_sort_tensor_coo.cpp:29-45; the position is
not checked -/
def insert [Zero α] (T : TCoo α) (pos : List Nat) (value : α) : Res (TCoo α) :=
  if T.created then do
    let T ← if T.nnz ≥ T.alloc then do
              let tmp := T.nnz
              let alloc' := 2 * T.alloc + 1
              let T' ← resize { T with alloc := alloc' } alloc' 0
              pure { T' with nnz := tmp }
            else pure T
    let ix ← wr T.index T.nnz pos
    let v ← wr T.val T.nnz value
    .ok { T with index := ix, val := v, nnz := T.nnz + 1 }
  else .throw "Error, not create coo matrix cant use insert"

/-- the backward search of `at`: at_insert_sort_tensor_coo.cpp:15-21 -/
def atScan [Zero α] (T : TCoo α) (pos : List Nat) : (k : Nat) → Res α
  | 0 => .ok 0
  | k + 1 => do
    let q ← rd T.index k
    if q = pos then rd T.val k else atScan T pos k

/-- `at(pos)`: at_insert_sort_tensor_coo.cpp:10-23 -/
def at_ [Zero α] (T : TCoo α) (pos : List Nat) : Res α := atScan T pos T.nnz

/-! ### `_q_sort` -/

/-- `(int)get_index(index[l])`: at_insert_sort_tensor_coo.cpp:63-65, 70, 74 -/
def keyAt (shape : List Nat) (I : List (List Nat)) (l : Nat) : Res Int := do
  let pos ← rd I l
  let k ← getIndex shape pos
  .ok (toInt32 k)

/-- `while ((l < h) && ((indl - indp)) <= 0)`: at_insert_sort_tensor_coo.cpp:68-71; returns `l` and
`indl`. The first argument bounds the iterations; called with `h - l`, which `l < h` never exceeds. -/
def scanUp (shape : List Nat) (I : List (List Nat)) (indp : Int) (h : Nat) :
    (fuel l : Nat) → (indl : Int) → Res (Nat × Int)
  | 0, l, indl => .ok (l, indl)
  | n + 1, l, indl =>
    if l < h then do
      let d ← subInt32 indl indp
      if d ≤ 0 then do
        let indl ← keyAt shape I (l + 1)
        scanUp shape I indp h n (l + 1) indl
      else .ok (l, indl)
    else .ok (l, indl)

/-- `while ((h > l) && ((indh - indp)) >= 0)`: at_insert_sort_tensor_coo.cpp:72-75 -/
def scanDown (shape : List Nat) (I : List (List Nat)) (indp : Int) (l : Nat) :
    (fuel h : Nat) → (indh : Int) → Res (Nat × Int)
  | 0, h, indh => .ok (h, indh)
  | n + 1, h, indh =>
    if h > l then do
      let d ← subInt32 indh indp
      if d ≥ 0 then do
        let indh ← keyAt shape I (h - 1)
        scanDown shape I indp l n (h - 1) indh
      else .ok (h, indh)
    else .ok (h, indh)

/-- exchange of two elements through a temporary: at_insert_sort_tensor_coo.cpp:77-79, 85-87 -/
def swapBuf {β : Type} (b : List β) (l h : Nat) : Res (List β) := do
  let t ← rd b l
  let u ← rd b h
  let b ← wr b l u
  wr b h t

/-- the partition loop: at_insert_sort_tensor_coo.cpp:67-89. `fuel` bounds the iterations (`ub` when
exhausted; the theorems show that it never is). -/
def partLoop (shape : List Nat) (indp : Int) :
    (fuel l h : Nat) → (indl indh : Int) → List (List Nat) → List α →
      Res (Nat × List (List Nat) × List α)
  | 0, _, _, _, _, _, _ => .ub "fuel"
  | n + 1, l, h, indl, indh, I, V => do
    let (l, indl) ← scanUp shape I indp h (h - l) l indl
    let (h, indh) ← scanDown shape I indp l (h - l) h indh
    if l < h then do
      let I ← swapBuf I l h
      let V ← swapBuf V l h
      partLoop shape indp n l h indh indl I V
    else .ok (l, I, V)

/-- `_q_sort(lo, hi)`: at_insert_sort_tensor_coo.cpp:52-104, on the half-open interval `[lo, hi1)`,
`hi1 = hi + 1`. `fuel` bounds the recursion depth (`ub` when exhausted; never reached from `sort`). -/
def qSort (shape : List Nat) : (fuel lo hi1 : Nat) → List (List Nat) → List α →
    Res (List (List Nat) × List α)
  | 0, _, _, _, _ => .ub "fuel"
  | n + 1, lo, hi1, I, V =>
    if lo + 1 ≥ hi1 then .ok (I, V) else do
      let p := hi1 - 1
      let p1 ← rd I p
      let p3 ← rd V p
      let indl ← keyAt shape I lo
      let indh ← keyAt shape I p
      let indp ← keyAt shape I p
      let (l, I, V) ← partLoop shape indp (hi1 - lo) lo p indl indh I V
      let x ← rd I l
      let I ← wr I p x
      let I ← wr I l p1
      let z ← rd V l
      let V ← wr V p z
      let V ← wr V l p3
      if l - lo < p - l then do
        let (I, V) ← qSort shape n lo l I V
        qSort shape n (l + 1) hi1 I V
      else do
        let (I, V) ← qSort shape n (l + 1) hi1 I V
        qSort shape n lo l I V

/-- one iteration of duplicate removal: at_insert_sort_tensor_coo.cpp:123-127 -/
def mergeStep (i : Nat) (s : Nat × List (List Nat) × List α) : Res (Nat × List (List Nat) × List α) := do
  let (k, I, V) := s
  let a ← rd I k
  let b ← rd I i
  if a ≠ b then do
    let k := k + 1
    let I ← wr I k b
    let v ← rd V i
    let V ← wr V k v
    .ok (k, I, V)
  else do
    let v ← rd V i
    let V ← wr V k v
    .ok (k, I, V)

/-- `sort(merge)`: at_insert_sort_tensor_coo.cpp:108-132 -/
def sort (T : TCoo α) (merge : Bool) : Res (TCoo α) := do
  let (I, V) ← qSort T.shape (T.nnz + 1) 0 T.nnz T.index T.val
  if merge then do
    let (k, I, V) ← forRange 1 T.nnz mergeStep (0, I, V)
    .ok { T with index := I, val := V, nnz := k + 1 }
  else .ok { T with index := I, val := V }

/-! ### conversions -/

/-- one iteration of the loop over the elements of a dense tensor:
src/utils/convert/convert_tensor_coo.cpp:62-71. The state is `index`, the value buffer, `nz`; the test
reads `dense.data()[i]` (no offset), the copy reads `dense.begin()[i]`. -/
def denseStep [Zero α] [DecidableEq α] (D : TDense α) (i : Nat) (s : List (List Nat) × List α × Nat) :
    Res (List (List Nat) × List α × Nat) := do
  let (ix, b, nz) := s
  let t ← rd D.val i
  if t ≠ 0 then do
    let pos ← unindex D.shape i
    let x ← rd D.val (D.first + i)
    let b ← wr b nz x
    .ok (ix ++ [pos], b, nz + 1)
  else .ok (ix, b, nz)

/-- `convert(const tensor_Dense &dense)`: convert_tensor_coo.cpp:50-77 -/
def ofDense [Zero α] [DecidableEq α] (T : TCoo α) (D : TDense α) : Res (TCoo α) := do
  let T ← resize { T with shape := D.shape, created := true } D.nnz 0
  let (ix, b, nz) ← forN D.nnz (denseStep D) ([], T.val, 0)
  resize { T with index := ix, val := b } nz 0

/-! ### diagonal -/

/-- the flag loop of `diag`: src/utils/getvec/tensor_coo_getvec.cpp:22-26 (`index[i][0] != index[i][j]`) -/
def allEqualFirst (pos : List Nat) : Bool := pos.all (fun x => x == pos.headD 0)

/-- `diag(vec)`: tensor_coo_getvec.cpp:8-32 (views: 39-132). `*std::min_element` of an empty shape and
`index[i][0]` of an empty position are undefined. -/
def diag [Zero α] (T : TCoo α) (d : Win α) : Res (Win α) := do
  if T.shape = [] then .ub "min_element of an empty range" else do
  cassert (decide (T.shape.foldl min (T.shape.headD 0) = d.size))
  let b ← forN d.size (fun i b => wr b (d.off + i) 0) d.buf
  let b ← forN T.nnz (fun i b => do
    let pos ← rd T.index i
    if allEqualFirst pos then do
      let r ← rd pos 0
      let v ← rd T.val i
      wr b (d.off + r) v
    else .ok b) b
  .ok { d with buf := b }

end TCoo

namespace TDense

/-- `tensor_Dense::convert(const tensor_COO &coo)`: src/utils/convert/convert_tensor_dense.cpp:35-52 -/
def ofCoo [Zero α] (T : TDense α) (A : TCoo α) : Res (TDense α) := do
  let T ← resizeShape { T with shape := A.shape, created := true } A.shape 0
  let b ← forN T.nnz (fun i b => wr b i 0) T.val
  forN A.nnz (fun i T => do
    let pos ← rd A.index i
    let v ← rd A.val i
    T.insert pos v) { T with val := b }

end TDense
end Verif
