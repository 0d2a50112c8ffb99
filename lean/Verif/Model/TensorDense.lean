import Verif.Core.Par
import Verif.Spec.LinAlg
import Verif.Model.Matvec

/-!
Model of `monolish::tensor::tensor_Dense` (row-major dense tensor of any rank), CPU side: index
functions, element access, `resize`, `reshape`, diagonal operations, and the contraction kernels
(`tensvec`, `tensmat`, `mattens`, `tensmul`), which view the tensors as matrices.

`size_t`/`int` overflow is not modelled (sizes are `Nat`); GPU status is false.
-/

namespace Verif

variable {α : Type}

/-- `class tensor_Dense<Float>`: include/monolish/common/monolish_tensor_dense.hpp:13-52. -/
structure TDense (α : Type) where
  shape : List Nat
  val : List α
  nnz : Nat
  alloc : Nat
  first : Nat
  created : Bool
  deriving Repr, DecidableEq

/-- the loop of `get_index(pos)`: monolish_tensor_dense.hpp:871-876, `ind = ind * shape[i] + pos[i]`,
starting from `ind`; both lists have the same length when it is called -/
def horner : (shape pos : List Nat) → (ind : Nat) → Nat
  | s :: ss, p :: ps, ind => horner ss ps (ind * s + p)
  | _, _, ind => ind

/-- `get_index(const std::vector<size_t> &pos)`: monolish_tensor_dense.hpp:867-877; the same function is
in monolish_tensor_coo.hpp, monolish_tensor_crs.hpp and the tensor views -/
def getIndex (shape pos : List Nat) : Res Nat :=
  if pos.length ≠ shape.length then .throw "pos size should be same with the shape"
  else .ok (horner shape pos 0)

/-- the loop of `get_index(const size_t pos)`, from the last extent to the first; returns the indices
and what is left of `pos_copy`: monolish_tensor_dense.hpp:890-894. `%` by 0 is undefined. -/
def unindexLoop : (shape : List Nat) → (k : Nat) → Res (List Nat × Nat)
  | [], k => .ok ([], k)
  | s :: ss, k => do
    let (ind, k') ← unindexLoop ss k
    if s = 0 then .ub "division by zero" else .ok (k' % s :: ind, k' / s)

/-- `get_index(const size_t pos)`: monolish_tensor_dense.hpp:888-896 -/
def unindex (shape : List Nat) (k : Nat) : Res (List Nat) := do
  let r ← unindexLoop shape k
  .ok r.1

namespace TDense

/-- `tensor_Dense()`: an empty object that owns its (empty) storage -/
def empty : TDense α := { shape := [], val := [], nnz := 0, alloc := 0, first := 0, created := true }

/-- `resize(N, Val)`: monolish_tensor_dense.hpp:642-669 -/
def resize (T : TDense α) (N : Nat) (v : α) : Res (TDense α) :=
  if T.first + N < T.alloc then do
    let b ← forRange T.nnz N (fun i b => wr b (T.first + i) v) T.val
    .ok { T with val := b, nnz := N }
  else if T.created then do
    let b ← reallocCopy T.val T.nnz N v
    .ok { T with val := b, alloc := N, nnz := N, first := 0 }
  else .throw "Error, not create vector cant use resize"

/-- the extents multiplied: monolish_tensor_dense.hpp:680-683 -/
def extent (shape : List Nat) : Nat := shape.foldl (fun N n => N * n) 1

/-- `resize(shape, val)`: monolish_tensor_dense.hpp:679-686 -/
def resizeShape (T : TDense α) (shape : List Nat) (v : α) : Res (TDense α) := do
  let T ← T.resize (extent shape) v
  .ok { T with shape := shape }

/-- `tensor_Dense(shape)`: src/utils/tensor_dense_constructor.cpp:11-20 -/
def new [Zero α] (shape : List Nat) : Res (TDense α) :=
  ({ empty with shape := shape } : TDense α).resizeShape shape 0

/-- `at(pos)`: src/utils/at_insert_sort/at_insert_sort_tensor_dense.cpp:10-19 -/
def at1 (T : TDense α) (k : Nat) : Res α := do
  cassert (decide (k < T.nnz))
  cassert (decide (T.first + k < T.alloc))
  rd T.val (T.first + k)

/-- `at(const std::vector<size_t> &pos)`: at_insert_sort_tensor_dense.cpp:23-32 -/
def at_ (T : TDense α) (pos : List Nat) : Res α := do
  let k ← getIndex T.shape pos
  T.at1 k

/-- `insert(pos, Val)`: at_insert_sort_tensor_dense.cpp:36-46 -/
def insert1 (T : TDense α) (k : Nat) (v : α) : Res (TDense α) := do
  cassert (decide (k < T.nnz))
  cassert (decide (T.first + k < T.alloc))
  let b ← wr T.val (T.first + k) v
  .ok { T with val := b }

/-- `insert(const std::vector<size_t> &pos, Val)`: at_insert_sort_tensor_dense.cpp:50-59 -/
def insert (T : TDense α) (pos : List Nat) (v : α) : Res (TDense α) := do
  let k ← getIndex T.shape pos
  T.insert1 k v

/-- first loop of `reshape`: counts negative entries, multiplies the others and stores them in
`this->shape`: src/utils/reshape/reshape_tensor_dense.cpp:13-23. The second list is `this->shape`
after `resize(shape.size())`. Returns `minus`, `N`, `this->shape`. -/
def reshapePass : (req : List Int) → (old : List Nat) → Nat × Nat × List Nat
  | d :: ds, o :: os =>
    let (minus, N, s) := reshapePass ds os
    if d < 0 then (minus + 1, N, o :: s) else (minus, d.toNat * N, d.toNat :: s)
  | _, _ => (0, 1, [])

/-- second loop of `reshape`: the negative entry becomes `get_nnz() / N`; reshape_tensor_dense.cpp:29-35 -/
def reshapeFill (q : Nat) : (req : List Int) → (cur : List Nat) → List Nat
  | d :: ds, c :: cs => (if d < 0 then q else c) :: reshapeFill q ds cs
  | _, cs => cs

/-- `reshape(const std::vector<int> &shape)`: reshape_tensor_dense.cpp:9-45. Returns the object as it is
when the function returns or throws, and the outcome. Division by zero is undefined behaviour. -/
def reshape (T : TDense α) (req : List Int) : TDense α × Res Unit :=
  let (minus, N, s) := reshapePass req (stdResize T.shape req.length 0)
  let T1 := { T with shape := s }
  if minus ≥ 2 then (T1, .throw "negative value of shape should be 0 or 1")
  else if minus = 1 then
    if N = 0 then (T1, .ub "division by zero")
    else
      let s2 := reshapeFill (T.nnz / N) req s
      let T2 := { T with shape := s2 }
      if extent s2 ≠ T.nnz then (T2, .throw "error size should be unchanged when matrix is reshaped")
      else (T2, .ok ())
  else if N ≠ T.nnz then (T1, .throw "error size should be unchanged when matrix is reshaped")
  else (T1, .ok ())

/-- the loop that computes `shift` and `Len` in `tensor_Dense_diag_*_core`, started from
`(shift, N, Len)`: src/blas/tensor/diag_op/tensor_dense_diag_op.hpp:13-21 -/
def diagParams : (shape : List Nat) → (shift N len : Nat) → Nat × Nat
  | [], shift, _, len => (shift, len)
  | s :: ss, shift, N, len => diagParams ss (shift + N) (N * s) (min len s)

/-- `tensor_Dense_diag_{add,sub,mul,div}_core(tens, alpha)`: tensor_dense_diag_op.hpp:9-42, 83-116,
157-190, 231-264; `vald` is `begin()` -/
def diagOpS (op : α → α → α) (T : TDense α) (order : List Nat) (alpha : α) : Res (TDense α) := do
  let shift := (diagParams T.shape 0 1 T.nnz).1
  let b ← forList order (fun i b => do
    let x ← rd b (T.first + shift * i)
    wr b (T.first + shift * i) (op x alpha)) T.val
  .ok { T with val := b }

/-- `tensor_Dense_diag_*_core(tens, size, vecd)`: tensor_dense_diag_op.hpp:45-80, 119-154, 193-228,
267-302 -/
def diagOpV (op : α → α → α) (T : TDense α) (order : List Nat) (d : Win α) : Res (TDense α) := do
  let shift := (diagParams T.shape 0 1 T.nnz).1
  cassert (decide ((diagParams T.shape 0 1 T.nnz).2 = d.size))
  let b ← forList order (fun i b => do
    let x ← rd b (T.first + shift * i)
    let y ← rd d.buf (d.off + i)
    wr b (T.first + shift * i) (op x y)) T.val
  .ok { T with val := b }

/-- iterations of the loops above: `Len` -/
def diagLen (T : TDense α) : Nat := (diagParams T.shape 0 1 T.nnz).2

/-- `Dense::move(tensor_dense, rowN, colN)`: src/utils/move/move_dense.cpp:127-159 (views: 169-300); the
matrix shares the tensor's storage. `nnz / 0` is undefined. -/
def toDense (T : TDense α) (rowN colN : Int) : Res (Dense α) := do
  if rowN < 0 ∧ colN < 0 then
    .throw "error cannot move tensor_Dense->Dense when rowN<0 and colN<0"
  else do
    let r ← (if rowN < 0 then (if colN = 0 then .ub "division by zero" else .ok (T.nnz / colN.toNat))
      else .ok rowN.toNat : Res Nat)
    let c ← (if colN < 0 then (if r = 0 then .ub "division by zero" else .ok (T.nnz / r))
      else .ok colN.toNat : Res Nat)
    if r * c ≠ T.nnz then
      .throw "error cannot move tensor_Dense->Dense when rowN * colN != get_nnz()"
    else
      .ok { rowN := r, colN := c, val := T.val, nnz := T.nnz, alloc := T.alloc, first := T.first,
            created := false }

/-- `shape[shape.size() - 1]`; out of bounds for rank 0 -/
def lastExtent (shape : List Nat) : Res Nat := rd shape (shape.length - 1)

/-- `Dtensvec_core` / `Stensvec_core` with `transA = false` (no public function passes `true`):
src/blas/tensor/tensvec/tensor_dense_tensvec.hpp:8-26, 29-47; `vector::move(y, -1)`:
src/utils/move/move_vector.cpp:117-138. The result is in `y`'s storage. -/
def tensvec [Zero α] [Add α] [Mul α] (a : α) (A : TDense α) (x : Win α) (b : α) (y : TDense α) :
    Res (TDense α) := do
  let l ← lastExtent A.shape
  let Am ← A.toDense (-1) l
  let r ← Am.matvecCore a x b ⟨y.val, y.first, y.nnz⟩ false
  .ok { y with val := r.buf }

/-- `tensor_Dense_Dense_?tensmat_core`: src/blas/tensor/tensmat/tensor_dense-dense_tensmat.hpp:9-28 -/
def tensmat [Zero α] [Add α] [Mul α] (a : α) (A : TDense α) (B : Dense α) (b : α) (C : TDense α) :
    Res (TDense α) := do
  let l ← lastExtent A.shape
  let Am ← A.toDense (-1) l
  let Cm ← C.toDense Am.rowN B.colN
  let r ← Dense.matmulCore a Am B b Cm
  .ok { C with val := r.val }

/-- `Dense_tensor_Dense_?mattens_core`: src/blas/tensor/mattens/dense-tensor_dense_mattens.hpp:9-28 -/
def mattens [Zero α] [Add α] [Mul α] (a : α) (A : Dense α) (B : TDense α) (b : α) (C : TDense α) :
    Res (TDense α) := do
  let l ← rd B.shape 0
  let Bm ← B.toDense l (-1)
  let Cm ← C.toDense A.rowN Bm.colN
  let r ← Dense.matmulCore a A Bm b Cm
  .ok { C with val := r.val }

/-- `tensor_Dense_tensor_Dense_?tensmul_core`:
src/blas/tensor/tensmul/tensor_dense-tensor_dense_tensmul.hpp:9-27 -/
def tensmul [Zero α] [Add α] [Mul α] (a : α) (A B : TDense α) (b : α) (C : TDense α) :
    Res (TDense α) := do
  let l ← lastExtent A.shape
  let Am ← A.toDense (-1) l
  let l' ← rd B.shape 0
  let Bm ← B.toDense l' (-1)
  let Cm ← C.toDense Am.rowN Bm.colN
  let r ← Dense.matmulCore a Am Bm b Cm
  .ok { C with val := r.val }

end TDense
end Verif
