import Verif.Model.TensorDense
import Verif.Model.Vec
import Verif.Core.Par

/-!
# Constructors of the dense classes

`vector`, `matrix::Dense`, `tensor::tensor_Dense`: src/utils/vector_constructor.cpp, dense_constructor.cpp,
tensor_dense_constructor.cpp, and the conversions between them, src/utils/convert/convert_tensor_dense.cpp.

Simplifications: CPU part. `new Float[N]` succeeds. What a pointer argument points to is the list of the elements that may be
read from there. `rnd i` is the value the `i`-th call `rand(mt)` returned, converted to the element type.
-/

namespace Verif

variable {α : Type}

/-- `std::copy(l.begin(), l.end(), dst)`: all of `l` -/
def stdCopy (l dst : List α) : Res (List α) := vcopy l.length l dst

/-- `for (i = 0; i < n; i++) dst[o + i] = rand(mt)` -/
def drawInto (rnd : Nat → α) (o n : Nat) (dst : List α) : Res (List α) := forN n (fun i b => wr b (o + i) (rnd i)) dst

/-- the parallel loop `dst[i] = value`; `order` is the order in which its iterations happen -/
def fillWith (order : List Nat) (value : α) (dst : List α) : Res (List α) := forList order (fun i b => wr b i value) dst

/-- a view: the target's buffer from `data()` on, `get_first()`, the extents. The number of elements is their product.
include/monolish/common/monolish_view1D.hpp:52-74, monolish_view_dense.hpp:52-83, monolish_view_tensor_dense.hpp:52-83 -/
structure Src (α : Type) where
  data : List α
  first : Nat
  shape : List Nat

namespace Vec

/-- `vector(N, value)`: vector_constructor.cpp:18-31 -/
def mkFill [Zero α] (order : List Nat) (N : Nat) (value : α) : Res (Vec α) := do
  let v ← resize (empty : Vec α) N 0
  let b ← fillWith order value v.val
  .ok { v with val := b }

/-- `vector(N, min, max)`, `vector(N, min, max, seed)`: vector_constructor.cpp:55-75, 98-119 -/
def mkRandom [Zero α] (N : Nat) (rnd : Nat → α) : Res (Vec α) := do
  let v ← resize (empty : Vec α) N 0
  let b ← drawInto rnd 0 N v.val
  .ok { v with val := b }

/-- `util::random_vector(vec, min, max)` and with a seed: vector_constructor.cpp:35-50, 78-94 (through `operator[]`) -/
def randomize (v : Vec α) (rnd : Nat → α) : Res (Vec α) := do
  let b ← drawInto rnd v.first v.nnz v.val
  .ok { v with val := b }

/-- `vector(start, end)`: vector_constructor.cpp:122-132; `vector(std::vector)`: :137-145;
`vector(initializer_list)`: :149-157 -/
def mkList [Zero α] (l : List α) : Res (Vec α) := do
  let v ← resize (empty : Vec α) l.length 0
  let b ← stdCopy l v.val
  .ok { v with val := b }

/-- `vector(const vector &)`: vector_constructor.cpp:160-176. It reads from `vec.data()`, not from `vec.begin()`. -/
def mkCopy [Zero α] (w : Vec α) : Res (Vec α) := do
  let v ← resize (empty : Vec α) w.nnz 0
  let b ← vcopy w.nnz w.val v.val
  .ok { v with val := b }

/-- `vector(const view1D<...> &)`: vector_constructor.cpp:181-250 (three overloads): `data() + get_offset()` -/
def mkView [Zero α] (w : Src α) (range : Nat) : Res (Vec α) := do
  let v ← resize (empty : Vec α) range 0
  let b ← vcopy range (w.data.drop w.first) v.val
  .ok { v with val := b }

end Vec

namespace Dense

/-- `set_row(M); set_col(N); val_create_flag = true; resize(M * N)`: the beginning of the constructors -/
def start [Zero α] (M N : Nat) : Res (Dense α) := resize { (empty : Dense α) with rowN := M, colN := N } (M * N) 0

/-- `Dense(M, N, const T *value)`: dense_constructor.cpp:25-36 -/
def mkPtr [Zero α] (M N : Nat) (p : List α) : Res (Dense α) := do
  let A ← start M N
  let b ← vcopy A.nnz p A.val
  .ok { A with val := b }

/-- `Dense(M, N, const std::vector &)`: dense_constructor.cpp:42-53; `Dense(M, N, initializer_list)`: :92-104. All of the
list is copied. -/
def mkList [Zero α] (M N : Nat) (l : List α) : Res (Dense α) := do
  let A ← start M N
  let b ← stdCopy l A.val
  .ok { A with val := b }

/-- `Dense(M, N, const vector &)`: dense_constructor.cpp:59-86 (host part): `get_nnz()` elements from `value.begin()` -/
def mkVec [Zero α] (M N : Nat) (v : Vec α) : Res (Dense α) := do
  let A ← start M N
  let b ← vcopy A.nnz (v.val.drop v.first) A.val
  .ok { A with val := b }

/-- `Dense(M, N, min, max)`, `Dense(M, N, min, max, seed)`: dense_constructor.cpp:110-154 -/
def mkRandom [Zero α] (M N : Nat) (rnd : Nat → α) : Res (Dense α) := do
  let A ← start M N
  let b ← drawInto rnd A.first A.nnz A.val
  .ok { A with val := b }

/-- `Dense(M, N, value)`: dense_constructor.cpp:160-176 (`begin()` is `data()`, the offset of a new object is 0) -/
def mkFill [Zero α] (order : List Nat) (M N : Nat) (value : α) : Res (Dense α) := do
  let A ← start M N
  let b ← fillWith order value A.val
  .ok { A with val := b }

/-- `Dense(const Dense &, value)`: dense_constructor.cpp:207-227 -/
def mkLike [Zero α] (order : List Nat) (mat : Dense α) (value : α) : Res (Dense α) := do
  let A ← resize (empty : Dense α) mat.nnz 0
  let b ← fillWith order value A.val
  .ok { A with rowN := mat.rowN, colN := mat.colN, first := 0, val := b }

/-- `Dense(const view_Dense<...> &)`: dense_constructor.cpp:232-304 (three overloads): from `mat.begin()` -/
def mkView [Zero α] (w : Src α) (row col range : Nat) : Res (Dense α) := do
  let A ← resize (empty : Dense α) range 0
  let b ← vcopy A.nnz (w.data.drop w.first) A.val
  .ok { A with rowN := row, colN := col, first := 0, val := b }

end Dense

namespace TDense

/-- `tensor_Dense(shape, const T *value)`: tensor_dense_constructor.cpp:39-50 -/
def mkPtr [Zero α] (shape : List Nat) (p : List α) : Res (TDense α) := do
  let T ← (new shape : Res (TDense α))
  let b ← vcopy T.nnz p T.val
  .ok { T with val := b }

/-- `tensor_Dense(shape, const std::vector &)`: tensor_dense_constructor.cpp:57-68 -/
def mkList [Zero α] (shape : List Nat) (l : List α) : Res (TDense α) := do
  let T ← (new shape : Res (TDense α))
  let b ← stdCopy l T.val
  .ok { T with val := b }

/-- `tensor_Dense(shape, min, max)` and with a seed: tensor_dense_constructor.cpp:75-118 -/
def mkRandom [Zero α] (shape : List Nat) (rnd : Nat → α) : Res (TDense α) := do
  let T ← (new shape : Res (TDense α))
  let b ← drawInto rnd T.first T.nnz T.val
  .ok { T with val := b }

/-- `tensor_Dense(const tensor_Dense &)`: tensor_dense_constructor.cpp:126-144 -/
def mkCopy [Zero α] (t : TDense α) : Res (TDense α) := do
  let T ← resize (empty : TDense α) t.nnz 0
  let b ← vcopy T.nnz (t.val.drop t.first) T.val
  .ok { T with shape := t.shape, val := b }

/-- `tensor_Dense(const tensor_Dense &, value)`: tensor_dense_constructor.cpp:148-166 -/
def mkLike [Zero α] (order : List Nat) (t : TDense α) (value : α) : Res (TDense α) := do
  let T ← resize (empty : TDense α) t.nnz 0
  let b ← fillWith order value T.val
  .ok { T with shape := t.shape, val := b }

/-- `tensor_Dense(const view_tensor_Dense<...> &)`: tensor_dense_constructor.cpp:173-241 (three overloads) -/
def mkView [Zero α] (w : Src α) (range : Nat) : Res (TDense α) := do
  let T ← resize (empty : TDense α) range 0
  let b ← vcopy T.nnz (w.data.drop w.first) T.val
  .ok { T with shape := w.shape, val := b }

/-- `tensor_Dense::convert(const tensor_Dense &)`: convert_tensor_dense.cpp:11-29. Both sides go through `data()`. -/
def convertT [Zero α] (T t : TDense α) : Res (TDense α) := do
  let T ← resize { T with shape := t.shape, created := true } t.nnz 0
  let b ← vcopy T.nnz t.val T.val
  .ok { T with val := b }

/-- `tensor_Dense::convert(const matrix::Dense &)`: convert_tensor_dense.cpp:60-78; `tensor_Dense(const Dense &)` is this on
an empty tensor (monolish_tensor_dense.hpp:116-119) -/
def convertM [Zero α] (T : TDense α) (A : Dense α) : Res (TDense α) := do
  let T ← resize { T with shape := [A.rowN, A.colN], created := true } A.nnz 0
  let b ← vcopy T.nnz A.val T.val
  .ok { T with val := b }

/-- `tensor_Dense::convert(const vector &)`: convert_tensor_dense.cpp:83-101; `tensor_Dense(const vector &)` is this on an
empty tensor (monolish_tensor_dense.hpp:137-140) -/
def convertV [Zero α] (T : TDense α) (v : Vec α) : Res (TDense α) := do
  let T ← resize { T with shape := [v.nnz], created := true } v.nnz 0
  let b ← vcopy T.nnz v.val T.val
  .ok { T with val := b }

end TDense

end Verif
