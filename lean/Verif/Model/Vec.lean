import Verif.Model.Dense

/-!
Model of `monolish::vector`, `view1D` and `view_Dense`, CPU side.

Simplifications: `gpu_status` false. A view holds a raw pointer to the target's buffer; here the
buffer is passed explicitly to the view's operations (views of a target whose buffer was
re-allocated are the subject of `Verif/Model/Heap.lean`).
-/

namespace Verif

/-- `class vector<Float>`: include/monolish/common/monolish_vector.hpp:47-80. -/
structure Vec (α : Type) where
  val : List α
  nnz : Nat
  alloc : Nat
  first : Nat
  created : Bool
  deriving Repr, DecidableEq

namespace Vec

variable {α : Type}

/-- `vector()`: monolish_vector.hpp:80 -/
def empty : Vec α := { val := [], nnz := 0, alloc := 0, first := 0, created := true }

/-- `vector::resize(N, Val)`: monolish_vector.hpp:446-465 -/
def resize (v : Vec α) (N : Nat) (x : α) : Res (Vec α) :=
  if v.created then do
    let val' ← reallocCopy v.val v.nnz N x
    .ok { v with val := val', alloc := N, nnz := N }
  else .throw "Error, not create vector cant use resize"

/-- `vector::push_back(Val)`: monolish_vector.hpp:473-489 -/
def pushBack [Zero α] (v : Vec α) (x : α) : Res (Vec α) :=
  if v.created then do
    let v ← if v.nnz ≥ v.alloc then do
              let tmp := v.nnz
              let alloc' := 2 * v.alloc + 1
              let v' ← resize { v with alloc := alloc' } alloc' 0
              pure { v' with nnz := tmp }
            else pure v
    let b ← wr v.val v.nnz x
    .ok { v with val := b, nnz := v.nnz + 1 }
  else .throw "Error, not create vector cant use push_back"

/-- `vector(N)`: src/utils/vector_constructor.cpp:8-14 -/
def new [Zero α] (N : Nat) : Res (Vec α) := resize empty N 0

/-- `vector(N, value)`: vector_constructor.cpp:18-31 -/
def newWith [Zero α] (N : Nat) (value : α) : Res (Vec α) := do
  let v ← resize (empty : Vec α) N 0
  let b ← forN N (fun i b => wr b i value) v.val
  .ok { v with val := b }

/-- reading `v[i]`: monolish_vector.hpp:600-605 (`data()[first + i]`, no bounds check) -/
def get (v : Vec α) (i : Nat) : Res α := rd v.val (v.first + i)

/-- assigning `v[i] = x`: monolish_vector.hpp:600-605 -/
def set (v : Vec α) (i : Nat) (x : α) : Res (Vec α) := do
  let b ← wr v.val (v.first + i) x
  .ok { v with val := b }

/-- a mutating call on a vector -/
inductive Op (α : Type) where
  | push (x : α)
  | resize (N : Nat) (x : α)

/-- running one call -/
def run1 [Zero α] (v : Vec α) : Op α → Res (Vec α)
  | .push x => v.pushBack x
  | .resize N x => v.resize N x

/-- running a program of calls in order -/
def run [Zero α] : List (Op α) → Vec α → Res (Vec α)
  | [], v => .ok v
  | o :: os, v => do
    let v ← run1 v o
    run os v

end Vec

/-- `class view1D<TYPE, Float>`: include/monolish/common/monolish_view1D.hpp: `first`, `last`,
`range` (the buffer `target_data` is a separate argument of the operations). -/
structure View1D where
  first : Nat
  last : Nat
  range : Nat
  deriving Repr, DecidableEq

namespace View1D

variable {α : Type}

/-- `view1D(x, start, size)` on a vector, Dense or tensor_Dense: monolish_view1D.hpp (first three
constructors). The target's own offset is not consulted. -/
def ofTarget (start size : Nat) : View1D := { first := start, range := size, last := start + size }

/-- `view1D(x, start, size)` on another view1D: monolish_view1D.hpp (last three constructors) -/
def ofView (x : View1D) (start size : Nat) : View1D :=
  { first := x.first + start, range := size, last := x.first + start + size }

/-- `view1D::operator[]` read: `target_data[i + first]` -/
def get (w : View1D) (b : List α) (i : Nat) : Res α := rd b (i + w.first)

/-- `view1D::operator[]` write -/
def set (w : View1D) (b : List α) (i : Nat) (x : α) : Res (List α) := wr b (i + w.first) x

/-- `view1D::begin()`: offset from `target_data` -/
def beginOff (w : View1D) : Nat := w.first

/-- `view1D::end()`: `target_data + range` -/
def endOff (w : View1D) : Nat := w.range

/-- `view1D::resize(N)`: asserts `first + N <= target.get_nnz()` -/
def resize (w : View1D) (targetNnz N : Nat) : Res View1D := do
  cassert (decide (w.first + N ≤ targetNnz))
  .ok { w with range := N, last := w.first + N }

/-- The elements visited by a standard iteration `for (p = begin(); p != end(); ++p)`. Dereferencing
outside the buffer is undefined behaviour; `fuel` bounds the walk (at most one element per buffer
slot can be read before leaving the buffer). -/
def walk (b : List α) : (fuel p e : Nat) → Res (List α)
  | 0, _, _ => .ub "iterator ran past the buffer"
  | n + 1, p, e =>
    if p = e then .ok [] else do
      let x ← rd b p
      let xs ← walk b n (p + 1) e
      .ok (x :: xs)

/-- iterating a view from `begin()` to `end()` -/
def iterate (w : View1D) (b : List α) : Res (List α) :=
  walk b (b.length + 1) w.beginOff w.endOff

end View1D

/-- `vector::begin()`/`end()`: monolish_vector.hpp:323-349 -/
def Vec.iterate {α : Type} (v : Vec α) : Res (List α) :=
  View1D.walk v.val (v.val.length + 1) v.first (v.first + v.nnz)

/-- `class view_Dense<TYPE, Float>`: include/monolish/common/monolish_view_dense.hpp: a `rowN x colN`
window at linear offset `first` of a target (modelled for a `matrix::Dense` target). -/
structure ViewDense where
  first : Nat
  rowN : Nat
  colN : Nat
  deriving Repr, DecidableEq

namespace ViewDense

variable {α : Type}

/-- `view_Dense::at(i, j)`: monolish_view_dense.hpp:342-344, `target.at(first + i * get_col() + j)` -/
def at_ (w : ViewDense) (T : Dense α) (i j : Nat) : Res α := T.at1 (w.first + i * w.colN + j)

/-- `view_Dense::insert(i, j, Val)`: monolish_view_dense.hpp:397-399 -/
def insert (w : ViewDense) (T : Dense α) (i j : Nat) (x : α) : Res (Dense α) :=
  T.insert1 (w.first + i * w.colN + j) x

/-- `view_Dense(x, start, row, col)` on another view_Dense: monolish_view_dense.hpp:140-187 -/
def ofView (x : ViewDense) (start row col : Nat) : ViewDense :=
  { first := x.first + start, rowN := row, colN := col }

end ViewDense

end Verif
