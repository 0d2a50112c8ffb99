import Verif.Core.Buf
import Verif.Model.Vec

/-!
Model of storage that several objects share (`std::shared_ptr<Float> val`): `vector`, `matrix::Dense`
and `tensor::tensor_Dense` objects, `move` between them, `resize`, element access, destruction, and
`view1D` objects, which keep the raw pointer `target_data`. CPU side only.

A buffer of the heap is alive while some object owns it (reference counting). Access through a raw
pointer to a buffer that no object owns is undefined behaviour.

Simplification: an object's elements are addressed by their linear index (`at(i)` / `operator[]`);
`at(i, j)` and `at(pos)` compute a linear index and call it (see Model/Dense, Model/TensorDense).
-/

namespace Verif.Shared

variable {α : Type}

/-- the class of an object with its shape -/
inductive Kind where
  | vec
  | dense (row col : Nat)
  | tens (shape : List Nat)
  deriving Repr, DecidableEq

/-- data members shared by the three classes: include/monolish/common/monolish_vector.hpp:42-75,
monolish_dense.hpp:41-72, monolish_tensor_dense.hpp; `buf` is the address held by `val` -/
structure Obj where
  kind : Kind
  buf : Nat
  first : Nat
  nnz : Nat
  alloc : Nat
  created : Bool
  deriving Repr, DecidableEq

/-- heap and objects; a destroyed object is `none` -/
structure Sys (α : Type) where
  bufs : List (List α)
  objs : List (Option Obj)
  deriving Repr, DecidableEq

/-- the object a user names; using a destroyed object is undefined -/
def Sys.obj (s : Sys α) (i : Nat) : Res Obj :=
  match s.objs[i]? with
  | some (some o) => .ok o
  | _ => .ub "use of a destroyed object"

/-- bounds checks of `at(i)` / `insert(i, v)`: at_insert_sort_dense.cpp:13-14,
at_insert_sort_tensor_dense.cpp:14-15; `vector::operator[]` has none (monolish_vector.hpp:600-605) -/
def Obj.check (o : Obj) (k : Nat) : Res Unit :=
  match o.kind with
  | .vec => .ok ()
  | _ => do
    cassert (decide (k < o.nnz))
    cassert (decide (o.first + k < o.alloc))

/-- reading element `k`: `data()[first + k]` -/
def Sys.read (s : Sys α) (i k : Nat) : Res α := do
  let o ← s.obj i
  o.check k
  let b ← rd s.bufs o.buf
  rd b (o.first + k)

/-- writing element `k` -/
def Sys.write (s : Sys α) (i k : Nat) (v : α) : Res (Sys α) := do
  let o ← s.obj i
  o.check k
  let b ← rd s.bufs o.buf
  let b ← wr b (o.first + k) v
  let bs ← wr s.bufs o.buf b
  .ok { s with bufs := bs }

/-- construction with `n` elements of value `v`: a fresh buffer -/
def Sys.create (s : Sys α) (kind : Kind) (n : Nat) (v : α) : Sys α :=
  { bufs := s.bufs ++ [List.replicate n v]
    objs := s.objs ++ [some { kind := kind, buf := s.bufs.length, first := 0, nnz := n, alloc := n,
                              created := true }] }

/-- destructor -/
def Sys.destroy (s : Sys α) (i : Nat) : Res (Sys α) := do
  let _ ← s.obj i
  .ok { s with objs := s.objs.set i none }

/-- `resize(N, Val)`: monolish_vector.hpp:446-465 (`vec`, always a new buffer),
monolish_dense.hpp / monolish_tensor_dense.hpp:642-669 (in place when the storage suffices) -/
def Sys.resize (s : Sys α) (i N : Nat) (v : α) : Res (Sys α) := do
  let o ← s.obj i
  if o.kind ≠ .vec ∧ o.first + N < o.alloc then do
    let b ← rd s.bufs o.buf
    let b ← forRange o.nnz N (fun k b => wr b (o.first + k) v) b
    let bs ← wr s.bufs o.buf b
    .ok { bufs := bs, objs := s.objs.set i (some { o with nnz := N }) }
  else if o.created then do
    let b ← rd s.bufs o.buf
    let b ← reallocCopy b o.nnz N v
    .ok { bufs := s.bufs ++ [b]
          objs := s.objs.set i (some { o with buf := s.bufs.length, alloc := N, nnz := N,
                                              first := if o.kind = .vec then o.first else 0 }) }
  else .throw "Error, not create vector cant use resize"

/-- the class and shape of `dst` after `dst.move(src)`, `none` when it throws or does not exist:
src/utils/move/move_vector.cpp:10-31, move_dense.cpp:10-31, move_tensor_dense.cpp:11-51 -/
def moveKind (dst src : Kind) (n : Nat) : Option Kind :=
  match dst, src with
  | .vec, .tens [_] => some .vec
  | .dense _ _, .tens [r, c] => some (.dense r c)
  | .tens _, .dense r c => some (.tens [r, c])
  | .tens _, .vec => some (.tens [n])
  | _, _ => none

/-- `dst.move(src)`: same places as `moveKind`; the object takes the storage, offset, sizes of `src`
and `val_create_flag = false` -/
def Sys.move (s : Sys α) (dst src : Nat) : Res (Sys α) := do
  let d ← s.obj dst
  let t ← s.obj src
  match moveKind d.kind t.kind t.nnz with
  | some k => .ok { s with objs := s.objs.set dst (some { t with kind := k, created := false }) }
  | none => .throw "error cannot move"

/-- operations of a history -/
inductive Op (α : Type) where
  | write (i k : Nat) (v : α)
  | create (kind : Kind) (n : Nat) (v : α)
  | destroy (i : Nat)
  | resize (i N : Nat) (v : α)
  | move (dst src : Nat)

/-- one operation; an exception is caught by the caller and leaves the objects as they were (every
`throw` above precedes the first assignment) -/
def Sys.step (s : Sys α) (op : Op α) : Res (Sys α) :=
  let r := match op with
    | .write i k v => s.write i k v
    | .create kind n v => .ok (s.create kind n v)
    | .destroy i => s.destroy i
    | .resize i N v => s.resize i N v
    | .move d t => s.move d t
  match r with
  | .throw _ => .ok s
  | r => r

/-- a history -/
def Sys.run (s : Sys α) : List (Op α) → Res (Sys α)
  | [] => .ok s
  | op :: ops => do
    let s ← s.step op
    s.run ops

/-! ### views -/

/-- `view1D`: include/monolish/common/monolish_view1D.hpp:52-56 (`target_data` is a raw pointer) -/
structure View where
  addr : Nat
  first : Nat
  range : Nat
  deriving Repr, DecidableEq

/-- `view1D(x, start, size)`: monolish_view1D.hpp:69-74, 86-92, 104-110 -/
def Sys.view (s : Sys α) (i start size : Nat) : Res View := do
  let o ← s.obj i
  .ok { addr := o.buf, first := start, range := size }

/-- whether some object owns the buffer at `addr` -/
def Sys.owned (s : Sys α) (addr : Nat) : Bool :=
  s.objs.any (fun o => match o with | some o => o.buf == addr | none => false)

/-- reading `view[k]`: monolish_view1D.hpp:445-450 (`target_data[i + first]`) -/
def Sys.viewRead (s : Sys α) (w : View) (k : Nat) : Res α :=
  if s.owned w.addr then do
    let b ← rd s.bufs w.addr
    rd b (k + w.first)
  else .ub "dangling pointer"

/-- assigning `view[k] = v`: monolish_view1D.hpp:445-450 -/
def Sys.viewWrite (s : Sys α) (w : View) (k : Nat) (v : α) : Res (Sys α) :=
  if s.owned w.addr then do
    let b ← rd s.bufs w.addr
    let b ← wr b (k + w.first) v
    let bs ← wr s.bufs w.addr b
    .ok { s with bufs := bs }
  else .ub "dangling pointer"

/-- `dst.move(view_tensor_Dense(src, start, shape))`: src/utils/move/move_dense.cpp:96-117,
move_vector.cpp (views): storage and `alloc_nnz` of the view's target, offset of the view -/
def Sys.moveView (s : Sys α) (dst src start : Nat) (kind : Kind) (n : Nat) : Res (Sys α) := do
  let _ ← s.obj dst
  let t ← s.obj src
  .ok { s with objs := s.objs.set dst (some { kind := kind, buf := t.buf, first := start, nnz := n,
                                              alloc := t.alloc, created := false }) }

end Verif.Shared
