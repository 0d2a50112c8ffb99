import Verif.Model.Shared
import Verif.Core.Par

/-!
Model of the view classes `view1D`, `view_Dense`, `view_tensor_Dense` (host side) on the heap of
`Verif/Model/Shared.lean`: construction over objects and over other views, element access, iteration,
`resize`, `fill`, `operator=`.

A view holds a reference to its target and the raw pointer `target_data`. The three classes have the same
members and differ in the shape they show; here the shape is a list (`[n]`, `[row, col]`, `shape`).

Simplifications: a parallel loop and `cblas_dcopy`/`cblas_scopy` run through the indices in an arbitrary
order given as an argument; sizes are natural numbers.
-/

namespace Verif.Shared

variable {α : Type}

/-- Data members of a view except the reference: include/monolish/common/monolish_view1D.hpp:52-56,
monolish_view_dense.hpp:52-60, monolish_view_tensor_dense.hpp:52-59 -/
structure VData where
  addr : Nat
  first : Nat
  last : Nat
  range : Nat
  shape : List Nat
  deriving Repr, DecidableEq

/-- What a view can refer to: a `vector`, `Dense`, `tensor_Dense` object, or another view. -/
inductive Tgt where
  | obj (i : Nat)
  | view (t : Tgt) (d : VData)
  deriving Repr, DecidableEq

/-- extents of an object: `size()`, `get_row()`/`get_col()`, `get_shape()` -/
def Obj.shape (o : Obj) : List Nat :=
  match o.kind with
  | .vec => [o.nnz]
  | .dense r c => [r, c]
  | .tens sh => sh

/-- `calc_range()` / `row * col` / `size` -/
def prod : List Nat → Nat
  | [] => 1
  | a :: l => a * prod l

/-- `view1D(x, start, size)` etc.: monolish_view1D.hpp:69-74, 86-92, 104-110 (over an object: `first = start`),
122-128, 140-147, 159-166 (over a view: `first = x.get_first() + start`); monolish_view_dense.hpp:73-192,
monolish_view_tensor_dense.hpp:71-181 -/
def Sys.mkView (s : Sys α) (t : Tgt) (start : Nat) (shape : List Nat) : Res Tgt :=
  match t with
  | .obj i => do
    let o ← s.obj i
    .ok (.view t { addr := o.buf, first := start, last := start + prod shape, range := prod shape,
                   shape := shape })
  | .view _ d =>
    .ok (.view t { addr := d.addr, first := d.first + start, last := d.first + start + prod shape,
                   range := prod shape, shape := shape })

/-- `get_nnz()` / `size()`: of an object `val_nnz`, of a view `range` (monolish_view1D.hpp:205-218) -/
def Sys.nnzOf (s : Sys α) : Tgt → Res Nat
  | .obj i => do
    let o ← s.obj i
    .ok o.nnz
  | .view _ d => .ok d.range

/-- what `is_same_size` compares (monolish_common.hpp:692-895) -/
def Sys.shapeOf (s : Sys α) : Tgt → Res (List Nat)
  | .obj i => do
    let o ← s.obj i
    .ok o.shape
  | .view _ d => .ok d.shape

/-- `begin()`, as buffer and position: `data() + get_offset()` of an object (monolish_vector.hpp:316-324),
`target_data + get_offset()` of a view (monolish_view1D.hpp:303-321) -/
def Sys.beginOf (s : Sys α) : Tgt → Res (Nat × Nat)
  | .obj i => do
    let o ← s.obj i
    .ok (o.buf, o.first)
  | .view _ d => .ok (d.addr, d.first)

/-- `end()`: `data() + get_offset() + get_nnz()` of an object (monolish_vector.hpp:331-341), but
`target_data + range` of a view (monolish_view1D.hpp:323-341, monolish_view_dense.hpp:463-481) -/
def Sys.endOf (s : Sys α) : Tgt → Res (Nat × Nat)
  | .obj i => do
    let o ← s.obj i
    .ok (o.buf, o.first + o.nnz)
  | .view _ d => .ok (d.addr, d.range)

/-- reading behind a raw pointer -/
def Sys.rawRead (s : Sys α) (addr p : Nat) : Res α :=
  if s.owned addr then do
    let b ← rd s.bufs addr
    rd b p
  else .ub "dangling pointer"

/-- writing behind a raw pointer -/
def Sys.rawWrite (s : Sys α) (addr p : Nat) (v : α) : Res (Sys α) :=
  if s.owned addr then do
    let b ← rd s.bufs addr
    let b ← wr b p v
    let bs ← wr s.bufs addr b
    .ok { s with bufs := bs }
  else .ub "dangling pointer"

/-- `for (auto p = x.begin(); p != x.end(); ++p)`: the values met. When `end()` lies before `begin()` the
loop runs out of the array. -/
def Sys.iterate (s : Sys α) (t : Tgt) : Res (List α) := do
  let b ← s.beginOf t
  let e ← s.endOf t
  if e.2 < b.2 then .ub "iteration does not meet end()"
  else forRange b.2 e.2 (fun p l => do
    let v ← s.rawRead b.1 p
    .ok (l ++ [v])) []

/-- `view[k]`: `target_data[k + first]`, monolish_view1D.hpp:445-450, monolish_view_dense.hpp:590-595;
of an object `data()[first + k]` (`at(k)`) -/
def Sys.bracket (s : Sys α) (t : Tgt) (k : Nat) : Res α :=
  match t with
  | .obj i => s.read i k
  | .view _ d => s.rawRead d.addr (k + d.first)

/-- `view.at(k)`: `target.at(first + k)`, monolish_view_dense.hpp:329-332,
monolish_view_tensor_dense.hpp:316-318 -/
def Sys.atOf (s : Sys α) : Tgt → Nat → Res α
  | .obj i, k => s.read i k
  | .view t d, k => s.atOf t (d.first + k)

/-- `view.insert(k, v)`: `target.insert(first + k, v)`, monolish_view_dense.hpp:396-399,
monolish_view_tensor_dense.hpp:429-432 -/
def Sys.insertOf (s : Sys α) : Tgt → Nat → α → Res (Sys α)
  | .obj i, k, v => s.write i k v
  | .view t d, k, v => s.insertOf t (d.first + k) v

/-- `view.resize(..)`: monolish_view1D.hpp:360-364, monolish_view_dense.hpp:499-505 (the check comes
first); in monolish_view_tensor_dense.hpp:552-558 it comes after the assignments, which makes no
difference for an `assert` -/
def Sys.resizeView (s : Sys α) (t : Tgt) (shape : List Nat) : Res Tgt :=
  match t with
  | .obj _ => .throw "not a view"
  | .view u d => do
    let n ← s.nnzOf u
    cassert (decide (d.first + prod shape ≤ n))
    .ok (.view u { d with shape := shape, range := prod shape, last := d.first + prod shape })

/-- `view.set_first(i)`: monolish_view1D.hpp:257; the other members stay as they are -/
def setFirst (t : Tgt) (i : Nat) : Tgt :=
  match t with
  | .obj j => .obj j
  | .view u d => .view u { d with first := i }

/-- `view.set_last(i)`: monolish_view1D.hpp:264-267 -/
def Sys.setLast (s : Sys α) (t : Tgt) (i : Nat) : Res Tgt :=
  match t with
  | .obj _ => .throw "not a view"
  | .view u d => do
    let n ← s.nnzOf u
    cassert (decide (d.first + i ≤ n))
    .ok (.view u { d with last := i })

/-- `fill(value)`. Objects: `begin()[i] = value` for `i < get_nnz()`, src/utils/fill/fill_vector.cpp:24-28,
fill_dense.cpp:24-27, fill_tensor_dense.cpp:25-28. Views: `data()[i] = value` for `first <= i < last`,
fill_view1D.cpp:12-31, fill_view_dense.cpp:12-31, fill_view_tensor_dense.cpp:12-31. `order`: schedule of
the parallel loop, relative to its first index. -/
def Sys.fill (s : Sys α) (order : List Nat) (t : Tgt) (v : α) : Res (Sys α) :=
  match t with
  | .obj i => do
    let o ← s.obj i
    forList order (fun k s => s.rawWrite o.buf (o.first + k) v) s
  | .view _ d => forList order (fun k s => s.rawWrite d.addr (d.first + k) v) s

/-- number of iterations of the loop in `fill` -/
def Sys.fillCount (s : Sys α) (t : Tgt) : Res Nat :=
  match t with
  | .obj i => do
    let o ← s.obj i
    .ok o.nnz
  | .view _ d => .ok (d.last - d.first)

/-- `internal::vcopy(N, a, y)`: src/internal/arithmetic/double_arithmetic.cpp:232-251 -/
def Sys.vcopyRaw (s : Sys α) (order : List Nat) (a y : Nat × Nat) : Res (Sys α) :=
  forList order (fun k s => do
    let v ← s.rawRead a.1 (a.2 + k)
    s.rawWrite y.1 (y.2 + k) v) s

/-- which class a thing belongs to: vector and view1D, Dense and view_Dense, tensor_Dense and
view_tensor_Dense -/
inductive Cls where
  | one | two | tens
  deriving Repr, DecidableEq

/-- `dst = src` for vectors/view1D (`Cls.one`), Dense/view_Dense, tensor_Dense/view_tensor_Dense:
src/utils/copy/copy_vector.cpp:24-101, copy_dense.cpp:10-88, copy_tensor_dense.cpp:11-28,
copy_view1D.cpp:34-166, copy_view_dense.cpp:9-138, copy_view_tensor_dense.cpp:10-145. In
copy_view1D.cpp:79, 82, 112, 115, 145, 148 the source of a copy from a view is
`vec.begin() + vec.get_offset()`, not `vec.begin()`. -/
def Sys.assign (s : Sys α) (order : List Nat) (c : Cls) (dst src : Tgt) : Res (Sys α) := do
  let sd ← s.shapeOf dst
  let ss ← s.shapeOf src
  cassert (decide (sd = ss))
  let a ← s.beginOf src
  let y ← s.beginOf dst
  match c, dst, src with
  | .one, .view _ _, .view _ d => s.vcopyRaw order (a.1, a.2 + d.first) y
  | _, _, _ => s.vcopyRaw order a y

/-- `view1D = std::vector`: copy_view1D.cpp:10-19 (`resize`, then `std::copy`) -/
def Sys.assignStd (s : Sys α) (t : Tgt) (l : List α) : Res (Tgt × Sys α) := do
  let t ← s.resizeView t [l.length]
  let y ← s.beginOf t
  let s ← forN l.length (fun k s => do
    let v ← rd l k
    s.rawWrite y.1 (y.2 + k) v) s
  .ok (t, s)

/-- `fill` of the sparse classes: `data()[i] = value` for `i < get_nnz()`, fill_coo.cpp:8-19,
fill_crs.cpp:9-32, fill_tensor_coo.cpp, fill_tensor_crs.cpp -/
def fillVals (order : List Nat) (val : List α) (v : α) : Res (List α) :=
  forList order (fun i l => wr l i v) val

end Verif.Shared
