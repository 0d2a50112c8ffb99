import Verif.Model.View

/-!
`move` with given extents, `move` of views, `Dense::reshape` and unary minus, on the heap of
Verif/Model/Shared.lean and the views of Verif/Model/View.lean.

Simplification: `int` and `size_t` are unbounded, so `rowN * colN` does not overflow.
-/

namespace Verif.Shared

variable {α : Type}

/-- The extents `Dense::move(t, rowN, colN)` uses: src/utils/move/move_dense.cpp:127-148 (tensor_Dense),
169-190, 211-232, 253-274 (views); move_view_dense.cpp:46-66. `nnz / 0` is undefined. -/
def inferDims (rowN colN : Int) (nnz : Nat) : Res (Nat × Nat) :=
  if rowN < 0 ∧ colN < 0 then .throw "error cannot move tensor_Dense->Dense when rowN<0 and colN<0"
  else do
    let r ← (if rowN < 0 then (if colN = 0 then .ub "division by zero" else .ok (nnz / colN.toNat))
      else .ok rowN.toNat : Res Nat)
    let c ← (if colN < 0 then (if r = 0 then .ub "division by zero" else .ok (nnz / r))
      else .ok colN.toNat : Res Nat)
    if r * c ≠ nnz then .throw "error cannot move tensor_Dense->Dense when rowN * colN != get_nnz()"
    else .ok (r, c)

/-- `val`, `get_first()`, `get_nnz()`, `get_alloc_nnz()` of a tensor or of a view of an object
(monolish_view_tensor_dense.hpp:244, 286-288: `val` and `alloc_nnz` are those of the target) -/
def Sys.storage (s : Sys α) : Tgt → Res Obj
  | .obj i => s.obj i
  | .view (.obj i) d => do
    let o ← s.obj i
    .ok { o with first := d.first, nnz := d.range }
  | .view (.view _ _) _ => .throw "no such overload"

/-- `dst.move(t, rowN, colN)` of a `matrix::Dense` from a tensor or a view: move_dense.cpp:127-159, 169-201,
211-243, 253-285 -/
def Sys.moveDims (s : Sys α) (dst : Nat) (t : Tgt) (rowN colN : Int) : Res (Sys α) := do
  let _ ← s.obj dst
  let o ← s.storage t
  let rc ← inferDims rowN colN o.nnz
  .ok { s with objs := s.objs.set dst (some { o with kind := .dense rc.1 rc.2, created := false }) }

/-- `dst.move(t, n)` of a `vector` from a tensor or a view: move_vector.cpp:116-139 (views: 146-235) -/
def Sys.moveFlat (s : Sys α) (dst : Nat) (t : Tgt) (n : Int) : Res (Sys α) := do
  let _ ← s.obj dst
  let o ← s.storage t
  if (if n < 0 then (o.nnz : Int) else n) ≠ o.nnz then
    .throw "error cannot move tensor_Dense->vector when nnz != get_nnz()"
  else .ok { s with objs := s.objs.set dst (some { o with kind := .vec, created := false }) }

/-- `v.move(w)` and `v.move(w, rowN, colN)` (`dims`) of a `view_Dense` from a `view_tensor_Dense` over the same
class of object: src/utils/move/move_view_dense.cpp:10-29, 46-78. The member `target` is a reference
(monolish_view_dense.hpp:52), so `this->target = w.get_target()` is `operator=` of the target objects
(`order`: the order of its copying loop). The extents are those of `w` in both. -/
def Sys.moveViewDense (s : Sys α) (order : List Nat) (c : Cls) (v w : Tgt) (dims : Option (Int × Int)) :
    Res (Sys α × Tgt) :=
  match v, w with
  | .view x _, .view z d => do
    match dims with
    | none => if d.shape.length ≠ 2 then .throw "error cannot move tensor_Dense->Dense when shape.size() != 2"
              else .ok ()
    | some rc => do
      let _ ← inferDims rc.1 rc.2 d.range
      .ok ()
    let r ← rd d.shape 0
    let cc ← rd d.shape 1
    let s ← s.assign order c x z
    .ok (s, .view x { d with shape := [r, cc] })
  | _, _ => .throw "not a view"

/-- `Dense::reshape(new_row, new_col)`: src/utils/reshape/reshape_dense.cpp:10-25 -/
def Sys.reshapeDense (s : Sys α) (i row col : Nat) : Res (Sys α) := do
  let o ← s.obj i
  match o.kind with
  | .dense M N =>
    if M * N ≠ row * col then .throw "error size should be unchanged when matrix is reshaped"
    else .ok { s with objs := s.objs.set i (some { o with kind := .dense row col }) }
  | _ => .throw "not a matrix"

/-- `-x` for a vector: src/utils/minus/vector_minus.cpp:8-21: a new vector `ans(size())`, then
`internal::vmul(size(), begin(), -1, ans.begin())` (double_arithmetic.cpp, loop in any order). Gives the new
system and the index of the new object. -/
def Sys.neg [Zero α] [One α] [Neg α] [Mul α] (s : Sys α) (order : List Nat) (i : Nat) : Res (Sys α × Nat) := do
  let o ← s.obj i
  let s1 := s.create .vec o.nnz 0
  let s2 ← forList order (fun k t => do
    let x ← t.rawRead o.buf (o.first + k)
    t.rawWrite s.bufs.length (0 + k) (x * (-1))) s1
  .ok (s2, s.objs.length)

end Verif.Shared
