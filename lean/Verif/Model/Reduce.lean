import Verif.Core.Par
import Verif.Model.Dense

/-!
Model of the reductions (`#pragma omp parallel for reduction(op : ans)`), CPU side, MPI off.
-/

namespace Verif

variable {α : Type}

/-- How the OpenMP runtime executes a reduction: each leaf is a thread with its iterations in the order
it executes them; inner nodes say in which order the private results are combined. -/
inductive RTree where
  | thread (iters : List Nat)
  | node (l r : RTree)

/-- all iterations -/
def RTree.iters : RTree → List Nat
  | .thread l => l
  | .node l r => l.iters ++ r.iters

/-- a legal execution of `N` iterations: each exactly once -/
def RTree.Legal (t : RTree) (N : Nat) : Prop := List.Perm t.iters (List.range N)

/-- private results: every thread starts from the operator's identity `e` and runs `body`; results are
combined with `comb` -/
def RTree.eval (e : α) (comb : α → α → α) (body : Nat → α → Res α) : RTree → Res α
  | .thread l => forList l body e
  | .node l r => do
    let x ← l.eval e comb body
    let y ← r.eval e comb body
    .ok (comb x y)

/-- the reduction: the combined private results are combined with the original value -/
def reduction (t : RTree) (init e : α) (comb : α → α → α) (body : Nat → α → Res α) : Res α := do
  let x ← t.eval e comb body
  .ok (comb init x)

/-- `sum(x)`: src/blas/vector/sum.hpp:6-38; the array is the buffer from `off` on -/
def sumCore [Zero α] [Add α] (t : RTree) (x : List α) (off : Nat) : Res α :=
  reduction t 0 0 (· + ·) (fun i ans => do let u ← rd x (off + i); .ok (ans + u))

/-- `nrm1(x)`, `asum(x)`: src/blas/vector/nrm1.hpp:6-38, asum.hpp:5-35 (`cblas_?asum`: reference
semantics); `absf` is `std::abs` -/
def nrm1Core [Zero α] [Add α] (absf : α → α) (t : RTree) (x : List α) (off : Nat) : Res α :=
  reduction t 0 0 (· + ·) (fun i ans => do let u ← rd x (off + i); .ok (ans + absf u))

/-- `dot(x, y)`: src/blas/vector/dot.hpp:6-41 (`cblas_?dot`: reference semantics, any association) -/
def dotCore [Zero α] [Add α] [Mul α] (t : RTree) (x : List α) (ox nx : Nat) (y : List α) (oy ny : Nat) :
    Res α := do
  cassert (decide (nx = ny))
  reduction t 0 0 (· + ·) (fun i ans => do
    let u ← rd x (ox + i)
    let v ← rd y (oy + i)
    .ok (ans + u * v))

/-- `nrm2(x)`: src/blas/vector/nrm2.hpp:6-36; `sqrtf` is `sqrt` -/
def nrm2Core [Zero α] [Add α] [Mul α] (sqrtf : α → α) (t : RTree) (x : List α) (off n : Nat) :
    Res α := do
  let a ← dotCore t x off n x off n
  .ok (sqrtf a)

/-- `std::max`: `(a < b) ? b : a` -/
def stdMax [LT α] [DecidableLT α] (a b : α) : α := if a < b then b else a

/-- `std::min`: `(b < a) ? b : a` -/
def stdMin [LT α] [DecidableLT α] (a b : α) : α := if b < a then b else a

/-- `internal::vmax(N, y)`: src/internal/math/double_math.cpp:432-460. The initial value is read from
`y[0]` without checking `N`; the private copies of `reduction(max : max)` start from the least
representable number `lo`. -/
def vmaxRed [LT α] [DecidableLT α] (lo : α) (t : RTree) (y : List α) (off : Nat) : Res α := do
  let m ← rd y (off + 0)
  reduction t m lo stdMax (fun i mx => do
    let u ← rd y (off + i)
    .ok (if u > mx then u else mx))

/-- `internal::vmin(N, y)`: double_math.cpp:513-541; the private copies start from the greatest
representable number `hi` -/
def vminRed [LT α] [DecidableLT α] (hi : α) (t : RTree) (y : List α) (off : Nat) : Res α := do
  let m ← rd y (off + 0)
  reduction t m hi stdMin (fun i mn => do
    let u ← rd y (off + i)
    .ok (if u < mn then u else mn))

/-- `mmax_core`: src/vml/matrix/math_1_3op/matmax.hpp:37-50 (tensors: tensor/math_1_3op/tensmax.hpp:37-50).
`isDense` is `typeid(F1) == typeid(matrix::Dense<F2>)`. -/
def mmaxCore [LT α] [DecidableLT α] [Zero α] (lo : α) (isDense : Bool) (t : RTree) (y : List α)
    (off : Nat) : Res α := do
  let m ← vmaxRed lo t y off
  .ok (if isDense then m else stdMax m 0)

/-- `mmin_core`: src/vml/matrix/math_1_3op/matmin.hpp:37-50 -/
def mminCore [LT α] [DecidableLT α] [Zero α] (hi : α) (isDense : Bool) (t : RTree) (y : List α)
    (off : Nat) : Res α := do
  let m ← vminRed hi t y off
  .ok (if isDense then m else stdMin m 0)

/-- `vml::max(const matrix::Dense &C)` -/
def Dense.maxEl [LT α] [DecidableLT α] [Zero α] (lo : α) (t : RTree) (C : Dense α) : Res α :=
  mmaxCore lo true t C.val C.first

/-- `vml::min(const matrix::Dense &C)` -/
def Dense.minEl [LT α] [DecidableLT α] [Zero α] (hi : α) (t : RTree) (C : Dense α) : Res α :=
  mminCore hi true t C.val C.first

/-- `vml::max(const view_Dense<...> &C)`: `begin()` is `target_data + first` -/
def viewMaxEl [LT α] [DecidableLT α] [Zero α] (lo : α) (t : RTree) (target : List α) (first : Nat) : Res α :=
  mmaxCore lo false t target first

/-- `vml::max(const matrix::CRS &C)`: the stored values -/
def Crs.maxEl [LT α] [DecidableLT α] [Zero α] (lo : α) (t : RTree) (C : Crs α) : Res α :=
  mmaxCore lo false t C.val 0

/-- `vml::min(const matrix::CRS &C)` -/
def Crs.minEl [LT α] [DecidableLT α] [Zero α] (hi : α) (t : RTree) (C : Crs α) : Res α :=
  mminCore hi false t C.val 0

end Verif
