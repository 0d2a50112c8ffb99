import Verif.Model.Dispatch
import Verif.Model.Scale
import Verif.Model.TensorScale
import Verif.Model.TensorCrs

/-!
The public functions `blas::times_row`, `times_col`, `adds_row`, `adds_col` (multiply or add a vector to the rows or
columns of a matrix or tensor, or to one of them): what calling one of their overloads does. The overloads themselves
are in the generated table Verif/Model/LineOpSrc.lean; the kernels are those of Verif/Model/{Scale,TensorScale,
TensorCrs}.lean. The vector does not overlap in memory with the result; the two matrix operands are distinct or the
same object.
-/

namespace Verif.LineOp

open Dispatch (Ty Prec)

/-- the public functions (include/monolish/blas/monolish_matvec_blas.hpp, monolish_tensvec_blas.hpp) and, with the
suffix `_core`, the templates they call (src/blas/matrix/{times,adds}/*.hpp, src/blas/tensor/{times,adds}/*.hpp) -/
inductive Fn | times_row | times_col | adds_row | adds_col
  deriving DecidableEq, Repr

/-- a parameter: a (const) reference to a container, or a line number (`const size_t`) -/
inductive Par | obj (t : Ty) (p : Prec) (const : Bool) | num
  deriving DecidableEq, Repr

/-- An overload: name, parameters, the core it calls, the precision it passes to it as explicit template argument
(tensors only), and which of its parameters it passes, in order. -/
structure Overload where
  fn : Fn
  pars : List Par
  core : Fn
  prec : Option Prec
  args : List Nat
  deriving DecidableEq, Repr

variable {α : Type}

/-- a value at run time; a view is the window (offset) it has into its target, `hash` the `structure_hash` of a
sparse object -/
inductive Val (α : Type)
  | vec (w : Win α) | mat (D : Dense α) | crs (A : HCrs α) | ten (T : TDense α) | tcrs (T : TCrs α) (hash : BitVec 64)
  | num (k : Nat)

/-- the schedule of the `d`-th parallel loop of a call, of `n` iterations -/
abbrev Sched := Nat → Nat → List Nat

variable [Add α] [Mul α]

/-- the operation of the loop: `vmul`, `vadd`, `*`, `+` in the kernels cited in Verif/Model/{Scale,TensorScale}.lean -/
def Fn.op : Fn → α → α → α
  | .times_row | .times_col => (· * ·)
  | .adds_row | .adds_col => (· + ·)

/-- A call of a core: the new value of its last argument. The templates for CRS and tensor_CRS are more specialised
than the general ones (src/blas/matrix/times/{dense,crs}_times.hpp, {dense,crs}_line_times.hpp,
src/blas/matrix/adds/dense_adds.hpp, dense_line_adds.hpp, src/blas/tensor/times/tensor_{dense,crs}_times.hpp,
tensor_dense_line_times.hpp, src/blas/tensor/adds/tensor_dense_adds.hpp, tensor_dense_line_adds.hpp); a call no template
accepts is ill-formed. `same`: the two matrix arguments are one object. -/
def Fn.exec (S : Sched) (same : Bool) : Fn → List (Val α) → Res (Val α)
  | f, [.mat A, .vec x, .mat C] => do
    let C ← match f with
      | .times_row | .adds_row => Dense.scaleRows f.op same (S 0 A.rowN) A x C
      | .times_col | .adds_col => Dense.scaleCols f.op same (S 0 A.rowN) A x C
    .ok (.mat C)
  | f, [.mat A, .num k, .vec x, .mat C] => do
    let C ← match f with
      | .times_row | .adds_row => Dense.scaleRow f.op same (S 0 A.colN) A k x C
      | .times_col | .adds_col => Dense.scaleCol f.op same (S 0 A.rowN) A k x C
    .ok (.mat C)
  | .times_row, [.crs A, .vec x, .crs C] => do
    let C ← HCrs.scaleRows (· * ·) same (S 0 A.mat.rowN) A x C
    .ok (.crs C)
  | .times_col, [.crs A, .vec x, .crs C] => do
    let C ← HCrs.scaleCols (· * ·) same (S 0 A.mat.rowN) A x C
    .ok (.crs C)
  | .times_row, [.crs A, .num k, .vec x, .crs C] => do
    let C ← HCrs.scaleRow (· * ·) same (S 0 (A.mat.rowPtr.getD (k + 1) 0 - A.mat.rowPtr.getD k 0)) A k x C
    .ok (.crs C)
  | .times_col, [.crs A, .num k, .vec x, .crs C] => do
    let C ← HCrs.scaleCol (· * ·) same (S 0 A.mat.rowN) A k x C
    .ok (.crs C)
  | f, [.ten A, .vec x, .ten C] => do
    let C ← match f with
      | .times_row | .adds_row => TDense.scaleRows f.op same (S 0 (A.nnz / x.size)) A x C
      | .times_col | .adds_col => TDense.scaleCols f.op same (S 0 x.size) A x C
    .ok (.ten C)
  | f, [.ten A, .num k, .vec x, .ten C] => do
    let C ← match f with
      | .times_row | .adds_row => TDense.scaleRow f.op same (S 0 x.size) A k x C
      | .times_col | .adds_col => TDense.scaleCol f.op same (S 0 x.size) A k x C
    .ok (.ten C)
  | .times_row, [.tcrs A h, .vec x, .tcrs C h'] => do
    let C ← A.timesRow (decide (A.shape = C.shape ∧ h = h')) same
      (fun d => S d (A.shape.getD (A.shape.length - 2) 0)) x C
    .ok (.tcrs C h')
  | _, _ => .ub "ill-formed"

/-- the values passed to the core -/
def passOn (vs : List (Val α)) : List Nat → Res (List (Val α))
  | [] => .ok []
  | k :: ks => do
    let v ← (match vs[k]? with
      | some v => .ok v
      | none => .ub "ill-formed" : Res (Val α))
    let r ← passOn vs ks
    .ok (v :: r)

/-- precision of a parameter -/
def parPrec : Par → Option Prec
  | .obj _ p _ => some p
  | .num => none

/-- A call of an overload: the new value of the result operand. The containers must have one precision, that of the
explicit template argument if there is one. -/
def Overload.run (S : Sched) (same : Bool) (o : Overload) (vs : List (Val α)) : Res (Val α) :=
  if o.pars.all (fun q => decide (parPrec q = none ∨ parPrec q = o.prec ∨
      (o.prec = none ∧ parPrec q = (o.pars.head?.bind parPrec)))) then do
    let as ← passOn vs o.args
    o.core.exec S same as
  else .ub "ill-formed"

end Verif.LineOp
