import Verif.Model.DispatchSrcVec
import Verif.Model.DispatchSrcMat
import Verif.Model.DispatchSrcTen
import Verif.Model.DispatchSrcBlas
import Verif.Spec.Elementwise
import Mathlib.Algebra.Ring.Defs
import Mathlib.Order.Defs.LinearOrder

/-!
What the element-wise functions are documented to compute (include/monolish_vml.hpp, include/monolish_blas.hpp),
and when their arguments fit together.
-/

namespace Verif.Dispatch

open Verif.Conc

/-- every element-wise overload of the library -/
def api : List Overload :=
  (tVmlVec ++ tVmlMat ++ tVmlTen ++ tBlasVec ++ tBlasMatAddSub ++ tBlasMatTimes ++ tBlasMatAdds ++ tBlasMatScal ++
    tBlasMatCopy ++ tBlasTenAddSub ++ tBlasTenTimes ++ tBlasTenAdds ++ tBlasTenScal ++ tBlasTenCopy).flatten

/-- **The documented meaning of each function**: the value stored at a position of the last argument, from
the values of all arguments at that position before the call (a scalar argument has its value at every
position), in the order of the API. -/
def Fn.want {R : Type} [CommRing R] [LinearOrder R] [Div R] (M : Cmath R) : Fn → List R → Option R
  | .vml_add, [a, b, _] => some (a + b)
  | .vml_sub, [a, b, _] => some (a - b)
  | .vml_mul, [a, b, _] => some (a * b)
  | .vml_div, [a, b, _] => some (a / b)
  | .vml_pow, [a, b, _] => some (M.pow a b)
  | .vml_max, [a, b, _] => some (max a b)
  | .vml_min, [a, b, _] => some (min a b)
  | .vml_sin, [a, _] => some (M.fn .sin a)
  | .vml_sqrt, [a, _] => some (M.fn .sqrt a)
  | .vml_sinh, [a, _] => some (M.fn .sinh a)
  | .vml_asin, [a, _] => some (M.fn .asin a)
  | .vml_asinh, [a, _] => some (M.fn .asinh a)
  | .vml_tan, [a, _] => some (M.fn .tan a)
  | .vml_tanh, [a, _] => some (M.fn .tanh a)
  | .vml_atan, [a, _] => some (M.fn .atan a)
  | .vml_atanh, [a, _] => some (M.fn .atanh a)
  | .vml_ceil, [a, _] => some (M.fn .ceil a)
  | .vml_floor, [a, _] => some (M.fn .floor a)
  | .vml_exp, [a, _] => some (M.fn .exp a)
  | .vml_sign, [a, _] => some (-a)
  | .vml_reciprocal, [a, _] => some (1 / a)
  | .vml_alo, [a, alpha, beta, _] => some (if 0 ≤ a then alpha * a else beta * a)
  | .blas_vecadd, [a, b, _] => some (a + b)
  | .blas_vecsub, [a, b, _] => some (a - b)
  | .blas_matadd, [a, b, _] => some (a + b)
  | .blas_matsub, [a, b, _] => some (a - b)
  | .blas_tensadd, [a, b, _] => some (a + b)
  | .blas_tenssub, [a, b, _] => some (a - b)
  | .blas_times, [a, b, _] => some (a * b)
  | .blas_adds, [alpha, a, _] => some (alpha + a)
  | .blas_copy, [a, _] => some a
  | .blas_axpy, [alpha, x, y] => some (alpha * x + y)
  | .blas_axpyz, [alpha, x, y, _] => some (alpha * x + y)
  | .blas_xpay, [alpha, x, y] => some (x + alpha * y)
  | .blas_scal, [alpha, x] => some (alpha * x)
  | .blas_mscal, [alpha, x] => some (alpha * x)
  | .blas_tscal, [alpha, x] => some (alpha * x)
  | _, _ => none

variable {α : Type}

/-- an argument is of the type of the parameter -/
def Par.takes : Par → Arg α → Prop
  | .obj t p _, .obj o => o.ty = t ∧ o.prec = p
  | .scal _, .scal _ => True
  | _, _ => False

/-- the arguments are of the types of the parameters -/
def Typed : List Par → List (Arg α) → Prop
  | [], [] => True
  | p :: ps, a :: as => p.takes a ∧ Typed ps as
  | _, _ => False

/-- the containers among the arguments -/
def objs : List (Arg α) → List Obj
  | [] => []
  | .obj o :: as => o :: objs as
  | .scal _ :: as => objs as

/-- the class invariant: as many values as the shape, or the pattern, says -/
def Obj.WF (o : Obj) : Prop :=
  o.arr.size = if o.ty.sparse then (o.pattern.2.map List.length).sum else o.shape.prod

/-- the containers have the same shape, and the same pattern if sparse -/
def Alike (os : List Obj) : Prop :=
  ∀ a ∈ os, ∀ b ∈ os, a.shape = b.shape ∧ (a.ty.sparse = true → a.pattern = b.pattern)

/-- value of an argument at position `i` -/
def Arg.at_ (mem : List α) (i : Nat) : Arg α → Option α
  | .obj o => o.arr.el mem i
  | .scal x => some x

/-- values of all the arguments at position `i`, if they all have one -/
def valuesAt (mem : List α) (i : Nat) : List (Arg α) → Option (List α)
  | [] => some []
  | a :: as => do
    let v ← a.at_ mem i
    let vs ← valuesAt mem i as
    some (v :: vs)

/-- the last argument, which every function writes -/
def output (args : List (Arg α)) : Option Obj :=
  match args.getLast? with
  | some (.obj o) => some o
  | _ => none

end Verif.Dispatch
