import Verif.Model.DispatchCores

/-!
Public overloads of the element-wise functions and what calling one does. The overloads themselves are in the
generated tables Verif/Model/DispatchSrc*.lean.
-/

namespace Verif.Dispatch

open Verif.Conc

/-- the names of the element-wise functions of the API (namespace `monolish::vml` and `monolish::blas`) -/
inductive Fn
  | vml_add | vml_sub | vml_mul | vml_div | vml_pow | vml_sin | vml_sqrt | vml_sinh | vml_asin | vml_asinh
  | vml_tan | vml_tanh | vml_atan | vml_atanh | vml_ceil | vml_floor | vml_sign | vml_reciprocal | vml_exp
  | vml_max | vml_min | vml_alo
  | blas_vecadd | blas_vecsub | blas_times | blas_copy | blas_axpy | blas_axpyz | blas_scal | blas_xpay
  | blas_matadd | blas_matsub | blas_adds | blas_mscal | blas_tensadd | blas_tenssub | blas_tscal
  deriving DecidableEq, Repr

/-- An overload: its name, its parameters, the core template its body calls, and with which of its
parameters, in order. -/
structure Overload where
  fn : Fn
  pars : List Par
  core : Core
  args : List Nat
  deriving DecidableEq, Repr

/-- precision of the first container parameter -/
def precOf : List Par → Prec
  | .obj _ p _ :: _ => p
  | .scal _ :: ps => precOf ps
  | [] => .d

/-- are the container parameters sparse? -/
def anySparse : List Par → Bool
  | .obj t _ _ :: ps => t.sparse || anySparse ps
  | .scal _ :: ps => anySparse ps
  | [] => false

/-- C++ picks the more specialised core template if the arguments are sparse -/
def Overload.coreDef (o : Overload) : CoreDef :=
  match o.core.defs with
  | (_, some c) => if anySparse o.pars then c else o.core.defs.1
  | (c, none) => c

variable {α : Type}

/-- the arguments passed on, in the order of the call -/
def passOn (args : List (Arg α)) : List Nat → Res (List (Arg α))
  | [] => .ok []
  | k :: ks =>
    match args[k]? with
    | some a => do
      let as ← passOn args ks
      .ok (a :: as)
    | none => .ub "ill-formed"

variable [IntCast α] [Add α] [Sub α] [Mul α] [Div α] [Max α] [Min α]

/-- The checks of a call and the loop it runs. -/
def Overload.loop (H : Hash) (M : Cmath α) (mode : Mode) (o : Overload) (args : List (Arg α)) :
    Res (Loop α) := do
  let as ← passOn args o.args
  o.coreDef.loop kernels H M mode (precOf o.pars) as

/-- A call: the checks, then the loop under the given schedule. -/
def Overload.exec (H : Hash) (M : Cmath α) (mode : Mode) (o : Overload) (args : List (Arg α))
    (sched : List Nat) (mem : List α) (garbage : Nat → Nat → α) : Res (State α) := do
  let L ← o.loop H M mode args
  run L sched (start mem garbage)

end Verif.Dispatch
