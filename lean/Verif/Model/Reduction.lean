import Verif.Model.Product
import Verif.Model.Reduce

/-!
The public reductions `blas::asum`, `sum`, `nrm1`, `nrm2`, `dot` and `vml::max`, `min` of one argument: what
calling one of their overloads does. The overloads are in the generated table Verif/Model/ReductionSrc.lean, the
kernels in Verif/Model/Reduce.lean. Without MPI.
-/

namespace Verif.Reduction

open Dispatch (Ty Par Prec)
open Product (Val)

/-- the public functions -/
inductive Fn | asum | sum | nrm1 | nrm2 | dot | max | min
  deriving DecidableEq, Repr

/-- the templates they call: src/blas/vector/{asum,sum,nrm1,nrm2,dot}.hpp, src/vml/vector/math_1_3op/{vmax,vmin}.hpp,
src/vml/matrix/math_1_3op/{matmax,matmin}.hpp, src/vml/tensor/math_1_3op/{tensmax,tensmin}.hpp -/
inductive Core | asum | sum | nrm1 | nrm2 | dot | vmax | vmin | mmax | mmin | tmax | tmin
  deriving DecidableEq, Repr

/-- The body of an overload: `return ?core_core[<tmpl, prec>](args);` or `ans = f(args);` -/
inductive Body
  | core (c : Core) (p : Prec) (tmpl : Option Ty) (args : List Nat)
  | call (f : Fn) (args : List Nat)
  deriving DecidableEq, Repr

/-- An overload: name, parameters (without `ans`), return type or type of `ans`, body -/
structure Overload where
  fn : Fn
  pars : List Par
  ret : Option Prec
  ans : Option Prec
  body : Body
  deriving DecidableEq, Repr

variable {α : Type}

/-- the execution of the parallel loop, `std::abs`, `sqrt`, and the least and greatest number -/
structure Env (α : Type) where
  t : RTree
  absf : α → α
  sqrtf : α → α
  lo : α
  hi : α

/-- the array `begin()` points into and the offset it starts at
(`begin()` is `data() + get_offset()` in all classes) -/
def store : Val α → Option (List α × Nat)
  | .vec w => some (w.buf, w.off)
  | .mat D => some (D.val, D.first)
  | .crs A => some (A.val, 0)
  | .ten T => some (T.val, T.first)
  | .tcrs T => some (T.val, T.first)
  | _ => none

variable [Zero α] [Add α] [Mul α] [LT α] [DecidableLT α]

/-- a call of a core -/
def Core.exec (E : Env α) : Core → Option Ty → List (Val α) → Res α
  | .sum, none, [.vec w] => sumCore E.t w.buf w.off
  | .asum, none, [.vec w] => nrm1Core E.absf E.t w.buf w.off
  | .nrm1, none, [.vec w] => nrm1Core E.absf E.t w.buf w.off
  | .nrm2, none, [.vec w] => nrm2Core E.sqrtf E.t w.buf w.off w.size
  | .dot, none, [.vec w, .vec v] => dotCore E.t w.buf w.off w.size v.buf v.off v.size
  | .vmax, some _, [.vec w] => vmaxRed E.lo E.t w.buf w.off
  | .vmin, some _, [.vec w] => vminRed E.hi E.t w.buf w.off
  | .mmax, some ty, [v] => match store v with
    | some (b, o) => mmaxCore E.lo (decide (ty = .dense)) E.t b o
    | none => .ub "ill-formed"
  | .mmin, some ty, [v] => match store v with
    | some (b, o) => mminCore E.hi (decide (ty = .dense)) E.t b o
    | none => .ub "ill-formed"
  | .tmax, some ty, [v] => match store v with
    | some (b, o) => mmaxCore E.lo (decide (ty = .tdense)) E.t b o
    | none => .ub "ill-formed"
  | .tmin, some ty, [v] => match store v with
    | some (b, o) => mminCore E.hi (decide (ty = .tdense)) E.t b o
    | none => .ub "ill-formed"
  | _, _, _ => .ub "ill-formed"

/-- the arguments number `ks` -/
def pick {β : Type} (l : List β) : List Nat → Option (List β)
  | [] => some []
  | k :: ks => match l[k]?, pick l ks with
    | some x, some xs => some (x :: xs)
    | _, _ => none

/-- `return ?core_core(args)`: the template parameter must be the class of the argument, and the precision of the
core that of the arguments and of the result -/
def runCore (E : Env α) (o : Overload) (vs : List (Val α)) : Res α :=
  match o.body with
  | .core c p tmpl ks =>
    match pick vs ks, pick o.pars ks with
    | some as, some qs =>
      if qs.all (fun q => decide (Product.parPrec q = p)) && decide (o.ret = some p) &&
          (match tmpl, qs with
            | none, _ => true
            | some ty, [.obj ty' _ _] => decide (ty = ty')
            | _, _ => false) then c.exec E tmpl as
      else .ub "ill-formed"
    | _, _ => .ub "ill-formed"
  | .call _ _ => .ub "ill-formed"

/-- A call of an overload: the value returned, or left in `ans`. `ans = f(args)` calls the overload of `f` that
returns a value and takes these parameters (`table`: all overloads). -/
def Overload.run (table : List Overload) (E : Env α) (o : Overload) (vs : List (Val α)) : Res α :=
  match o.body with
  | .core _ _ _ _ => runCore E o vs
  | .call f ks =>
    match pick vs ks, pick o.pars ks with
    | some as, some qs =>
      match table.find? (fun o' => decide (o'.fn = f) && decide (o'.pars = qs) && o'.ret.isSome) with
      | some o' => if decide (o'.ret = o.ans) then runCore E o' as else .ub "ill-formed"
      | none => .ub "ill-formed"
    | _, _ => .ub "ill-formed"

end Verif.Reduction
