import Verif.Model.Conc

/-!
The element-wise part of the public API, in three layers as in the source:

1. the public overloads (`vml::add(const vector<double> &, const view1D<..> &, ..)`, thousands of them, in
   the generated dispatch files src/vml/{vector,matrix,tensor}/*_vml.cpp, src/blas/vector/vector_blas.cpp,
   src/blas/matrix/{mataddsub,times,adds,scal,copy}/*.cpp, src/blas/tensor/{tensaddsub,times,adds,scal,copy}/*.cpp);
2. the `*_core` templates they call (checks, then one kernel);
3. the kernels `internal::v*` (src/internal/{arithmetic,math}/{double,float}_*.cpp), with their loop, their
   MKL/CBLAS call, and their OpenMP-offload (GPU) loop.

This file gives the language in which the three layers are written down and its meaning; the contents of
the layers are in Verif/Model/DispatchSrc.lean, which tools/dispatch_gen.py extracts from the C++ text.
-/

namespace Verif.Dispatch

open Verif.Conc

/-- `double` or `float` -/
inductive Prec | d | s
  deriving DecidableEq, Repr

/-- what a view looks into: `vector`, `matrix::Dense`, `tensor::tensor_Dense` -/
inductive Own | vec | mat | ten
  deriving DecidableEq, Repr

/-- the C++ class of an argument -/
inductive Ty | vector | view1D (o : Own) | dense | viewDense (o : Own) | crs | tdense | viewTDense (o : Own) | tcrs
  deriving DecidableEq, Repr

/-- the compressed-row classes: comparing their structure compares `get_hash()` -/
def Ty.sparse : Ty → Bool
  | .crs => true
  | .tcrs => true
  | _ => false

/-- a parameter of a public overload: a (const) reference to a container, or a scalar -/
inductive Par | obj (t : Ty) (p : Prec) (const : Bool) | scal (p : Prec)
  deriving DecidableEq, Repr

/-- functions of `<cmath>` of one argument (interpreted by a parameter of the model) -/
inductive MathFn | sqrt | sin | sinh | asin | asinh | tan | tanh | atan | atanh | ceil | floor | exp
  deriving DecidableEq, Repr

/-- binary operators and `std::max`, `std::min`, `std::pow` -/
inductive BinOp | add | sub | mul | div | max | min | pow
  deriving DecidableEq, Repr

/-- The right-hand side of `y[i] = ...` in a loop: `el k` is `p[i]` for the `k`-th parameter `p` (a pointer),
`sc k` the `k`-th parameter (a scalar); parameters are numbered after `N`, from 0. -/
inductive Expr
  | el (k : Nat)
  | sc (k : Nat)
  | lit (z : Int)
  | un (f : MathFn) (e : Expr)
  | bin (op : BinOp) (l r : Expr)
  deriving DecidableEq, Repr

/-- functions of MKL's vector mathematics, CBLAS and cuBLAS used by the kernels -/
inductive LibFn | add | sub | mul | div | pow | powx | math (f : MathFn) | copy | axpy | scal
  deriving DecidableEq, Repr

/-- one statement doing the work: a loop `dst[i] = e`, or a library call with these parameters -/
inductive Stmt | loop (dst : Nat) (e : Expr) | lib (f : LibFn) (args : List Nat)
  deriving DecidableEq, Repr

/-- The meaning of a library call, from the library's documentation (trusted): the equivalent loop.
`v?Add(n, a, b, y)`, `v?Powx(n, a, alpha, y)`, `v?Sin(n, a, y)`, `cblas_?copy(n, x, 1, y, 1)`,
`cblas_?axpy(n, alpha, x, 1, y, 1)`, `cblas_?scal(n, alpha, x, 1)`. -/
def LibFn.meaning : LibFn → List Nat → Option (Nat × Expr)
  | .add, [a, b, y] => some (y, .bin .add (.el a) (.el b))
  | .sub, [a, b, y] => some (y, .bin .sub (.el a) (.el b))
  | .mul, [a, b, y] => some (y, .bin .mul (.el a) (.el b))
  | .div, [a, b, y] => some (y, .bin .div (.el a) (.el b))
  | .pow, [a, b, y] => some (y, .bin .pow (.el a) (.el b))
  | .powx, [a, al, y] => some (y, .bin .pow (.el a) (.sc al))
  | .math f, [a, y] => some (y, .un f (.el a))
  | .copy, [x, y] => some (y, .el x)
  | .axpy, [al, x, y] => some (y, .bin .add (.bin .mul (.sc al) (.el x)) (.el y))
  | .scal, [al, x] => some (x, .bin .mul (.sc al) (.el x))
  | _, _ => none

/-- destination and right-hand side of a statement -/
def Stmt.asLoop : Stmt → Option (Nat × Expr)
  | .loop dst e => some (dst, e)
  | .lib f args => f.meaning args

/-- build configurations: plain CPU, CPU with MKL (`MONOLISH_USE_MKL`), offloading to a GPU -/
inductive Mode | cpu | mkl | gpu
  deriving DecidableEq, Repr

/-- the names of the kernels `internal::v*` -/
inductive KName
  | vadd | vsub | vmul | vdiv | vcopy | vreciprocal | vsqrt | vpow | vsin | vsinh | vasin | vasinh | vtan
  | vtanh | vatan | vatanh | vceil | vfloor | vsign | vexp | vmax | vmin | valo
  deriving DecidableEq, Repr

/-- a kernel: its parameters after `N` (`true`: pointer, `false`: scalar) and before `gpu_status`, and its
statement in each build configuration -/
structure Kern where
  name : KName
  prec : Prec
  pars : List Bool
  cpu : Stmt
  mkl : Stmt
  gpu : Stmt
  deriving DecidableEq, Repr

def Kern.stmt (k : Kern) : Mode → Stmt
  | .cpu => k.cpu
  | .mkl => k.mkl
  | .gpu => k.gpu

/-- the checks at the start of a core template -/
inductive Check | sameSize (ps : List Nat) | sameStructure (ps : List Nat)
  deriving DecidableEq, Repr

/-- an argument of the kernel call: `p.begin()` or the scalar `p` -/
inductive KArg | beg (k : Nat) | val (k : Nat)
  deriving DecidableEq, Repr

/-- what the core runs after its checks: a kernel by name, or statements of its own (written here as an
anonymous kernel; `name` is then not used) -/
inductive Body | call (k : KName) | own (k : Kern)
  deriving DecidableEq, Repr

/-- a core template: `true` for a parameter taken by reference to a container, the checks, the parameter
whose `size()`/`get_nnz()` is passed as `N`, the arguments, and the body -/
structure CoreDef where
  pars : List Bool
  checks : List Check
  n : Nat
  args : List KArg
  body : Body
  deriving DecidableEq, Repr

/-- An object given to the API. `arr` is where its values are (`begin()` and `size()`/`get_nnz()`), `shape`
is what `is_same_size` compares (`{size()}`, `{get_row(), get_col()}`, `get_shape()`), `pattern` the row
pointers and column indices of a sparse object, one array of each per slice (not used otherwise). -/
structure Obj where
  ty : Ty
  prec : Prec
  arr : Arr
  shape : List Nat
  pattern : List (List Nat) × List (List Nat)
  deriving DecidableEq, Repr

/-- the structure hash of a sparse object, as a function of its pattern (src/utils/hash.cpp; see
Verif/Model/Hash.lean for the function itself, here any function) -/
abbrev Hash := List (List Nat) × List (List Nat) → Nat

/-- an actual argument -/
inductive Arg (α : Type) | obj (o : Obj) | scal (x : α)

variable {α : Type}

/-- `util::is_same_size` (include/monolish/common/monolish_common.hpp:692-895;
src/utils/compare/compare_{dense,crs,tensor_dense,tensor_crs}.cpp) -/
def isSameSize (a b : Obj) : Bool := decide (a.shape = b.shape)

/-- `util::is_same_structure` (monolish_common.hpp:404-678; compare_dense.cpp:78-230,
compare_crs.cpp:97-115, compare_tensor_dense.cpp:83-245, compare_tensor_crs.cpp:116-141): sparse objects
compare shape and hash, the others the shape; objects of unrelated classes are never the same. `H` is the
hash function of the structure. -/
def isSameStructure (H : Hash) (a b : Obj) : Bool :=
  match a.ty.sparse, b.ty.sparse with
  | true, true => decide (a.shape = b.shape) && decide (H a.pattern = H b.pattern)
  | false, false => decide (a.shape = b.shape)
  | _, _ => false

/-- the container passed for parameter `k` -/
def getObj (args : List (Arg α)) (k : Nat) : Res Obj :=
  match args[k]? with
  | some (.obj o) => .ok o
  | _ => .ub "ill-formed"

/-- the containers passed for these parameters -/
def getObjs (args : List (Arg α)) : List Nat → Res (List Obj)
  | [] => .ok []
  | k :: ks => do
    let o ← getObj args k
    let os ← getObjs args ks
    .ok (o :: os)

/-- the variadic comparison: the first object with each of the others (monolish_common.hpp:674-678, 890-895) -/
def allSame (r : Obj → Obj → Bool) : List Obj → Bool
  | [] => true
  | o :: os => os.all (r o)

/-- `assert(util::is_same_size(..))`, `assert(util::is_same_structure(..))` -/
def Check.run (H : Hash) (args : List (Arg α)) : Check → Res Unit
  | .sameSize ps => do
    let os ← getObjs args ps
    cassert (allSame isSameSize os)
  | .sameStructure ps => do
    let os ← getObjs args ps
    cassert (allSame (isSameStructure H) os)

/-- the checks in order -/
def runChecks (H : Hash) (args : List (Arg α)) : List Check → Res Unit
  | [] => .ok ()
  | c :: cs => do
    c.run H args
    runChecks H args cs

/-- the value of a kernel argument: an address or a number -/
inductive KVal (α : Type) | ptr (off : Nat) | num (x : α)

def KVal.isPtr : KVal α → Bool
  | .ptr _ => true
  | .num _ => false

/-- evaluation of a kernel argument in the core -/
def KArg.eval (args : List (Arg α)) : KArg → Res (KVal α)
  | .beg k => do
    let o ← getObj args k
    .ok (.ptr o.arr.off)
  | .val k =>
    match args[k]? with
    | some (.scal x) => .ok (.num x)
    | _ => .ub "ill-formed"

def evalArgs (args : List (Arg α)) : List KArg → Res (List (KVal α))
  | [] => .ok []
  | k :: ks => do
    let v ← k.eval args
    let vs ← evalArgs args ks
    .ok (v :: vs)

/-- the pointers read by a right-hand side, in order of evaluation -/
def Expr.reads : Expr → List Nat
  | .el k => [k]
  | .sc _ => []
  | .lit _ => []
  | .un _ e => e.reads
  | .bin _ l r => l.reads ++ r.reads

section Eval

variable [IntCast α] [Add α] [Sub α] [Mul α] [Div α] [Max α] [Min α]

/-- interpretation of `<cmath>` -/
structure Cmath (α : Type) where
  fn : MathFn → α → α
  pow : α → α → α

def BinOp.eval (M : Cmath α) : BinOp → α → α → α
  | .add, x, y => x + y
  | .sub, x, y => x - y
  | .mul, x, y => x * y
  | .div, x, y => x / y
  | .max, x, y => Max.max x y
  | .min, x, y => Min.min x y
  | .pow, x, y => M.pow x y

/-- value of a right-hand side; `reg (start + j)` holds the `j`-th element read, `num k` the scalar `k` -/
def Expr.eval (M : Cmath α) (num : Nat → α) (reg : Nat → α) : Expr → Nat → α
  | .el _, start => reg start
  | .sc k, _ => num k
  | .lit z, _ => (z : α)
  | .un f e, start => M.fn f (e.eval M num reg start)
  | .bin op l r, start => op.eval M (l.eval M num reg start) (r.eval M num reg (start + l.reads.length))

/-- address of a pointer argument (0 for a scalar: such a read is ill-formed and excluded by `wellKinded`) -/
def ptrOf (vals : List (KVal α)) (k : Nat) : Nat :=
  match vals[k]? with
  | some (.ptr o) => o
  | _ => 0

/-- scalar argument -/
def numOf (vals : List (KVal α)) (k : Nat) : α :=
  match vals[k]? with
  | some (.num x) => x
  | _ => ((0 : Int) : α)

/-- every `el` names a pointer and every `sc` a scalar -/
def Expr.wellKinded (kinds : List Bool) : Expr → Bool
  | .el k => kinds[k]? == some true
  | .sc k => kinds[k]? == some false
  | .lit _ => true
  | .un _ e => e.wellKinded kinds
  | .bin _ l r => l.wellKinded kinds && r.wellKinded kinds

/-- the parallel loop of a kernel called with `N` and these arguments -/
def Kern.loop (M : Cmath α) (k : Kern) (mode : Mode) (N : Nat) (vals : List (KVal α)) : Res (Loop α) :=
  if vals.map KVal.isPtr ≠ k.pars then .ub "ill-formed" else
  match (k.stmt mode).asLoop with
  | none => .ub "ill-formed"
  | some (dst, e) =>
    if (k.pars[dst]? == some true) && e.wellKinded k.pars then
      .ok
        { N
          srcs := fun i => e.reads.map (fun p => ptrOf vals p + i)
          dst := fun i => ptrOf vals dst + i
          f := fun _ reg => e.eval M (numOf vals) reg 0 }
    else .ub "ill-formed"

/-- C++ overload resolution among the kernels of one name: by the kinds of the arguments and the precision -/
def resolve (ks : List Kern) (name : KName) (p : Prec) (kinds : List Bool) : Option Kern :=
  ks.find? (fun k => (decide (k.name = name) && decide (k.prec = p)) && decide (k.pars = kinds))

/-- a call of a core template, with the table of kernels -/
def CoreDef.loop (ks : List Kern) (H : Hash) (M : Cmath α) (mode : Mode) (p : Prec) (c : CoreDef)
    (args : List (Arg α)) : Res (Loop α) := do
  runChecks H args c.checks
  let o ← getObj args c.n
  let vals ← evalArgs args c.args
  match c.body with
  | .own k => if k.prec = p then k.loop M mode o.arr.size vals else .ub "ill-formed"
  | .call name =>
    match resolve ks name p (vals.map KVal.isPtr) with
    | some k => k.loop M mode o.arr.size vals
    | none => .ub "ill-formed"

end Eval

end Verif.Dispatch
