import Verif.Model.Dispatch
import Verif.Model.TensorCrs

/-!
The public product functions `blas::matvec`, `matvec_N`, `matvec_T`, `matmul`, `tensvec`, `tensmat`, `mattens`,
`tensmul`: what calling one of their overloads does. The overloads themselves are in the generated table
Verif/Model/ProductSrc.lean; the kernels are those of Verif/Model/{Matvec,TensorDense,TensorCrs}.lean.
Operands do not overlap in memory with the result; `LinearOperator` operands are in Verif/Model/LinOp.lean.
-/

namespace Verif

/-- `CRS_tensor_Dense_?mattens_core`: src/blas/tensor/mattens/crs-tensor_dense_mattens.hpp:10-25, 28-43.
`mm` is `matmul(a, A, ., b, .)` for a CRS matrix as compiled. -/
def Crs.mattensWith {α : Type} (mm : Crs α → Dense α → Dense α → Res (Dense α)) (A : Crs α) (B C : TDense α) :
    Res (TDense α) := do
  let l ← rd B.shape 0
  let Bm ← B.toDense l (-1)
  let Cm ← C.toDense A.rowN Bm.colN
  let r ← mm A Bm Cm
  .ok { C with val := r.val }

namespace Product

open Dispatch (Ty Par Prec)

/-- the public product functions (include/monolish/blas/monolish_matrix_blas.hpp,
monolish_tensor_blas.hpp) -/
inductive Fn | matvec | matvec_N | matvec_T | matmul | tensvec | tensmat | mattens | tensmul
  deriving DecidableEq, Repr

/-- the templates they call: src/blas/matrix/{matvec,matmul}, src/blas/tensor/{tensvec,tensmat,mattens,tensmul} -/
inductive Core
  | matvec | tensvec | matmul_dense | matmul_crs | tensmat_dense | tensmat_crs | mattens_dense | mattens_crs
  | tensmul_dense | tensmul_crs
  deriving DecidableEq, Repr

/-- an argument of the call of a core: parameter `k`, `1.0`, `0.0`, `true` or `false` -/
inductive Arg | par (k : Nat) | one | zero | tt | ff
  deriving DecidableEq, Repr

/-- An overload: name, parameters, the core it calls, the precision of that core (`D...` or `S...`), and the
arguments it passes. -/
structure Overload where
  fn : Fn
  pars : List Par
  core : Core
  prec : Prec
  args : List Arg
  deriving DecidableEq, Repr

variable {α : Type}

/-- a value at run time; a view is the window (offset) it has into its target -/
inductive Val (α : Type)
  | vec (w : Win α) | mat (D : Dense α) | crs (A : Crs α) | ten (T : TDense α) | tcrs (T : TCrs α)
  | scal (a : α) | flag (b : Bool)

/-- how the library was compiled (`MONOLISH_USE_AVX`) and the schedule of a parallel loop of `n` iterations -/
structure Build where
  avx : Bool
  sched : Nat → List Nat

variable [Zero α] [One α] [Add α] [Mul α]

/-- `CRS_Dense_?matmul_core`: the float version has an AVX branch
(src/blas/matrix/matmul/crs-dense_matmul.hpp:8-145, 148-344) -/
def Build.mm (B : Build) (p : Prec) (a b : α) (A : Crs α) (X C : Dense α) : Res (Dense α) :=
  match p, B.avx with
  | .s, true => A.matmulAvx (B.sched A.rowN) (B.sched (A.rowN * X.colN)) a X b C
  | _, _ => A.matmulScalar (B.sched X.colN) a X b C

/-- a call of a core: the new value of its fifth argument (overloading by the classes of the arguments; a call
no template accepts is ill-formed) -/
def Core.exec (B : Build) (p : Prec) : Core → List (Val α) → Res (Val α)
  | .matvec, [.scal a, .mat A, .vec x, .scal b, .vec y, .flag t] => do
    let y ← A.matvecCore a x b y t
    .ok (.vec y)
  | .matvec, [.scal a, .crs A, .vec x, .scal b, .vec y, .flag t] => do
    let y ← A.matvecCore (B.sched A.rowN) (B.sched y.size) a x b y t
    .ok (.vec y)
  | .tensvec, [.scal a, .ten A, .vec x, .scal b, .ten y, .flag false] => do
    let y ← A.tensvec a x b y
    .ok (.ten y)
  | .tensvec, [.scal a, .tcrs A, .vec x, .scal b, .ten y, .flag false] => do
    let r ← rd A.shape (A.shape.length - 2)
    let y ← A.tensvec (B.sched r) a x b y
    .ok (.ten y)
  | .matmul_dense, [.scal a, .mat A, .mat X, .scal b, .mat C, .flag false, .flag false] => do
    let C ← Dense.matmulCore a A X b C
    .ok (.mat C)
  | .matmul_crs, [.scal a, .crs A, .mat X, .scal b, .mat C] => do
    let C ← B.mm p a b A X C
    .ok (.mat C)
  | .tensmat_dense, [.scal a, .ten A, .mat X, .scal b, .ten C, .flag false, .flag false] => do
    let C ← A.tensmat a X b C
    .ok (.ten C)
  | .tensmat_crs, [.scal a, .tcrs A, .mat X, .scal b, .ten C] => do
    let C ← A.tensmatWith (B.mm p a b) X C
    .ok (.ten C)
  | .mattens_dense, [.scal a, .mat A, .ten X, .scal b, .ten C, .flag false, .flag false] => do
    let C ← TDense.mattens a A X b C
    .ok (.ten C)
  | .mattens_crs, [.scal a, .crs A, .ten X, .scal b, .ten C] => do
    let C ← A.mattensWith (B.mm p a b) X C
    .ok (.ten C)
  | .tensmul_dense, [.scal a, .ten A, .ten X, .scal b, .ten C, .flag false, .flag false] => do
    let C ← A.tensmul a X b C
    .ok (.ten C)
  | .tensmul_crs, [.scal a, .tcrs A, .ten X, .scal b, .ten C] => do
    let C ← A.tensmulWith (B.mm p a b) X C
    .ok (.ten C)
  | _, _ => .ub "ill-formed"

/-- the values passed to the core -/
def passOn (vs : List (Val α)) : List Arg → Res (List (Val α))
  | [] => .ok []
  | a :: as => do
    let v ← (match a with
      | .par k => match vs[k]? with
        | some v => .ok v
        | none => .ub "ill-formed"
      | .one => .ok (.scal 1)
      | .zero => .ok (.scal 0)
      | .tt => .ok (.flag true)
      | .ff => .ok (.flag false) : Res (Val α))
    let r ← passOn vs as
    .ok (v :: r)

/-- precision of a parameter -/
def parPrec : Par → Prec
  | .obj _ p _ => p
  | .scal p => p

/-- A call of an overload: the new value of the result operand. A double core does not accept float operands,
nor the other way round. -/
def Overload.run (B : Build) (o : Overload) (vs : List (Val α)) : Res (Val α) :=
  if o.pars.all (fun q => decide (parPrec q = o.prec)) then do
    let as ← passOn vs o.args
    o.core.exec B o.prec as
  else .ub "ill-formed"

end Product
end Verif
