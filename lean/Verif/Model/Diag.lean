import Verif.Model.Getvec
import Verif.Model.Product

/-!
The members `diag_add`, `diag_sub`, `diag_mul`, `diag_div` of Dense, view_Dense, CRS, tensor_Dense and
view_tensor_Dense: one explicit specialisation per class, precision and argument type, each of which calls a kernel
template. The specialisations and the operators in the kernels are listed in Verif/Model/DiagSrc.lean (generated); here
is what they mean.
-/

namespace Verif.Diag

open Dispatch (Ty Par Prec)
open Product (Val)

/-- the four operations -/
inductive Op | add | sub | mul | div
  deriving DecidableEq, Repr

/-- the kernel families `Dense_diag_*_core`, `CRS_diag_*_core`, `tensor_Dense_diag_*_core` -/
inductive Core | dense | crs | tdense
  deriving DecidableEq, Repr

/-- the two forms of a kernel: `(*this, alpha)` and `(*this, vec.size(), vec.begin())` -/
inductive Form | scal | vec
  deriving DecidableEq, Repr

/-- A member function `cls<prec>::diag_op(arg)` with body `core_diag_coreOp_core(..)`:
src/blas/matrix/diag_op/{dense,crs}_diag_{add,sub,mul,div}.cpp, src/blas/tensor/diag_op/tensor_dense_diag_*.cpp -/
structure Overload where
  op : Op
  cls : Ty
  prec : Prec
  arg : Par
  core : Core
  coreOp : Op
  form : Form
  deriving DecidableEq, Repr

variable {α : Type} [Add α] [Sub α] [Mul α] [Div α]

/-- `+=`, `-=`, `*=`, `/=` -/
def Op.fn : Op → α → α → α
  | .add => (· + ·)
  | .sub => (· - ·)
  | .mul => (· * ·)
  | .div => (· / ·)

/-- A call of a kernel whose loop has the operator `op`: the new value of the object. `S n` is the order in which the
parallel loop runs its `n` iterations. dense_diag_op.hpp, crs_diag_op.hpp, tensor_dense_diag_op.hpp (lines at
`Dense.diagOpS` etc.); arguments the template does not accept are ill-formed. -/
def Core.exec (S : Nat → List Nat) (op : α → α → α) : Core → Form → Val α → Val α → Res (Val α)
  | .dense, .scal, .mat A, .scal a => do
    let A ← A.diagOpS op (S A.diagLen) a
    .ok (.mat A)
  | .dense, .vec, .mat A, .vec d => do
    let A ← A.diagOpV op (S A.diagLen) d
    .ok (.mat A)
  | .crs, .scal, .crs A, .scal a => do
    let A ← A.diagOpS op (S A.rowN) a
    .ok (.crs A)
  | .crs, .vec, .crs A, .vec d => do
    let A ← A.diagOpV op (S (if A.rowN < A.colN then A.rowN else A.colN)) d
    .ok (.crs A)
  | .tdense, .scal, .ten T, .scal a => do
    let T ← T.diagOpS op (S T.diagLen) a
    .ok (.ten T)
  | .tdense, .vec, .ten T, .vec d => do
    let T ← T.diagOpV op (S T.diagLen) d
    .ok (.ten T)
  | _, _, _, _ => .ub "ill-formed"

/-- A call of a member function on the object `self`: the new value of the object. `ks` lists the operators of the
kernels. Template argument deduction needs one precision. -/
def Overload.run (ks : List (Core × Op × Form × Op)) (S : Nat → List Nat) (o : Overload) (self v : Val α) :
    Res (Val α) :=
  match ks.find? (fun k => decide (k.1 = o.core ∧ k.2.1 = o.coreOp ∧ k.2.2.1 = o.form)) with
  | some k =>
    if Product.parPrec o.arg = o.prec then o.core.exec S k.2.2.2.fn o.form self v else .ub "ill-formed"
  | none => .ub "ill-formed"

end Verif.Diag
