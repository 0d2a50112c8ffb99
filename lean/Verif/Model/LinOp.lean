import Verif.Model.SolverMat
import Mathlib.Algebra.Field.Basic
import Mathlib.Algebra.BigOperators.Group.List.Basic

/-!
# `matrix::LinearOperator`

Model of `include/monolish/common/monolish_linearoperator.hpp`, `src/utils/linearoperator_constructor.cpp`,
`src/utils/convert/convert_linearoperator.cpp`, `src/utils/copy/copy_linearoperator.cpp`,
`src/blas/matrix/matvec/linearoperator_matvec.hpp`, `src/blas/matrix/mataddsub/linearoperator_mataddsub.hpp`,
`src/blas/matrix/matmul/linearoperator-linearoperator_matmul.hpp`, `linearoperator-dense_matmul.hpp` and
`src/vml/linearoperator/`.

A LinearOperator holds callbacks.  The callbacks built by the library are lambdas that capture everything **by
reference** (`[&]`), so the objects live in a store: `Store α` maps addresses to objects, and a callback holds
the addresses of the objects it refers to.  Reading an address whose object is gone is undefined behaviour.

Simplifications: vectors are lists; device memory is not modelled; the schedules of the parallel loops inside
`matvec` and `matmul` are given by `ord`; the sums inside `blas::sum` are exact (see C25 for schedules); `matmul`
of a CRS matrix is the scalar branch.  User callbacks are arbitrary functions.
-/

namespace Verif
namespace LinOp

variable {α : Type}

/-- A matvec callback: the user's own, or one of the lambdas of the library with the addresses it refers to
(`self` is the captured `this`, `s` the captured scalar). -/
inductive Clo (α : Type)
  | user (f : List α → Res (List α))
  | coo (m : Nat)
  | crs (self m : Nat)
  | dense (self m : Nat)
  | add (a b : Nat)
  | sub (a b : Nat)
  | mul (a b : Nat)
  | sadd (a s : Nat)
  | ssub (a s : Nat)
  | smul (a s : Nat)
  | sdiv (a s : Nat)

/-- A matmul callback. -/
inductive MClo (α : Type)
  | user (f : Dense α → Res (Dense α))
  | coo (m : Nat)
  | crs (self m : Nat)
  | dense (self m : Nat)

/-- The fields of a LinearOperator (`monolish_linearoperator.hpp:29-66`); a callback that is not
initialised is `none`. -/
structure Op (α : Type) where
  rowN : Nat
  colN : Nat
  mv : Option (Clo α)
  rmv : Option (Clo α)
  mm : Option (MClo α)
  rmm : Option (MClo α)

/-- An object in memory; `dead`: the lifetime has ended. -/
inductive Cell (α : Type)
  | op (L : Op α)
  | coo (A : Coo α)
  | crs (A : Crs α)
  | dense (A : Dense α)
  | scalar (s : α)
  | dead

/-- Memory. -/
abbrev Store (α : Type) := Nat → Cell α

/-- Assignment to an object. -/
def Store.set (σ : Store α) (i : Nat) (c : Cell α) : Store α := fun j => if j = i then c else σ j

/-- Access to an object through a captured reference. -/
def getOp (σ : Store α) (i : Nat) : Res (Op α) :=
  match σ i with
  | .op L => .ok L
  | _ => .ub "dangling reference"

/-- Access to an object through a captured reference. -/
def getCoo (σ : Store α) (i : Nat) : Res (Coo α) :=
  match σ i with
  | .coo A => .ok A
  | _ => .ub "dangling reference"

/-- Access to an object through a captured reference. -/
def getCrs (σ : Store α) (i : Nat) : Res (Crs α) :=
  match σ i with
  | .crs A => .ok A
  | _ => .ub "dangling reference"

/-- Access to an object through a captured reference. -/
def getDense (σ : Store α) (i : Nat) : Res (Dense α) :=
  match σ i with
  | .dense A => .ok A
  | _ => .ub "dangling reference"

/-- Access to an object through a captured reference. -/
def getScalar (σ : Store α) (i : Nat) : Res α :=
  match σ i with
  | .scalar s => .ok s
  | _ => .ub "dangling reference"

/-- Length of the result of `matvec` (`tr = false`) and `rmatvec` (`tr = true`). -/
def Op.outN (L : Op α) (tr : Bool) : Nat := if tr then L.colN else L.rowN

/-- Length of the argument. -/
def Op.inN (L : Op α) (tr : Bool) : Nat := if tr then L.rowN else L.colN

/-- The callback. -/
def Op.fn (L : Op α) (tr : Bool) : Option (Clo α) := if tr then L.rmv else L.mv

/-- `blas::matvec(A, x, y)` and `blas::rmatvec(A, x, y)` with `y` of size `ysize`
(`linearoperator_matvec.hpp:7-63`): size checks, the callback (given as `call`), and `y_tmp = ...`, which
asserts equal sizes (`src/utils/copy/copy_vector.cpp:24-36`). -/
def applyOp (call : Clo α → List α → Res (List α)) (σ : Store α) (tr : Bool) (a : Nat) (x : List α)
    (ysize : Nat) : Res (List α) := do
  let A ← getOp σ a
  cassert (decide (A.outN tr = ysize))
  cassert (decide (A.inN tr = x.length))
  match A.fn tr with
  | none => .throw "error matvec is not initialized"
  | some c => do
    let y ← call c x
    cassert (decide (y.length = ysize))
    .ok y

variable [Field α]

/-- A call of a callback.  `tr` tells whether it is the matvec or the rmatvec callback of the operator (the
two lambdas differ only in the sizes and in the functions they call).  The first argument bounds the depth of
nested calls: exceeding every bound is endless recursion.

* conversions: `convert_linearoperator.cpp:27-32, 61-66, 97-102`
* `add`, `sub`: `linearoperator_mataddsub.hpp:23-51, 72-100` and
  `src/vml/linearoperator/double_linearoperator_linearoperator.cpp:24-52, 71-99`
* `mul`: `linearoperator-linearoperator_matmul.hpp:24-48`
* scalars: `src/vml/linearoperator/double_scalar_linearoperator.cpp:20-46, 61-87, 102-128, 143-169` -/
def call (ord : Nat → List Nat) (σ : Store α) (tr : Bool) : Nat → Clo α → List α → Res (List α)
  | 0, _, _ => .ub "endless recursion"
  | n + 1, c, x =>
    match c with
    | .user f => f x
    | .coo m => do
      let coo ← getCoo σ m
      let A ← Crs.ofCoo coo
      (Solver.ofCrs (ord A.rowN) (ord A.rowN) A).mv x
    | .crs self m => do
      let _ ← getOp σ self
      let A ← getCrs σ m
      (Solver.ofCrs (ord A.rowN) (ord A.rowN) A).mv x
    | .dense self m => do
      let _ ← getOp σ self
      let A ← getDense σ m
      (Solver.ofDense (ord A.rowN) A).mv x
    | .add a b => do
      let A ← getOp σ a
      let vec ← applyOp (call ord σ tr n) σ tr a x (A.outN tr)
      let tmp ← applyOp (call ord σ tr n) σ tr b x (A.outN tr)
      .ok (List.zipWith (fun t v => 1 * t + v) tmp vec)
    | .sub a b => do
      let A ← getOp σ a
      let vec ← applyOp (call ord σ tr n) σ tr a x (A.outN tr)
      let tmp ← applyOp (call ord σ tr n) σ tr b x (A.outN tr)
      .ok (List.zipWith (fun t v => -1 * t + v) tmp vec)
    | .mul a b => do
      let A ← getOp σ a
      let B ← getOp σ b
      if tr then do
        let tmp ← applyOp (call ord σ tr n) σ tr a x A.colN
        applyOp (call ord σ tr n) σ tr b tmp B.colN
      else do
        let tmp ← applyOp (call ord σ tr n) σ tr b x B.rowN
        applyOp (call ord σ tr n) σ tr a tmp A.rowN
    | .sadd a s => do
      let A ← getOp σ a
      let tmp ← applyOp (call ord σ tr n) σ tr a x (A.outN tr)
      let alpha ← getScalar σ s
      .ok (tmp.map (fun t => t + alpha * x.sum))
    | .ssub a s => do
      let A ← getOp σ a
      let tmp ← applyOp (call ord σ tr n) σ tr a x (A.outN tr)
      let alpha ← getScalar σ s
      .ok (tmp.map (fun t => t - alpha * x.sum))
    | .smul a s => do
      let A ← getOp σ a
      let tmp ← applyOp (call ord σ tr n) σ tr a x (A.outN tr)
      let alpha ← getScalar σ s
      .ok (tmp.map (fun t => t * alpha))
    | .sdiv a s => do
      let A ← getOp σ a
      let tmp ← applyOp (call ord σ tr n) σ tr a x (A.outN tr)
      let alpha ← getScalar σ s
      .ok (tmp.map (fun t => t * (1 / alpha)))

/-- `blas::matvec` / `blas::rmatvec` on a LinearOperator. -/
def matvec (ord : Nat → List Nat) (n : Nat) (σ : Store α) (tr : Bool) (a : Nat) (x : List α) (ysize : Nat) :
    Res (List α) :=
  applyOp (call ord σ tr n) σ tr a x ysize

/-- `LinearOperator::convert(CRS &)` (`convert_linearoperator.cpp:48-79`). -/
def convertCrs (σ : Store α) (l m : Nat) : Res (Store α) := do
  let _ ← getOp σ l
  let A ← getCrs σ m
  .ok (σ.set l (.op ⟨A.rowN, A.colN, some (.crs l m), none, some (.crs l m), none⟩))

/-- `LinearOperator::convert(Dense &)` (`convert_linearoperator.cpp:84-115`). -/
def convertDense (σ : Store α) (l m : Nat) : Res (Store α) := do
  let _ ← getOp σ l
  let A ← getDense σ m
  .ok (σ.set l (.op ⟨A.rowN, A.colN, some (.dense l m), none, some (.dense l m), none⟩))

/-- `LinearOperator::convert(COO &)` (`convert_linearoperator.cpp:16-43`). -/
def convertCoo (σ : Store α) (l m : Nat) : Res (Store α) := do
  let _ ← getOp σ l
  let A ← getCoo σ m
  .ok (σ.set l (.op ⟨A.rowN, A.colN, some (.coo m), none, some (.coo m), none⟩))

/-- `util::is_same_size` on LinearOperators (`src/utils/compare/compare_linearoperator.cpp:31-45`): false
only if the rows **and** the columns differ. -/
def sameSize (A B : Op α) : Bool := !(decide (A.rowN ≠ B.rowN) && decide (A.colN ≠ B.colN))

/-- `C.set_matvec`/`C.set_rmatvec` with the new lambda `f`, each only if `A` has that callback. -/
def setFns (A C : Op α) (f : Clo α) : Op α :=
  { C with
    mv := if A.mv.isSome then some f else C.mv
    rmv := if A.rmv.isSome then some f else C.rmv }

/-- `blas::matadd`, `vml::add` (`linearoperator_mataddsub.hpp:9-55`) and `blas::matsub`, `vml::sub`
(`:57-104`) on LinearOperators. -/
def addsub (f : Nat → Nat → Clo α) (σ : Store α) (a b c : Nat) : Res (Store α) := do
  let A ← getOp σ a
  let B ← getOp σ b
  let C ← getOp σ c
  cassert (sameSize A B && sameSize A C)
  cassert (decide (A.mv.isSome = B.mv.isSome))
  cassert (decide (A.rmv.isSome = B.rmv.isSome))
  .ok (σ.set c (.op (setFns A C (f a b))))

/-- `blas::matmul(A, B, C)` on LinearOperators (`linearoperator-linearoperator_matmul.hpp:8-52`). -/
def matmul (σ : Store α) (a b c : Nat) : Res (Store α) := do
  let A ← getOp σ a
  let B ← getOp σ b
  let C ← getOp σ c
  cassert (decide (A.colN = B.rowN))
  cassert (decide (A.rowN = C.rowN))
  cassert (decide (B.colN = C.colN))
  cassert (decide (A.mv.isSome = B.mv.isSome))
  cassert (decide (A.rmv.isSome = B.rmv.isSome))
  .ok (σ.set c (.op (setFns A C (.mul a b))))

/-- `vml::add/sub/mul/div(A, alpha, C)` (`double_scalar_linearoperator.cpp:11-172`); `s` is the address of
the object bound to the parameter `const double &alpha`. -/
def scalarOp (f : Nat → Nat → Clo α) (σ : Store α) (a s c : Nat) : Res (Store α) := do
  let A ← getOp σ a
  let _ ← getScalar σ s
  let C ← getOp σ c
  cassert (sameSize A C)
  .ok (σ.set c (.op (setFns A C (f a s))))

/-- The copy constructor (`linearoperator_constructor.cpp:117-129`). -/
def copy (σ : Store α) (a c : Nat) : Res (Store α) := do
  let A ← getOp σ a
  .ok (σ.set c (.op ⟨A.rowN, A.colN, A.mv, A.rmv, none, none⟩))

/-- `operator=` (`copy_linearoperator.cpp:8-25`). -/
def assign (σ : Store α) (a c : Nat) : Res (Store α) := do
  let A ← getOp σ a
  let C ← getOp σ c
  .ok (σ.set c (.op
    { C with
      rowN := A.rowN
      colN := A.colN
      mv := if A.mv.isSome then A.mv else C.mv
      rmv := if A.rmv.isSome then A.rmv else C.rmv }))

/-- A call of a matmul callback (`convert_linearoperator.cpp:34-39, 68-75, 104-111`). -/
def callMM (ord : Nat → List Nat) (σ : Store α) (c : MClo α) (B : Dense α) : Res (Dense α) :=
  match c with
  | .user f => f B
  | .coo m => do
    let coo ← getCoo σ m
    let A ← Crs.ofCoo coo
    let mat ← Dense.new A.rowN B.colN
    A.matmulScalar (ord B.colN) 1 B 0 mat
  | .crs self m => do
    let A ← getCrs σ m
    let mat ← Dense.new A.rowN B.colN
    let _ ← getOp σ self
    A.matmulScalar (ord B.colN) 1 B 0 mat
  | .dense self m => do
    let A ← getDense σ m
    let mat ← Dense.new A.rowN B.colN
    let _ ← getOp σ self
    Dense.matmulCore 1 A B 0 mat

/-- `Dense::operator=` (`src/utils/copy/copy_dense.cpp:10-23`). -/
def assignDense (C D : Dense α) : Res (Dense α) := do
  cassert (decide (C.rowN = D.rowN ∧ C.colN = D.colN))
  let v ← vcopy C.nnz (D.val.drop D.first) (C.val.drop C.first)
  .ok { C with val := C.val.take C.first ++ v, created := true }

/-- `blas::matmul(A, B, C)` with a LinearOperator `A` and Dense matrices (`linearoperator-dense_matmul.hpp:7-26`). -/
def matmulDense (ord : Nat → List Nat) (σ : Store α) (a : Nat) (B C : Dense α) : Res (Dense α) := do
  let A ← getOp σ a
  cassert (decide (A.colN = B.rowN))
  cassert (decide (A.rowN = C.rowN))
  cassert (decide (B.colN = C.colN))
  match A.mm with
  | none => .throw "error matmul is not initialized"
  | some c => do
    let D ← callMM ord σ c B
    assignDense C D

/-- `LinearOperator::convert_to_Dense(dense)` (`convert_linearoperator.cpp:120-147`). -/
def toDense (ord : Nat → List Nat) (n : Nat) (σ : Store α) (a : Nat) (dense : Dense α) : Res (Dense α) := do
  let A ← getOp σ a
  match A.mv with
  | none => do
    let Z ← Dense.new A.rowN A.colN
    assignDense dense Z
  | some c => do
    let values ← forN A.colN (fun i values => do
      let ans ← call ord σ false n c ((List.replicate A.colN 0).set i 1)
      cassert (decide (ans.length = A.rowN))
      forN A.rowN (fun j values => do
        let u ← rd ans j
        wr values (j * A.colN + i) u) values) (List.replicate (A.rowN * A.colN) 0)
    assignDense dense
      { rowN := A.rowN, colN := A.colN, val := values, nnz := A.rowN * A.colN, alloc := A.rowN * A.colN,
        first := 0, created := true }

end LinOp
end Verif
