import Verif.Model.LinOp
import Verif.Spec.LinAlg

/-!
# What it means that a LinearOperator acts as a matrix
-/

namespace Verif
namespace LinOp

open Spec

variable {α : Type} [Field α]

/-- The vector `M x` for an `r × c` matrix. -/
def image (r c : Nat) (M : Nat → Nat → α) (x : List α) : List α :=
  (List.range r).map (fun i => mulVec c M (fun j => x.getD j 0) i)

/-- The vector `M x` (`tr = false`) or `Mᵀ x` (`tr = true`). -/
def product (tr : Bool) (r c : Nat) (M : Nat → Nat → α) (x : List α) : List α :=
  if tr then image c r (fun j i => M i j) x else image r c M x

/-- The object at address `a` is an `r × c` LinearOperator, and `blas::matvec` (`tr = false`) or
`blas::rmatvec` (`tr = true`) on it gives `M x` or `Mᵀ x` for every vector `x` of the right size, without any
error, with a bounded depth of nested calls. -/
structure Acts (ord : Nat → List Nat) (σ : Store α) (tr : Bool) (a r c : Nat) (M : Nat → Nat → α) : Prop where
  op : ∃ L, σ a = .op L ∧ L.rowN = r ∧ L.colN = c
  call : ∃ n0, ∀ n, n0 ≤ n → ∀ x : List α, x.length = (if tr then r else c) →
    matvec ord n σ tr a x (if tr then c else r) = .ok (product tr r c M x)

/-- The addresses a callback refers to. -/
def Clo.refs : Clo α → List Nat
  | .user _ => []
  | .coo m => [m]
  | .crs self m => [self, m]
  | .dense self m => [self, m]
  | .add a b => [a, b]
  | .sub a b => [a, b]
  | .mul a b => [a, b]
  | .sadd a s => [a, s]
  | .ssub a s => [a, s]
  | .smul a s => [a, s]
  | .sdiv a s => [a, s]

/-- `Uses σ a d`: the object at `d` is reachable from `a` through callbacks. -/
inductive Uses (σ : Store α) : Nat → Nat → Prop
  | self (a : Nat) : Uses σ a a
  | ref {a b d : Nat} {L : Op α} {f : Clo α} : σ a = .op L → (L.mv = some f ∨ L.rmv = some f) → b ∈ f.refs →
      Uses σ b d → Uses σ a d

end LinOp
end Verif
