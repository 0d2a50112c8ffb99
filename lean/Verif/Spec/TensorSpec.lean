import Verif.Model.TensorDense
import Mathlib.Algebra.BigOperators.Group.List.Basic

/-! Specification vocabulary for tensors. -/

namespace Verif

namespace Spec

/-- `pos` is a position of a tensor of this shape: one index per extent, each below it -/
def InShape (shape pos : List Nat) : Prop := List.Forall₂ (fun p s => p < s) pos shape

/-- number of elements of a tensor of this shape -/
def volume (shape : List Nat) : Nat := shape.prod

/-- row-major (C order) place of a position: the last index runs fastest -/
def rowMajor : (shape pos : List Nat) → Nat
  | _ :: ss, p :: ps => p * volume ss + rowMajor ss ps
  | _, _ => 0

end Spec

namespace TDense

variable {α : Type}

/-- the tensor's elements lie inside its storage -/
structure WF (T : TDense α) : Prop where
  lenV : T.val.length = T.alloc
  nnz_eq : T.nnz = Spec.volume T.shape
  window : T.first + T.nnz ≤ T.alloc

/-- the tensor read as a function of the position -/
def Reads (T : TDense α) (f : List Nat → α) : Prop :=
  ∀ pos, Spec.InShape T.shape pos → T.at_ pos = .ok (f pos)

end TDense
end Verif
