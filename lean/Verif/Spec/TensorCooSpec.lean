import Verif.Model.TensorCoo
import Verif.Spec.TensorSpec

/-! How a user observes a coordinate tensor: the list of stored (position, value) pairs. -/

namespace Verif

/-- a stored element: position, value -/
abbrev TEntry (α : Type) := List Nat × α

namespace Spec

variable {α : Type}

/-- the value of the last element of `L` at `pos`, or 0 when there is none -/
def lastAtPos [Zero α] (L : List (TEntry α)) (pos : List Nat) : α :=
  match L.reverse.find? (fun e => e.1 == pos) with
  | some e => e.2
  | none => 0

/-- all positions are inside a tensor of this shape -/
def InsideT (shape : List Nat) (L : List (TEntry α)) : Prop := ∀ e ∈ L, InShape shape e.1

/-- in non-decreasing row-major order -/
def SortedT (shape : List Nat) (L : List (TEntry α)) : Prop :=
  L.Pairwise fun a b => rowMajor shape a.1 ≤ rowMajor shape b.1

/-- in strictly increasing row-major order -/
def StrictT (shape : List Nat) (L : List (TEntry α)) : Prop :=
  L.Pairwise fun a b => rowMajor shape a.1 < rowMajor shape b.1

/-- no position occurs twice -/
def DistinctT (L : List (TEntry α)) : Prop := L.Pairwise fun a b => a.1 ≠ b.1

end Spec

namespace TCoo

variable {α : Type}

/-- the stored elements in stored order -/
def entries (T : TCoo α) : List (TEntry α) := (T.index.zip T.val).take T.nnz

/-- storage invariant: both buffers have the allocated size, which covers `nnz` -/
structure WF (T : TCoo α) : Prop where
  created : T.created = true
  lenI : T.index.length = T.alloc
  lenV : T.val.length = T.alloc
  nnz_le : T.nnz ≤ T.alloc

/-- a program of insertions, run in order -/
def insertAll [Zero α] : List (TEntry α) → TCoo α → Res (TCoo α)
  | [], T => .ok T
  | e :: L, T => do
    let T ← T.insert e.1 e.2
    insertAll L T

end TCoo
end Verif

namespace Verif.TDense

variable {α : Type}

/-- A target tensor that owns its storage from offset 0 (everything except an alias of part of another
object); its current contents and shape are irrelevant. -/
structure Own (T : TDense α) : Prop where
  lenV : T.val.length = T.alloc
  nnz_le : T.nnz ≤ T.alloc
  first0 : T.first = 0

end Verif.TDense
