import Verif.Model.Shared

/-! Well-formed memory, and which operations leave an object bound to its storage. -/

namespace Verif.Shared

variable {α : Type}

/-- every object's elements lie inside its buffer; an object that owns a private allocation starts at
its beginning -/
def Sys.WF (s : Sys α) : Prop :=
  ∀ i o, s.obj i = .ok o → o.first + o.nnz ≤ o.alloc ∧ (o.created = true → o.first = 0) ∧
    ∃ b, s.bufs[o.buf]? = some b ∧ b.length = o.alloc

/-- the operation does not destroy, resize or re-bind object `i` -/
def Keeps (i : Nat) : Op α → Prop
  | .write _ _ _ => True
  | .create _ _ _ => True
  | .destroy j => j ≠ i
  | .resize j _ _ => j ≠ i
  | .move j _ => j ≠ i

/-- the operation does not destroy or re-bind object `i`, but may (try to) resize it -/
def KeepsBinding (i : Nat) : Op α → Prop
  | .write _ _ _ => True
  | .create _ _ _ => True
  | .destroy j => j ≠ i
  | .resize _ _ _ => True
  | .move j _ => j ≠ i

/-- the extents an object shows to the user: `size()` of a vector, `get_row()`/`get_col()` of a Dense
matrix, `get_shape()` of a tensor -/
def Obj.extents (o : Obj) : List Nat :=
  match o.kind with
  | .vec => [o.nnz]
  | .dense r c => [r, c]
  | .tens sh => sh

/-- two objects of the same class -/
def SameClass (a b : Obj) : Prop :=
  match a.kind, b.kind with
  | .vec, .vec => True
  | .dense _ _, .dense _ _ => True
  | .tens _, .tens _ => True
  | _, _ => False

end Verif.Shared
