import Verif.Model.Dense
import Verif.Spec.CooSpec

/-! Storage invariants of dense matrices and the row-major enumeration of a matrix. -/

namespace Verif.Dense

variable {α : Type}

/-- A dense matrix object: the buffer has its allocated size, the `rowN * colN` elements starting
at `first` lie inside it. -/
structure WF (D : Dense α) : Prop where
  lenV : D.val.length = D.alloc
  nnz_eq : D.nnz = D.rowN * D.colN
  window : D.first + D.nnz ≤ D.alloc

/-- A dense object that owns its storage from offset 0 (everything except aliases made by `move`
from an offset view); its current contents are irrelevant. -/
structure Own (D : Dense α) : Prop where
  lenV : D.val.length = D.alloc
  nnz_le : D.nnz ≤ D.alloc
  first0 : D.first = 0

end Verif.Dense

namespace Verif.Spec

variable {α : Type}

/-- the non-zero elements of an `M × N` array `f`, in row-major order -/
def nonzeros [Zero α] [DecidableEq α] (M N : Nat) (f : Nat → Nat → α) : List (Entry α) :=
  (List.range M).flatMap fun i =>
    (List.range N).filterMap fun j => if f i j = 0 then none else some (i, j, f i j)

end Verif.Spec
