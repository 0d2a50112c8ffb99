import Verif.Model.TensorDense
import Verif.Model.Vec
import Verif.Spec.TensorSpec

/-! What a freshly constructed vector, matrix or tensor must be. -/

namespace Verif

variable {α : Type}

/-- `v` is a vector that owns its storage and has exactly the elements of `l` -/
def Vec.Is (l : List α) (v : Vec α) : Prop :=
  v.created = true ∧ v.nnz = l.length ∧ v.val.length = v.alloc ∧ v.nnz ≤ v.alloc ∧
    ∀ i x, l[i]? = some x → v.get i = .ok x

/-- `A` is an `M × N` matrix that owns its storage and whose rows, one after the other, are `l` -/
def Dense.Is (M N : Nat) (l : List α) (A : Dense α) : Prop :=
  A.created = true ∧ A.rowN = M ∧ A.colN = N ∧ A.nnz = M * N ∧ A.val.length = A.alloc ∧
    l.length = M * N ∧ ∀ i j, i < M → j < N → ∃ x, l[i * N + j]? = some x ∧ A.at_ i j = .ok x

/-- `T` is a tensor of this shape that owns its storage and whose elements in row-major order are `l` -/
def TDense.Is (shape : List Nat) (l : List α) (T : TDense α) : Prop :=
  T.created = true ∧ T.shape = shape ∧ T.nnz = Spec.volume shape ∧ T.val.length = T.alloc ∧
    l.length = Spec.volume shape ∧
    ∀ pos, Spec.InShape shape pos → ∃ x, l[Spec.rowMajor shape pos]? = some x ∧ T.at_ pos = .ok x

end Verif
