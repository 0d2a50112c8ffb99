import Verif.Model.ReductionSrc
import Verif.Spec.ProductSpec

/-! What the reductions must compute. -/

namespace Verif.Reduction

open Spec Dispatch Product

variable {α : Type}

/-- `v` is a valid object storing `n` elements, `f 0, ..., f (n - 1)`: all elements of a vector, matrix or tensor
in row-major order, the stored elements of a sparse object in the order of storage -/
def Stores (v : Val α) (n : Nat) (f : Nat → α) : Prop :=
  match v with
  | .vec w => w.Ok ∧ w.size = n ∧ ∀ i, i < n → w.get i = .ok (f i)
  | .mat D => D.WF ∧ D.rowN * D.colN = n ∧
      ∀ i j, i < D.rowN → j < D.colN → D.at_ i j = .ok (f (D.colN * i + j))
  | .ten T => T.WF ∧ volume T.shape = n ∧ ∀ pos, InShape T.shape pos → T.at_ pos = .ok (f (rowMajor T.shape pos))
  | .crs A => A.Safe ∧ A.nnz = n ∧ ∀ i, i < n → A.val[i]? = some (f i)
  | .tcrs T => T.first + T.nnz ≤ T.val.length ∧ T.nnz = n ∧ ∀ i, i < n → T.val[T.first + i]? = some (f i)
  | _ => False

/-- the classes whose elements `max` and `min` compare: not the views of matrices and tensors and the sparse
classes, for which the code adds a 0 -/
def owning : Par → Prop
  | .obj (.viewDense _) _ _ => False
  | .obj (.viewTDense _) _ _ => False
  | .obj .crs _ _ => False
  | .obj .tcrs _ _ => False
  | _ => True

end Verif.Reduction
