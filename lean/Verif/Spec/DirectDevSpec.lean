import Verif.Model.DirectDev
import Verif.Spec.LapackSpec
import Verif.Spec.IncompleteSpec

/-!
What a user sees of data that may be on the device, and what the documentation of cuSOLVER promises.
-/

namespace Verif.Direct

variable {α : Type}

/-- the matrix the user works with: the device copy while the matrix is on the device, the host copy otherwise -/
def DDense.cur (A : DDense α) : Dense α := if A.on then A.devMat else A.host

/-- the vector the user works with -/
def DVec.cur (x : DVec α) : Vec α := if x.on then x.devVec else x.host

/-- what the user sees after a call -/
def seen (r : Res (Ret α)) : Res (Int × Dense α × Vec α) := do
  let (s, A, x) ← r
  .ok (s, A.cur, x.cur)

/-- the host copy of a matrix is current: nothing changed on the device since the last transfer -/
def DDense.Fresh (A : DDense α) : Prop := A.on = true → A.dev = (A.host.val.drop A.host.first).take A.host.nnz

/-- `csrlsvqr` and `csrlsvchol` on a square matrix: `singularity = -1` means that the system was solved. `csrlsvqr` reports
exactly the singular matrices; `csrlsvchol`, for a symmetric matrix, exactly those that are not positive definite -/
structure CuSpOk [Field α] [LinearOrder α] (cu : CuSp α) : Prop where
  qr : ∀ (A : Crs α) (b : Fin A.rowN → α), Spec.Readable A → A.rowN = A.colN →
    ((cu.qr A (List.ofFn b)).2 = -1 ↔ (Spec.crsMat A.rowN A).det ≠ 0) ∧
    ((cu.qr A (List.ofFn b)).2 = -1 → ∃ y : Fin A.rowN → α, (cu.qr A (List.ofFn b)).1 = List.ofFn y ∧
      (Spec.crsMat A.rowN A).mulVec y = b)
  chol : ∀ (A : Crs α) (b : Fin A.rowN → α), Spec.Readable A → A.rowN = A.colN →
    (Spec.crsMat A.rowN A).transpose = Spec.crsMat A.rowN A →
    ((cu.chol A (List.ofFn b)).2 = -1 ↔
      ∀ y : Fin A.rowN → α, y ≠ 0 → 0 < ∑ i, y i * (Spec.crsMat A.rowN A).mulVec y i) ∧
    ((cu.chol A (List.ofFn b)).2 = -1 → ∃ y : Fin A.rowN → α, (cu.chol A (List.ofFn b)).1 = List.ofFn y ∧
      (Spec.crsMat A.rowN A).mulVec y = b)

end Verif.Direct
