import Verif.Spec.ViewSpec

/-! Which extents `move(t, rowN, colN)` may give. -/

namespace Verif.Shared

/-- an `r × c` matrix is what a request `(rowN, colN)` for `n` elements means: a negative extent is computed from
the other one, of which there must be one -/
def Fits (rowN colN : Int) (n r c : Nat) : Prop :=
  ¬ (rowN < 0 ∧ colN < 0) ∧ r * c = n ∧ (0 ≤ rowN → (r : Int) = rowN) ∧ (0 ≤ colN → (c : Int) = colN)

end Verif.Shared
