import Verif.Spec.CooSpec

/-! What a generated matrix looks like to the user. -/

namespace Verif.Spec

variable {α : Type}

/-- `A` is an `M × N` coordinate matrix that stores exactly the positions selected by `S`, each once,
in row-major order, with the value `f i j` at position `(i, j)`. -/
structure IsMatrix (A : Coo α) (M N : Nat) (S : Nat → Nat → Prop) (f : Nat → Nat → α) : Prop where
  wf : A.WF
  rows : A.rowN = M
  cols : A.colN = N
  order : StrictLex A.entries
  stored : ∀ i j v, (i, j, v) ∈ A.entries ↔ i < M ∧ j < N ∧ S i j ∧ v = f i j

/-- at distance at most `W` from the diagonal -/
def InBand (W i j : Nat) : Prop := i ≤ j + W ∧ j ≤ i + W

instance (W i j : Nat) : Decidable (InBand W i j) := inferInstanceAs (Decidable (_ ∧ _))

/-- two points of an `m`-column grid (numbered row by row) are neighbours: same row and adjacent
columns, or same column and adjacent rows -/
def GridNeighbours (m p q : Nat) : Prop :=
  (p / m = q / m ∧ (p % m + 1 = q % m ∨ q % m + 1 = p % m)) ∨
  (p % m = q % m ∧ (p / m + 1 = q / m ∨ q / m + 1 = p / m))

instance (m p q : Nat) : Decidable (GridNeighbours m p q) :=
  inferInstanceAs (Decidable (_ ∨ _))

end Verif.Spec
