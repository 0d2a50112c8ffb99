/-!
Specification vocabulary for sparse data, independent of the model: a sparse object is observed
as the list of its stored `(row, column, value)` triples.
-/

namespace Verif

/-- a stored entry: row, column, value -/
abbrev Entry (α : Type) := Nat × Nat × α

namespace Spec

variable {α : Type}

/-- the value of the last entry of `L` at position `(i, j)`, or 0 when there is none -/
def lastAt [Zero α] (L : List (Entry α)) (i j : Nat) : α :=
  match L.reverse.find? (fun e => e.1 == i && e.2.1 == j) with
  | some e => e.2.2
  | none => 0

/-- all positions are inside an `M × N` matrix -/
def Within (M N : Nat) (L : List (Entry α)) : Prop := ∀ e ∈ L, e.1 < M ∧ e.2.1 < N

/-- positions in non-decreasing (row, column) order -/
def SortedLex (L : List (Entry α)) : Prop :=
  L.Pairwise fun a b => a.1 < b.1 ∨ (a.1 = b.1 ∧ a.2.1 ≤ b.2.1)

/-- positions in strictly increasing (row, column) order -/
def StrictLex (L : List (Entry α)) : Prop :=
  L.Pairwise fun a b => a.1 < b.1 ∨ (a.1 = b.1 ∧ a.2.1 < b.2.1)

/-- no position occurs twice -/
def DistinctPos (L : List (Entry α)) : Prop :=
  L.Pairwise fun a b => ¬ (a.1 = b.1 ∧ a.2.1 = b.2.1)

/-- rows in non-decreasing order -/
def SortedRows (L : List (Entry α)) : Prop := L.Pairwise fun a b => a.1 ≤ b.1

/-- the sum of the values stored at `(i, j)` -/
def sumAt [Zero α] [Add α] (L : List (Entry α)) (i j : Nat) : α :=
  ((L.filter (fun e => e.1 == i && e.2.1 == j)).map (·.2.2)).foldr (· + ·) 0

/-- position `(i, j)` occurs at most once in `L` -/
def AtMostOnce (L : List (Entry α)) (i j : Nat) : Prop :=
  (L.filter (fun e => e.1 == i && e.2.1 == j)).length ≤ 1

/-- the entries of the transposed matrix: rows and columns exchanged, order kept -/
def transposed (L : List (Entry α)) : List (Entry α) := L.map fun e => (e.2.1, e.1, e.2.2)

/-- the stored entries of row `i`, in stored order -/
def rowOf (L : List (Entry α)) (i : Nat) : List (Entry α) := L.filter (fun e => e.1 == i)

instance (M N : Nat) (L : List (Entry α)) : Decidable (Within M N L) :=
  inferInstanceAs (Decidable (∀ e ∈ L, e.1 < M ∧ e.2.1 < N))
instance (L : List (Entry α)) : Decidable (SortedLex L) := by unfold SortedLex; infer_instance
instance (L : List (Entry α)) : Decidable (StrictLex L) := by unfold StrictLex; infer_instance
instance (L : List (Entry α)) : Decidable (SortedRows L) := by unfold SortedRows; infer_instance
instance (L : List (Entry α)) : Decidable (DistinctPos L) := by unfold DistinctPos; infer_instance

end Spec
end Verif
