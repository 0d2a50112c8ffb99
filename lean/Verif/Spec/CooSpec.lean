import Verif.Model.Coo
import Verif.Spec.Entries

/-! How a user observes a COO matrix, and the storage invariant of the class. -/

namespace Verif.Coo

variable {α : Type}

/-- The stored triples, in stored order: the first `get_nnz()` elements of `row_index`,
`col_index` and `data()`. -/
def entries (A : Coo α) : List (Entry α) := (A.rowIdx.zip (A.colIdx.zip A.val)).take A.nnz

/-- Storage invariant: the three buffers have the allocated size, which covers `nnz`. -/
structure WF (A : Coo α) : Prop where
  created : A.created = true
  lenR : A.rowIdx.length = A.alloc
  lenC : A.colIdx.length = A.alloc
  lenV : A.val.length = A.alloc
  nnz_le : A.nnz ≤ A.alloc

/-- A program of insertions, run in order. -/
def insertAll [Zero α] : List (Entry α) → Coo α → Res (Coo α)
  | [], A => .ok A
  | e :: L, A => do
    let A ← A.insert e.1 e.2.1 e.2.2
    insertAll L A

end Verif.Coo
