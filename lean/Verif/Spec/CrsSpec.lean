import Verif.Model.Crs
import Verif.Spec.Entries

/-! How a user observes a CRS matrix, and what a well-formed CRS matrix is. -/

namespace Verif.Crs

variable {α : Type}

/-- `row_ptr[i]` as a number -/
def ptr (A : Crs α) (i : Nat) : Nat := A.rowPtr.getD i 0

/-- the entries of row `i`: positions `row_ptr[i] .. row_ptr[i+1]` of `col_ind` and `data()` -/
def rowEntries (A : Crs α) (i : Nat) : List (Entry α) :=
  (((A.colInd.zip A.val).take (A.ptr (i + 1))).drop (A.ptr i)).map (fun p => (i, p.1, p.2))

/-- all stored entries, row by row -/
def entries (A : Crs α) : List (Entry α) := (List.range A.rowN).flatMap A.rowEntries

/-- Storage invariant of the value buffer (every constructed CRS object has it). -/
structure BufOk (A : Crs α) : Prop where
  created : A.created = true
  lenV : A.val.length = A.alloc
  nnz_le : A.nnz ≤ A.alloc

/-- Every row range lies inside the stored elements and every column index is in range: what is
needed for all row loops of the library to be memory safe. -/
structure Safe (A : Crs α) : Prop extends BufOk A where
  lenP : A.rowPtr.length = A.rowN + 1
  ptr_le : ∀ i, i ≤ A.rowN → A.ptr i ≤ A.nnz
  lenC : A.nnz ≤ A.colInd.length
  col_lt : ∀ k, (h : k < A.colInd.length) → k < A.nnz → A.colInd[k] < A.colN

/-- A well-formed CRS matrix: in addition the row pointer runs monotonically from 0 to `nnz`. -/
structure WF (A : Crs α) : Prop extends Safe A where
  ptr_zero : A.ptr 0 = 0
  ptr_last : A.ptr A.rowN = A.nnz
  ptr_mono : ∀ i, i < A.rowN → A.ptr i ≤ A.ptr (i + 1)

/-- The shape `CRS::convert(COO)` produces: like `WF`, except that after the last non-empty row the
row pointer may fall back (those row ranges are then empty). -/
structure Tiled (A : Crs α) : Prop extends Safe A where
  tile : ∃ m, m ≤ A.rowN ∧ A.ptr 0 = 0 ∧ A.ptr m = A.nnz ∧
    (∀ i, i < m → A.ptr i ≤ A.ptr (i + 1)) ∧
    ∀ i, m ≤ i → i < A.rowN → A.ptr (i + 1) ≤ A.ptr i

theorem WF.tiled {A : Crs α} (h : A.WF) : A.Tiled :=
  { toSafe := h.toSafe
    tile := ⟨A.rowN, Nat.le_refl _, h.ptr_zero, h.ptr_last, h.ptr_mono, fun _ h1 h2 => by omega⟩ }

end Verif.Crs
