import Verif.Model.DataSize
import Verif.Spec.DataSizeSpec
import Verif.Spec.CooSpec
import Verif.Spec.CrsSpec
import Verif.Spec.DenseSpec
import Verif.Spec.TensorSpec
import Verif.Spec.TensorCooSpec
import Mathlib.Tactic.Ring
import Mathlib.Tactic.Linarith
import Mathlib.Tactic.NormNum
import Mathlib.Tactic.FieldSimp

/-! C121: `get_data_size()` is the memory of the arrays. -/

namespace Verif.DataSize

open Spec

variable {α : Type}

theorem lengths_zero (l : List (List Nat)) : (l.map List.length).sum = 0 ↔ ∀ r ∈ l, r = [] := by
  induction l with
  | nil => simp
  | cons a l ih =>
    rw [List.map_cons, List.sum_cons, List.forall_mem_cons, ← ih, ← List.length_eq_zero_iff]
    omega

/-- **C121** for `Dense`: one array of `row * col` numbers -/
theorem C121_dense (F : Nat) (A : Dense α) (h : A.WF) : dense F A = gigabytes [⟨A.rowN * A.colN, F⟩] := by
  simp [dense, gigabytes, h.nnz_eq]

/-- **C121** for `tensor_Dense` -/
theorem C121_tensor_dense (F : Nat) (A : TDense α) (h : A.WF) : tdense F A = gigabytes [⟨volume A.shape, F⟩] := by
  simp [tdense, gigabytes, h.nnz_eq]

/-- **C121** for `CRS`: values, column indices (`int`), row pointers (`int`) -/
theorem C121_crs (F : Nat) (A : Crs α) (h : A.Safe) :
    crs F A = gigabytes [⟨A.nnz, F⟩, ⟨(A.colInd.take A.nnz).length, 4⟩, ⟨A.rowPtr.length, 4⟩] := by
  have h1 : (A.colInd.take A.nnz).length = A.nnz := by
    rw [List.length_take]
    exact Nat.min_eq_left h.lenC
  simp only [crs, gigabytes, List.map_cons, List.map_nil, List.sum_cons, List.sum_nil, h1, h.lenP]
  congr 2
  ring

/-- **C121** for `COO`: values, row and column indices (`int`). The answer is right exactly when the matrix is empty or
the numbers are as large as the indices. -/
theorem C121_coo_partial (F : Nat) (A : Coo α) (h : A.WF) :
    coo F A = gigabytes [⟨A.nnz, F⟩, ⟨(A.rowIdx.take A.nnz).length, 4⟩, ⟨(A.colIdx.take A.nnz).length, 4⟩] ↔
      A.nnz = 0 ∨ F = 4 := by
  have h1 : (A.rowIdx.take A.nnz).length = A.nnz := by
    rw [List.length_take]; exact Nat.min_eq_left (h.lenR ▸ h.nnz_le)
  have h2 : (A.colIdx.take A.nnz).length = A.nnz := by
    rw [List.length_take]; exact Nat.min_eq_left (h.lenC ▸ h.nnz_le)
  simp only [coo, gigabytes, List.map_cons, List.map_nil, List.sum_cons, List.sum_nil, h1, h2]
  rw [div_left_inj' (by norm_num), Nat.cast_inj]
  constructor
  · intro e
    have : A.nnz * (2 * F) = A.nnz * 8 := by linarith
    rcases Nat.eq_zero_or_pos A.nnz with h0 | h0
    · exact .inl h0
    · exact .inr (by have := Nat.eq_of_mul_eq_mul_left h0 this; omega)
  · rintro (e | e)
    · simp [e]
    · subst e; ring

/-- **C121 is violated** for `COO<double>`: two elements are 32 bytes, not 48. -/
theorem C121_coo_double_violated : ∃ A : Coo ℚ, A.WF ∧ A.nnz = 2 ∧ coo 8 A = 48 / 1000000000 ∧
    gigabytes [⟨A.nnz, 8⟩, ⟨(A.rowIdx.take A.nnz).length, 4⟩, ⟨(A.colIdx.take A.nnz).length, 4⟩] = 32 / 1000000000 :=
  ⟨⟨2, 2, [0, 1], [0, 1], [5, 6], 2, 2, true⟩, ⟨rfl, rfl, rfl, rfl, by decide⟩, rfl, by norm_num [coo],
    by norm_num [gigabytes]⟩

/-- **C121** for `tensor_COO`: values and, for each, the positions (`size_t`). The answer is right exactly when no
position has a coordinate. -/
theorem C121_tensor_coo_partial (F : Nat) (A : TCoo α) :
    tcoo F A = gigabytes [⟨A.nnz, F⟩, ⟨((A.index.take A.nnz).map List.length).sum, 8⟩] ↔
      ∀ pos ∈ A.index.take A.nnz, pos = [] := by
  simp only [tcoo, gigabytes, List.map_cons, List.map_nil, List.sum_cons, List.sum_nil]
  rw [div_left_inj' (by norm_num), Nat.cast_inj]
  rw [← lengths_zero]
  omega

/-- **C121 is violated** for `tensor_COO`: two elements of a 2 x 2 x 2 tensor take 64 bytes, not 16. -/
theorem C121_tensor_coo_violated : ∃ A : TCoo ℚ, A.WF ∧ A.nnz = 2 ∧ tcoo 8 A = 16 / 1000000000 ∧
    gigabytes [⟨A.nnz, 8⟩, ⟨((A.index.take A.nnz).map List.length).sum, 8⟩] = 64 / 1000000000 :=
  ⟨⟨[2, 2, 2], [[0, 0, 1], [1, 1, 0]], [5, 6], 2, 2, true⟩, ⟨rfl, rfl, rfl, by decide⟩, rfl, by norm_num [tcoo],
    by norm_num [gigabytes]⟩

/-- **C121** for `tensor_CRS`: values, row pointers and column indices of the slices (`int`). The answer is right only
if there are no row pointers, so never for a tensor with a slice. -/
theorem C121_tensor_crs_partial (F : Nat) (A : TCrs α) :
    tcrs F A = gigabytes [⟨A.nnz, F⟩, ⟨(A.rowPtrs.map List.length).sum, 4⟩, ⟨(A.colInds.map List.length).sum, 4⟩] ↔
      (∀ r ∈ A.rowPtrs, r = []) ∧ ∀ c ∈ A.colInds, c = [] := by
  simp only [tcrs, gigabytes, List.map_cons, List.map_nil, List.sum_cons, List.sum_nil]
  rw [div_left_inj' (by norm_num), Nat.cast_inj]
  rw [← lengths_zero, ← lengths_zero]
  omega

/-- **C121 is violated** for `tensor_CRS`: a 2 x 2 tensor with two elements takes 36 bytes, not 16. -/
theorem C121_tensor_crs_violated : ∃ A : TCrs ℚ, A.nnz = 2 ∧ A.rowPtrs = [[0, 1, 2]] ∧ A.colInds = [[0, 1]] ∧
    tcrs 8 A = 16 / 1000000000 ∧
    gigabytes [⟨A.nnz, 8⟩, ⟨(A.rowPtrs.map List.length).sum, 4⟩, ⟨(A.colInds.map List.length).sum, 4⟩] =
      36 / 1000000000 :=
  ⟨⟨[2, 2], [[0, 1, 2]], [[0, 1]], [5, 6], 2, 2, 0, true⟩, rfl, rfl, rfl, by norm_num [tcrs], by norm_num [gigabytes]⟩

/-- the hypotheses are met by the 3 x 3 tridiagonal matrix: 7 numbers, 7 column indices, 4 row pointers -/
example : crs 8 (⟨3, 3, [0, 2, 5, 7], [0, 1, 0, 1, 2, 1, 2], [2, -1, -1, 2, -1, -1, 2], 7, 7, true⟩ : Crs ℚ) =
    gigabytes [⟨7, 8⟩, ⟨7, 4⟩, ⟨4, 4⟩] :=
  C121_crs 8 _ { created := rfl, lenV := rfl, nnz_le := by decide, lenP := rfl, ptr_le := by decide,
                 lenC := by decide, col_lt := by decide }

example : dense 8 (⟨2, 3, [1, 2, 3, 4, 5, 6], 6, 6, 0, true⟩ : Dense ℚ) = gigabytes [⟨6, 8⟩] :=
  C121_dense 8 _ ⟨rfl, rfl, by decide⟩

end Verif.DataSize
