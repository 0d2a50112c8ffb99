import Verif.Props.CooCrs

/-!
C09: copying a CRS matrix.
-/

namespace Verif

open Spec

variable {α : Type}

theorem stdResize_vcopy {β : Type} (l l' : List β) (n : Nat) (z : β) (h : l.length = n) :
    vcopy l.length l (stdResize l' n z) = .ok l := by
  rw [vcopy_ok (Nat.le_refl _) (by simp [h])]
  congr 1
  rw [List.take_length, List.drop_of_length_le (by simp; omega), List.append_nil]

/-- Same structure arrays and the same first `nnz` values give the same rows. -/
theorem rowEntries_congr {A B : Crs α} (hp : A.rowPtr = B.rowPtr) (hc : A.colInd = B.colInd)
    {n : Nat} (hv : A.val.take n = B.val.take n) {i : Nat} (hi : B.ptr (i + 1) ≤ n) :
    A.rowEntries i = B.rowEntries i := by
  have e : A.ptr = B.ptr := by funext i; simp [Crs.ptr, hp]
  unfold Crs.rowEntries
  rw [e]
  congr 2
  have : ∀ V : List α, (A.colInd.zip V).take (B.ptr (i+1)) =
      (A.colInd.zip (V.take n)).take (B.ptr (i+1)) := by
    intro V
    rw [take_zip, take_zip, List.take_take, Nat.min_eq_left hi]
  rw [this, hv, ← this, hc]

/-- **C09 (copy constructor).** `CRS(const CRS &)` of every memory-safe CRS matrix completes
without out-of-bounds access and gives the same dimensions, structure arrays, values, and rows. -/
theorem C09_copy [Zero α] (mat : Crs α) (h : mat.Safe) :
    ∃ A, Crs.copy mat = .ok A ∧ A.Safe ∧ A.rowN = mat.rowN ∧ A.colN = mat.colN ∧
      A.nnz = mat.nnz ∧ A.rowPtr = mat.rowPtr ∧ A.colInd = mat.colInd ∧
      A.val.take mat.nnz = mat.val.take mat.nnz ∧
      (∀ i, i < mat.rowN → A.rowEntries i = mat.rowEntries i) ∧ A.entries = mat.entries := by
  obtain ⟨V, a, hr, hV, ha⟩ := Crs.resize_ok Crs.empty_bufOk mat.nnz (0 : α)
  unfold Crs.copy
  have hl := h.lenV; have hn := h.nnz_le
  rw [hr, Res.ok_bind]
  simp only
  rw [stdResize_vcopy _ _ _ _ rfl, Res.ok_bind, stdResize_vcopy _ _ _ _ rfl, Res.ok_bind,
    vcopy_ok (by omega) (by omega), Res.ok_bind]
  refine ⟨_, rfl, ⟨⟨rfl, ?_, ha⟩, h.lenP, h.ptr_le, h.lenC, h.col_lt⟩, rfl, rfl, rfl, rfl, rfl, ?_,
    ?_, ?_⟩
  · simp; omega
  · simp only
    rw [List.take_append_of_le_length (by simp; omega), List.take_take, Nat.min_self]
  · intro i hi
    refine rowEntries_congr (B := mat) ?_ ?_ (n := mat.nnz) ?_ (h.ptr_le (i + 1) (by omega)) <;> try rfl
    simp only
    rw [List.take_append_of_le_length (by simp; omega), List.take_take, Nat.min_self]
  · unfold Crs.entries
    simp only
    rw [List.flatMap_def, List.flatMap_def]
    congr 1
    apply List.map_congr_left
    intro i hi
    refine rowEntries_congr (B := mat) ?_ ?_ (n := mat.nnz) ?_ (h.ptr_le (i + 1) (by simp at hi; omega)) <;> try rfl
    simp only
    rw [List.take_append_of_le_length (by simp; omega), List.take_take, Nat.min_self]

/-- a CRS converted from a COO built by inserts: its column array is longer than `nnz` -/
example : ∃ (coo : Coo Int) (B : Crs Int),
    Coo.insertAll [(0, 1, 5), (2, 0, 6)] (Coo.new 3 2) = .ok coo ∧ Crs.ofCoo coo = .ok B ∧
    B.Safe ∧ B.colInd.length = 3 ∧ B.nnz = 2 := by
  refine ⟨_, _, rfl, rfl, ?_, rfl, rfl⟩
  exact { created := rfl, lenV := rfl, nnz_le := by decide, lenP := rfl, ptr_le := by decide,
          lenC := by decide, col_lt := by decide }

/-- **C09 (violated).** `CRS(const CRS &, value)` writes out of bounds for a CRS that the library
itself produced from a COO built by two inserts. -/
theorem C09_copy_with_value_violated :
    ¬ ∀ (M N : Nat) (L : List (Entry Int)), Within M N L → SortedLex L → ∀ coo B v,
        Coo.insertAll L (Coo.new M N) = .ok coo → Crs.ofCoo coo = .ok B →
        ∃ A, Crs.copyWith B v = .ok A := by
  intro h
  obtain ⟨A, hA⟩ := h 1 2 [(0, 0, 5), (0, 1, 6)] (by decide) (by decide) _ _ 1 rfl rfl
  have : Crs.copyWith (α := Int) ⟨1, 2, [0, 2], [0, 1, 0], [5, 6], 2, 2, true⟩ 1 =
    .ub "copy writes out of bounds" := by decide
  have h2 : Crs.copyWith (α := Int) ⟨1, 2, [0, 2], [0, 1, 0], [5, 6], 2, 2, true⟩ 1 = .ok A := hA
  rw [this] at h2
  cases h2

/-- **C09 (violated).** `CRS::convert(const CRS &)` writes out of bounds in the same situation. -/
theorem C09_convert_violated :
    ¬ ∀ (M N : Nat) (L : List (Entry Int)), Within M N L → SortedLex L → ∀ coo B,
        Coo.insertAll L (Coo.new M N) = .ok coo → Crs.ofCoo coo = .ok B →
        ∃ A, Crs.convertCrs Crs.empty B = .ok A := by
  intro h
  obtain ⟨A, hA⟩ := h 1 2 [(0, 0, 5), (0, 1, 6)] (by decide) (by decide) _ _ rfl rfl
  have : Crs.convertCrs Crs.empty (⟨1, 2, [0, 2], [0, 1, 0], [5, 6], 2, 2, true⟩ : Crs Int) =
    .ub "copy writes out of bounds" := by decide
  have h2 : Crs.convertCrs Crs.empty (⟨1, 2, [0, 2], [0, 1, 0], [5, 6], 2, 2, true⟩ : Crs Int) =
    .ok A := hA
  rw [this] at h2
  cases h2

/-- **C09 (partial: unpadded column array).** If the source's column array has exactly `nnz`
elements, `CRS(A, value)` completes in bounds and gives the same structure with all values equal
to `value`. Missing: sources converted from a COO with spare capacity (false, see above). -/
theorem C09_copy_with_value_partial [Zero α] (mat : Crs α) (h : mat.Safe)
    (hc : mat.colInd.length = mat.nnz) (value : α) :
    ∃ A, Crs.copyWith mat value = .ok A ∧ A.Safe ∧ A.rowN = mat.rowN ∧ A.colN = mat.colN ∧
      A.nnz = mat.nnz ∧ A.rowPtr = mat.rowPtr ∧ A.colInd = mat.colInd ∧
      ∀ k, k < mat.nnz → A.val[k]? = some value := by
  obtain ⟨V, a, hr, hV, ha⟩ := Crs.resize_ok Crs.empty_bufOk mat.nnz (0 : α)
  unfold Crs.copyWith
  have hl := h.lenV; have hn := h.nnz_le
  rw [hr, Res.ok_bind]
  simp only
  rw [stdResize_vcopy _ _ _ _ h.lenP, Res.ok_bind, stdResize_vcopy _ _ _ _ hc, Res.ok_bind,
    vcopy_ok (by simp) (by omega), Res.ok_bind]
  refine ⟨_, rfl, ⟨⟨rfl, ?_, ha⟩, h.lenP, h.ptr_le, h.lenC, h.col_lt⟩, rfl, rfl, rfl, rfl, rfl, ?_⟩
  · simp; omega
  · intro k hk
    rw [List.getElem?_append_left (by simp; omega)]
    simp [hk]

/-- **C09 (partial: unpadded column array).** `convert(const CRS &)` into any CRS object. -/
theorem C09_convert_partial [Zero α] (T : Crs α) (hT : T.BufOk) (mat : Crs α) (h : mat.Safe)
    (hc : mat.colInd.length = mat.nnz) :
    ∃ A, Crs.convertCrs T mat = .ok A ∧ A.Safe ∧ A.rowN = mat.rowN ∧ A.colN = mat.colN ∧
      A.nnz = mat.nnz ∧ A.rowPtr = mat.rowPtr ∧ A.colInd = mat.colInd ∧
      A.val.take mat.nnz = mat.val.take mat.nnz ∧
      (∀ i, i < mat.rowN → A.rowEntries i = mat.rowEntries i) := by
  obtain ⟨V, a, hr, hV, ha⟩ := Crs.resize_ok hT mat.nnz (0 : α)
  unfold Crs.convertCrs
  have hl := h.lenV; have hn := h.nnz_le
  rw [hr, Res.ok_bind]
  simp only
  rw [stdResize_vcopy _ _ _ _ h.lenP, Res.ok_bind, stdResize_vcopy _ _ _ _ hc, Res.ok_bind,
    vcopy_ok (by omega) (by omega), Res.ok_bind]
  refine ⟨_, rfl, ⟨⟨rfl, ?_, ha⟩, h.lenP, h.ptr_le, h.lenC, h.col_lt⟩, rfl, rfl, rfl, rfl, rfl, ?_,
    ?_⟩
  · simp; omega
  · simp only
    rw [List.take_append_of_le_length (by simp; omega), List.take_take, Nat.min_self]
  · intro i hi
    refine rowEntries_congr (B := mat) ?_ ?_ (n := mat.nnz) ?_ (h.ptr_le (i + 1) (by omega)) <;> try rfl
    simp only
    rw [List.take_append_of_le_length (by simp; omega), List.take_take, Nat.min_self]

/-- a source with an unpadded column array and an empty row, a non-empty target -/
example : ({ rowN := 3, colN := 2, rowPtr := [0, 2, 2, 3], colInd := [1, 0, 1], val := [4, 5, 6],
             nnz := 3, alloc := 3, created := true } : Crs Int).Safe ∧
    ({ rowN := 1, colN := 1, rowPtr := [0, 1], colInd := [0], val := [4],
             nnz := 1, alloc := 1, created := true } : Crs Int).BufOk :=
  ⟨{ created := rfl, lenV := rfl, nnz_le := by decide, lenP := rfl, ptr_le := by decide,
     lenC := by decide, col_lt := by decide }, ⟨rfl, rfl, by decide⟩⟩

end Verif
