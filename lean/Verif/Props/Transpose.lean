import Mathlib.Data.List.Induction
import Verif.Lemmas.CrsTr
import Verif.Lemmas.DenseTr
import Verif.Props.CrsCopy

/-!
C10, C11, C12: transposition of COO, Dense and CRS matrices.
-/

namespace Verif

open Spec

variable {α : Type}

/-! ### C10 -/

theorem stdResize_take {β : Type} {l : List β} {n : Nat} {z : β} (h : n ≤ l.length) :
    stdResize l n z = l.take n := by
  unfold stdResize
  have : n - l.length = 0 := by omega
  rw [this]; simp

theorem entries_transpose (A : Coo α) (h : A.WF) : A.transpose.entries = transposed A.entries := by
  obtain ⟨_, h1, h2, h3, _⟩ := h
  unfold Coo.entries transposed Coo.transpose
  simp only
  rw [List.map_take]
  congr 1
  apply List.ext_getElem?
  intro k
  rw [List.getElem?_map]
  by_cases hk : k < A.alloc
  · simp [List.getElem?_zip_eq_some, List.getElem?_eq_getElem, hk, h1, h2, h3]
  · rw [List.getElem?_eq_none (by simp; omega), List.getElem?_eq_none (by simp; omega)]; rfl

theorem lastAt_transposed [Zero α] (L : List (Entry α)) (i j : Nat) :
    lastAt (transposed L) j i = lastAt L i j := by
  induction L using List.reverseRecOn with
  | nil => rfl
  | append_singleton L e ih =>
    rw [transposed_append]
    have : transposed [e] = [(e.2.1, e.1, e.2.2)] := rfl
    rw [this, lastAt_append_singleton, lastAt_append_singleton, ih]
    simp only [And.comm]

theorem transposed_transposed (L : List (Entry α)) : transposed (transposed L) = L := by
  simp [transposed, Function.comp_def]

/-- **C10.** `COO::transpose()` exchanges the dimensions and reads `at(i, j)` of the old matrix at
`(j, i)`; the stored triples are the old ones with row and column exchanged, in the same order. -/
theorem C10_transpose [Zero α] (A : Coo α) (h : A.WF) :
    A.transpose.WF ∧ A.transpose.rowN = A.colN ∧ A.transpose.colN = A.rowN ∧
      A.transpose.entries = transposed A.entries ∧
      ∀ i j, i < A.rowN → j < A.colN → A.transpose.at_ j i = A.at_ i j := by
  have hw : A.transpose.WF := ⟨h.created, h.lenC, h.lenR, h.lenV, h.nnz_le⟩
  refine ⟨hw, rfl, rfl, entries_transpose A h, fun i j hi hj => ?_⟩
  rw [Coo.at_ok hw (by simp [Coo.transpose]; omega) (by simp [Coo.transpose]; omega),
    Coo.at_ok h (by omega) (by omega), entries_transpose A h, lastAt_transposed]

/-- **C10 (involution).** Transposing twice restores the matrix. -/
theorem C10_transpose_twice (A : Coo α) : A.transpose.transpose = A := rfl

/-- **C10 (out of place).** `A.transpose(B)` for any target `A` and any other object `B`. -/
theorem C10_transpose_from [Zero α] (T B : Coo α) (hT : T.WF) (hB : B.WF) :
    ∃ A, Coo.transposeFrom T B = .ok A ∧ A.WF ∧ A.rowN = B.colN ∧ A.colN = B.rowN ∧
      A.entries = transposed B.entries ∧
      ∀ i j, i < B.rowN → j < B.colN → A.at_ j i = B.at_ i j := by
  have hlv := hB.lenV; have hn := hB.nnz_le; have hlr := hB.lenR; have hlc := hB.lenC
  unfold Coo.transposeFrom
  rw [readN_ok (by omega), Res.ok_bind]
  have hlen : (B.val.take B.nnz).length = B.nnz := by simp; omega
  unfold Coo.resize
  simp only [if_true]
  have htl := hT.lenV; have htn := hT.nnz_le
  rw [hlen, reallocCopy_ok (by omega), Res.ok_bind, Res.ok_bind,
    vcopy_ok (by omega) (by simp; omega), Res.ok_bind]
  have hres : ∀ l : List Nat, l.length = B.alloc → stdResize l B.nnz 0 = l.take B.nnz := by
    intro l hl
    unfold stdResize
    have : B.nnz - l.length = 0 := by omega
    rw [this]; simp
  have hwf : Coo.WF { T with
      rowN := B.colN, colN := B.rowN, created := true,
      rowIdx := stdResize B.colIdx B.nnz 0, colIdx := stdResize B.rowIdx B.nnz 0,
      val := (B.val.take B.nnz).take B.nnz ++
        (T.val.take (min T.nnz B.nnz) ++ List.replicate (B.nnz - min T.nnz B.nnz) 0).drop B.nnz,
      alloc := B.nnz, nnz := B.nnz } :=
    ⟨rfl, by simp, by simp, by simp; omega, Nat.le_refl _⟩
  have hent : Coo.entries { T with
      rowN := B.colN, colN := B.rowN, created := true,
      rowIdx := stdResize B.colIdx B.nnz 0, colIdx := stdResize B.rowIdx B.nnz 0,
      val := (B.val.take B.nnz).take B.nnz ++
        (T.val.take (min T.nnz B.nnz) ++ List.replicate (B.nnz - min T.nnz B.nnz) 0).drop B.nnz,
      alloc := B.nnz, nnz := B.nnz } = transposed B.entries := by
    rw [← entries_transpose B hB]
    unfold Coo.entries Coo.transpose
    simp only
    rw [hres _ hlc, hres _ hlr, List.drop_of_length_le (by simp; omega), List.append_nil,
      List.take_take, Nat.min_self, ← take_zip, ← take_zip, List.take_take, Nat.min_self]
  refine ⟨_, rfl, hwf, rfl, rfl, hent, fun i j hi hj => ?_⟩
  rw [Coo.at_ok hwf (by simp; omega) (by simp; omega), Coo.at_ok hB (by omega) (by omega), hent,
    lastAt_transposed]

/-- a rectangular matrix with a repeated position and spare capacity -/
example : ∃ A : Coo Int,
    Coo.insertAll [(1, 2, 5), (0, 0, 4), (1, 2, 6), (0, 1, 3)] (Coo.new 2 3) = .ok A ∧ A.WF ∧
    A.alloc = 7 := by
  exact ⟨_, rfl, ⟨rfl, rfl, rfl, rfl, by decide⟩, rfl⟩

/-- **C49 (violated).** `A.transpose(A)` does not transpose: it is not the result of transposing a
copy of `A`. -/
theorem C49_transpose_self_violated :
    ¬ ∀ (M N : Nat) (L : List (Entry Int)), Within M N L → ∀ A B,
        Coo.insertAll L (Coo.new M N) = .ok A → A.transposeSelf = .ok B →
        B.rowN = A.colN ∧ B.colN = A.rowN ∧
          ∀ i j, i < A.rowN → j < A.colN → B.at_ j i = A.at_ i j := by
  intro h
  have := (h 1 2 [(0, 1, 5)] (by decide) _ _ rfl rfl).2.1
  revert this
  decide

/-- **C49 (partial).** `A.transpose(A)` is memory safe and is right for matrices that equal their
own transpose entry by entry because all stored positions are on the diagonal of a square matrix.
Missing: every other matrix (false, see above). -/
theorem C49_transpose_self_partial [Zero α] (A : Coo α) (h : A.WF) (hsq : A.rowN = A.colN)
    (hd : ∀ e ∈ A.entries, e.1 = e.2.1) :
    ∃ B, A.transposeSelf = .ok B ∧ B.WF ∧ B.rowN = A.colN ∧ B.colN = A.rowN ∧
      B.entries = transposed A.entries := by
  have hlv := h.lenV; have hn := h.nnz_le; have hlr := h.lenR; have hlc := h.lenC
  unfold Coo.transposeSelf Coo.resize
  simp only [if_true]
  rw [readN_ok (by omega), Res.ok_bind]
  have hlen : (A.val.take A.nnz).length = A.nnz := by simp; omega
  rw [hlen, reallocCopy_ok (by omega), Res.ok_bind, Res.ok_bind]
  simp only [Nat.min_self, Nat.sub_self, List.replicate_zero, List.append_nil]
  rw [vcopy_ok (by omega) (by omega), Res.ok_bind, List.take_take, Nat.min_self,
    List.drop_of_length_le (by omega), List.append_nil]
  refine ⟨_, rfl, ⟨rfl, by simp, by simp, by simpa using hlen, Nat.le_refl _⟩, rfl, hsq.symm, ?_⟩
  unfold Coo.entries transposed
  simp only
  apply List.ext_getElem?
  intro k
  by_cases hk : k < A.nnz
  · have hkE : k < A.entries.length := by rw [h.length_entries]; exact hk
    have := hd _ (List.getElem_mem hkE)
    simp only [Coo.entries, List.getElem_take, List.getElem_zip] at this
    have hk1 : k < A.rowIdx.length := by omega
    have hk2 : k < A.colIdx.length := by omega
    have hk3 : k < A.val.length := by omega
    rw [stdResize_take (by omega)]
    simp [List.getElem?_map, List.getElem?_take, hk, List.getElem?_zip_eq_some,
      List.getElem?_eq_getElem, hk1, hk2, hk3, this]
  · rw [List.getElem?_eq_none (by simp; omega), List.getElem?_eq_none (by simp; omega)]

example : ∃ A : Coo Int, Coo.insertAll [(1, 1, 5), (0, 0, 4)] (Coo.new 2 2) = .ok A ∧ A.WF ∧
    A.rowN = A.colN ∧ ∀ e ∈ A.entries, e.1 = e.2.1 :=
  ⟨_, rfl, ⟨rfl, rfl, rfl, rfl, by decide⟩, rfl, by decide⟩

/-! ### C11 -/

/-- **C11 (in place).** `Dense::transpose()` of any matrix (square or rectangular) at offset 0
completes in bounds, exchanges the dimensions and reads `at(i, j)` of the old matrix at `(j, i)`;
elements of the allocation behind the matrix are untouched. -/
theorem C11_transpose [Zero α] (A : Dense α) (hA : A.WF) (hA0 : A.first = 0) :
    ∃ B, A.transpose = .ok B ∧ B.WF ∧ B.first = 0 ∧ B.rowN = A.colN ∧ B.colN = A.rowN ∧
      (∀ i j, i < A.rowN → j < A.colN → B.at_ j i = A.at_ i j) ∧
      ∀ n, A.nnz ≤ n → B.val[n]? = A.val[n]? := by
  obtain ⟨B, h, hw, hf, hr, hc, _, _, hv, ho⟩ := Dense.transpose_ok hA hA0
  exact ⟨B, h, hw, hf, hr, hc, Dense.at_transposed hA hA0 hw hf hr hc hv, ho⟩

/-- **C11 (involution).** -/
theorem C11_transpose_twice [Zero α] (A : Dense α) (hA : A.WF) (hA0 : A.first = 0) :
    ∃ B C, A.transpose = .ok B ∧ B.transpose = .ok C ∧ C.rowN = A.rowN ∧ C.colN = A.colN ∧
      C.nnz = A.nnz ∧ ∀ n : Nat, C.val[n]? = A.val[n]? := by
  obtain ⟨B, h, hw, hf, hr, hc, hn, _, hv, ho⟩ := Dense.transpose_ok hA hA0
  obtain ⟨C, h', hw', hf', hr', hc', hn', _, hv', ho'⟩ := Dense.transpose_ok hw hf
  refine ⟨B, C, h, h', by omega, by omega, by omega, fun n => ?_⟩
  by_cases hnn : A.nnz ≤ n
  · rw [ho' n (by omega), ho n hnn]
  · have hlt : n < A.rowN * A.colN := by rw [← hA.nnz_eq]; omega
    obtain ⟨q1, q2, q3⟩ := idx_decomp hlt
    have e1 := hv' (n % A.colN) (n / A.colN) (by omega) (by omega)
    have e2 := hv (n / A.colN) (n % A.colN) (by omega) (by omega)
    rw [hr, hc, q3] at e1
    rw [q3] at e2
    rw [e1, e2]

/-- **C11 (out of place).** `A.transpose(B)` for any target that owns its storage. -/
theorem C11_transpose_from [Zero α] (T B : Dense α) (hT : T.Own) (hB : B.WF) (hB0 : B.first = 0) :
    ∃ A, T.transposeFrom B = .ok A ∧ A.WF ∧ A.first = 0 ∧ A.rowN = B.colN ∧ A.colN = B.rowN ∧
      ∀ i j, i < B.rowN → j < B.colN → A.at_ j i = B.at_ i j := by
  obtain ⟨A, h, hw, hf, hr, hc, hv⟩ := Dense.transposeFrom_ok hT hB hB0
  exact ⟨A, h, hw, hf, hr, hc, Dense.at_transposed hB hB0 hw hf hr hc hv⟩

/-- a square and a rectangular matrix, the latter with spare capacity -/
example : ({ rowN := 3, colN := 3, val := [1, 2, 3, 4, 5, 6, 7, 8, 9], nnz := 9, alloc := 9,
             first := 0, created := true } : Dense Int).WF ∧
    ({ rowN := 2, colN := 3, val := [1, 2, 3, 4, 5, 6, 99], nnz := 6, alloc := 7,
       first := 0, created := true } : Dense Int).WF :=
  ⟨⟨rfl, rfl, by decide⟩, ⟨rfl, rfl, by decide⟩⟩

/-- **C11 (violated for aliases).** For a dense matrix at a non-zero storage offset the in-place
transpose works on the wrong elements. -/
theorem C11_offset_violated :
    ¬ ∀ (A B : Dense Int), A.WF → A.transpose = .ok B →
        ∀ i j, i < A.rowN → j < A.colN → B.at_ j i = A.at_ i j := by
  intro h
  have := h ⟨2, 2, [0, 1, 2, 3, 4], 4, 5, 1, false⟩ ⟨2, 2, [0, 2, 1, 3, 4], 4, 5, 1, false⟩
    ⟨rfl, rfl, by decide⟩ rfl 0 0 (by decide) (by decide)
  revert this
  decide

/-! ### C12 -/

theorem ofArrays_ok [Zero α] (A : Crs α) (h : A.Tiled) :
    ∃ B, Crs.ofArrays A.rowN A.colN A.nnz A.rowPtr A.colInd A.val = .ok B ∧ B.Tiled ∧
      B.rowN = A.rowN ∧ B.colN = A.colN ∧ B.nnz = A.nnz ∧ B.entries = A.entries := by
  have hlv := h.lenV; have hn := h.nnz_le; have hlc := h.lenC; have hlp := h.lenP
  unfold Crs.ofArrays Crs.new Crs.resize
  simp only [Crs.empty, Nat.not_lt_zero, if_false, if_true]
  rw [reallocCopy_ok (by simp), Res.ok_bind, Res.ok_bind]
  simp only
  rw [vcopy_ok (by omega) (by simp), Res.ok_bind, vcopy_ok (by omega) (by simp), Res.ok_bind,
    vcopy_ok (by omega) (by simp), Res.ok_bind]
  have e1 : (A.rowPtr.take (A.rowN + 1) ++ (stdResize ([] : List Nat) (A.rowN + 1) 0).drop (A.rowN + 1))
      = A.rowPtr := by
    rw [List.drop_of_length_le (by simp), List.append_nil, List.take_of_length_le (by omega)]
  have e2 : (A.colInd.take A.nnz ++ (stdResize ([] : List Nat) A.nnz 0).drop A.nnz)
      = A.colInd.take A.nnz := by
    rw [List.drop_of_length_le (by simp), List.append_nil]
  have e3 : (A.val.take A.nnz ++ (List.take (min 0 A.nnz) [] ++
      List.replicate (A.nnz - min 0 A.nnz) (0 : α)).drop A.nnz) = A.val.take A.nnz := by
    rw [List.drop_of_length_le (by simp), List.append_nil]
  rw [e1, e2, e3]
  have hz : ((A.colInd.take A.nnz).zip (A.val.take A.nnz)) = A.pairs := by
    rw [← take_zip]; rfl
  have hrow : ∀ i, i < A.rowN → Crs.rowEntries
      { rowN := A.rowN, colN := A.colN, rowPtr := A.rowPtr, colInd := A.colInd.take A.nnz,
        val := A.val.take A.nnz, nnz := A.nnz, alloc := A.nnz, created := true } i =
      A.rowEntries i := by
    intro i hi
    rw [h.toSafe.rowEntries hi]
    unfold Crs.rowEntries
    simp only
    rw [hz]; rfl
  refine ⟨_, rfl, { created := rfl, lenV := by simp; omega, nnz_le := Nat.le_refl _, lenP := hlp,
                    ptr_le := h.ptr_le, lenC := by simp; omega, col_lt := ?_, tile := h.tile },
    rfl, rfl, rfl, ?_⟩
  · intro k hk hk2
    simp only at hk hk2 ⊢
    rw [List.getElem_take]
    exact h.col_lt k (by omega) hk2
  · unfold Crs.entries
    simp only
    rw [List.flatMap_def, List.flatMap_def]
    congr 1
    apply List.map_congr_left
    intro i hi
    exact hrow i (by simpa using hi)

theorem rowOf_transposed_sorted {A : Crs α} (c : Nat) :
    (rowOf (transposed A.entries) c).Pairwise (fun a b => a.2.1 ≤ b.2.1) := by
  have : A.entries.Pairwise (fun a b => a.1 ≤ b.1) := by
    unfold Crs.entries
    rw [List.pairwise_flatMap]
    constructor
    · intro i _
      unfold Crs.rowEntries
      rw [List.pairwise_map]
      exact List.pairwise_of_forall (fun _ _ => Nat.le_refl _)
    · refine List.Pairwise.imp ?_ List.pairwise_lt_range
      intro a b hab x hx y hy
      simp only [Crs.rowEntries, List.mem_map] at hx hy
      obtain ⟨_, _, rfl⟩ := hx
      obtain ⟨_, _, rfl⟩ := hy
      exact Nat.le_of_lt hab
  unfold rowOf transposed
  refine List.Pairwise.filter _ ?_
  rw [List.pairwise_map]
  exact this

theorem perm_transposed {A C : Crs α} (hA : A.Tiled) (hr : C.rowN = A.colN)
    (hrow : ∀ c, c < A.colN → C.rowEntries c = rowOf (transposed A.entries) c) :
    C.entries.Perm (transposed A.entries) := by
  have hlt : ∀ x ∈ transposed A.entries, x.1 < A.colN := by
    intro x hx
    simp only [transposed, List.mem_map] at hx
    obtain ⟨e, he, rfl⟩ := hx
    exact (hA.toSafe.col_lt_of_mem he).2
  have e1 : C.entries = (List.range A.colN).flatMap (rowOf (transposed A.entries)) := by
    unfold Crs.entries
    rw [hr, List.flatMap_def, List.flatMap_def]
    congr 1
    apply List.map_congr_left
    intro i hi
    exact hrow i (by simpa using hi)
  rw [e1]
  have key : ∀ n (L : List (Entry α)), ((List.range n).flatMap (rowOf L)).Perm
      (L.filter (fun e => decide (e.1 < n))) := by
    intro n
    induction n with
    | zero => intro L; simp
    | succ n ih =>
      intro L
      rw [List.range_succ, List.flatMap_append, List.flatMap_singleton]
      refine (List.Perm.append_right _ (ih L)).trans ?_
      clear ih
      induction L with
      | nil => simp [rowOf]
      | cons a L ih =>
        simp only [rowOf, List.filter_cons] at ih ⊢
        by_cases h1 : a.1 < n
        · have h2 : a.1 < n + 1 := by omega
          have h3 : ¬ a.1 = n := by omega
          simp only [h1, h2, decide_true, if_true, beq_iff_eq, h3, if_false, List.cons_append]
          exact List.Perm.cons _ ih
        · by_cases h3 : a.1 = n
          · have h2 : a.1 < n + 1 := by omega
            have h4 : decide (a.1 < n) = false := by simp [h1]
            have h5 : (a.1 == n) = true := by simp [h3]
            simp only [h4, h2, decide_true, if_true, h5, Bool.false_eq_true, if_false]
            exact List.perm_middle.trans (List.Perm.cons _ ih)
          · have h2 : ¬ a.1 < n + 1 := by omega
            simp only [h1, h2, decide_false, if_false, beq_iff_eq, h3, Bool.false_eq_true]
            exact ih
  refine (key A.colN _).trans ?_
  rw [List.filter_eq_self.2]
  intro e he
  simpa using hlt e he

/-- **C12 (in place).** `CRS::transpose()` of every CRS whose rows tile the stored elements (every
well-formed CRS, every CRS converted from a row-sorted COO) completes in bounds and gives a
well-formed CRS of exchanged dimensions with the same number of stored elements, whose entries are
exactly the old ones with row and column exchanged; within each row the columns are in
non-decreasing order. -/
theorem C12_transpose [Zero α] (A : Crs α) (hA : A.Tiled) :
    ∃ C, A.transpose = .ok C ∧ C.WF ∧ C.rowN = A.colN ∧ C.colN = A.rowN ∧ C.nnz = A.nnz ∧
      C.entries.Perm (transposed A.entries) ∧
      ∀ c, c < C.rowN → (C.rowEntries c).Pairwise (fun a b => a.2.1 ≤ b.2.1) := by
  obtain ⟨B, hB, ht, hr, hc, hn, he⟩ := ofArrays_ok A hA
  unfold Crs.transpose
  rw [hB, Res.ok_bind]
  obtain ⟨C, h, hw, hr', hc', hn', hrow⟩ := Crs.trCore_ok (B := B)
    (A := { A with rowN := B.colN, colN := B.rowN, rowPtr := stdResize A.rowPtr (B.colN + 1) 0,
                   colInd := stdResize A.colInd B.nnz 0 })
    ht (by simp) (by simp) hn.symm hA.lenV hA.nnz_le rfl rfl hA.created
  rw [he, hc] at hrow
  refine ⟨C, h, hw, by omega, by omega, by omega,
    perm_transposed hA (by omega) hrow, ?_⟩
  intro c hcl
  rw [hrow c (by omega)]
  exact rowOf_transposed_sorted c

/-- **C12 (out of place).** `A.transpose(B)` into any CRS object. -/
theorem C12_transpose_from [Zero α] (T B : Crs α) (hT : T.BufOk) (hB : B.Tiled) :
    ∃ C, T.transposeFrom B = .ok C ∧ C.WF ∧ C.rowN = B.colN ∧ C.colN = B.rowN ∧ C.nnz = B.nnz ∧
      C.entries.Perm (transposed B.entries) ∧
      ∀ c, c < C.rowN → (C.rowEntries c).Pairwise (fun a b => a.2.1 ≤ b.2.1) := by
  unfold Crs.transposeFrom
  obtain ⟨V, a, hr, hV, ha⟩ := Crs.resize_ok (A := { T with
      rowN := B.colN, colN := B.rowN, rowPtr := stdResize T.rowPtr (B.colN + 1) 0,
      colInd := stdResize T.colInd B.nnz 0, created := true })
    ⟨rfl, hT.lenV, hT.nnz_le⟩ B.nnz (0 : α)
  rw [hr, Res.ok_bind]
  obtain ⟨C, h, hw, hr', hc', hn', hrow⟩ := Crs.trCore_ok (B := B)
    (A := { T with rowN := B.colN, colN := B.rowN, rowPtr := stdResize T.rowPtr (B.colN + 1) 0,
                   colInd := stdResize T.colInd B.nnz 0, created := true, val := V, alloc := a,
                   nnz := B.nnz })
    hB (by simp) (by simp) rfl hV ha rfl rfl rfl
  refine ⟨C, h, hw, hr', hc', hn', perm_transposed hB hr' hrow, ?_⟩
  intro c hcl
  rw [hrow c (by omega)]
  exact rowOf_transposed_sorted c

/-- a rectangular CRS with an empty row, unsorted columns and a repeated position; also a target
holding other data -/
example : ({ rowN := 3, colN := 4, rowPtr := [0, 3, 3, 4], colInd := [3, 0, 3, 1, 0],
             val := [4, 5, 6, 7, 0], nnz := 4, alloc := 5, created := true } : Crs Int).Tiled ∧
    ({ rowN := 1, colN := 1, rowPtr := [0, 1], colInd := [0], val := [9], nnz := 1, alloc := 1,
       created := true } : Crs Int).BufOk :=
  ⟨Crs.WF.tiled ⟨⟨⟨rfl, rfl, by decide⟩, rfl, by decide, by decide, by decide⟩, rfl, rfl,
    by decide⟩, ⟨rfl, rfl, by decide⟩⟩

end Verif
