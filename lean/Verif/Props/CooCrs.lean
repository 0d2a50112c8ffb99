import Verif.Lemmas.CrsToCoo

/-!
C06, C07: conversions between COO and CRS.
-/

namespace Verif

open Spec

variable {α : Type}

/-- the pointers of a freshly converted matrix give a memory-safe, tiled CRS -/
theorem tiled_of_convert [Zero α] {coo : Coo α} (hc : coo.WF)
    (hin : Within coo.rowN coo.colN coo.entries) {A : Crs α} {c : Nat}
    (hb : A.BufOk) (hr : A.rowN = coo.rowN) (hcN : A.colN = coo.colN) (hn : A.nnz = coo.nnz)
    (hci : A.colInd = coo.colIdx) (hl : A.rowPtr.length = coo.rowN + 1)
    (hp : ∀ r, r ≤ coo.rowN → A.ptr r = if r ≤ c + 1 then countBelow coo.entries r else 0)
    (hle : ∀ e ∈ coo.entries, e.1 ≤ c)
    (hlast : ∀ e, coo.entries.getLast? = some e → c = e.1) : A.Tiled := by
  have hlE := hc.length_entries
  refine { toBufOk := hb, lenP := by omega, ptr_le := ?_, lenC := ?_, col_lt := ?_, tile := ?_ }
  · intro i hi
    rw [hp i (by omega)]
    split
    · have := countBelow_le coo.entries i; omega
    · omega
  · rw [hci, hn]; have := hc.lenC; have := hc.nnz_le; omega
  · intro k hk hk'
    have hkE : k < coo.entries.length := by omega
    have := (hin _ (List.getElem_mem hkE)).2
    rw [hcN]
    have e : coo.entries[k].2.1 = A.colInd[k] := by
      have h2 : A.colInd[k] = coo.colIdx[k]'(by rw [← hci]; exact hk) := by simp [hci]
      rw [h2]; simp [Coo.entries]
    omega
  · by_cases hemp : coo.entries = []
    · refine ⟨0, Nat.zero_le _, ?_, ?_, fun i h => by omega, ?_⟩
      · rw [hp 0 (by omega)]; simp [countBelow_zero]
      · rw [hp 0 (by omega), hn, ← hlE, hemp]; simp [countBelow]
      · intro i _ hi
        have : A.ptr (i + 1) = 0 := by
          rw [hp (i+1) (by omega), hemp]; simp [countBelow]
        omega
    · obtain ⟨e, he⟩ : ∃ e, coo.entries.getLast? = some e :=
        ⟨_, List.getLast?_eq_some_getLast hemp⟩
      have hcM : c < coo.rowN := by
        rw [hlast e he]; exact (hin e (List.mem_of_getLast? he)).1
      refine ⟨c + 1, by omega, ?_, ?_, ?_, ?_⟩
      · rw [hp 0 (by omega)]; simp [countBelow_zero]
      · rw [hp _ (by omega), if_pos (Nat.le_refl _),
          countBelow_all (fun e he => by have := hle e he; omega), hlE, hn]
      · intro i hi
        rw [hp i (by omega), hp (i+1) (by omega), if_pos (by omega), if_pos (by omega)]
        exact countBelow_mono _ (by omega)
      · intro i h1 h2
        rw [hp (i+1) (by omega), if_neg (by omega)]; omega

/-- **C06 (rows).** Converting any row-sorted COO matrix to a freshly constructed CRS completes
without out-of-bounds access; dimensions and `get_nnz()` carry over, and for every row `i` the
range `row_ptr[i] .. row_ptr[i+1]` enumerates exactly the COO's entries of row `i`, in stored
order. Hence reading the CRS row by row gives back the COO's triples. -/
theorem C06_convert_rows [Zero α] (coo : Coo α) (hc : coo.WF)
    (hin : Within coo.rowN coo.colN coo.entries) (hs : SortedRows coo.entries) :
    ∃ A, Crs.ofCoo coo = .ok A ∧ A.rowN = coo.rowN ∧ A.colN = coo.colN ∧ A.nnz = coo.nnz ∧
      A.Tiled ∧
      (∀ i, i < A.rowN → A.rowEntries i = coo.entries.filter (fun e => e.1 == i)) ∧
      A.entries = coo.entries := by
  obtain ⟨A, c, h, hb, hr, hcN, hn, hci, hz, hl, hp, hle, hlast⟩ :=
    convertCoo_ok Crs.empty_bufOk hc (fun e he => (hin e he).1) hs
  have hp' := fun r (hr : r ≤ coo.rowN) => ofCoo_ptr hp hr
  have hrows : ∀ i, i < A.rowN → A.rowEntries i = coo.entries.filter (fun e => e.1 == i) := by
    intro i hi
    by_cases hic : i ≤ c
    · refine row_of_counts hs hc hz ?_ ?_
      · rw [hp' i (by omega), if_pos (by omega)]
      · rw [hp' (i+1) (by omega), if_pos (by omega)]
    · rw [row_empty]
      · symm
        rw [List.filter_eq_nil_iff]
        intro e he; have := hle e he; simp; omega
      · rw [hp' (i+1) (by omega), if_neg (by omega)]; omega
  refine ⟨A, h, hr, hcN, hn, tiled_of_convert hc hin hb hr hcN hn hci hl hp' hle hlast, hrows, ?_⟩
  unfold Crs.entries
  have e1 : (List.range A.rowN).flatMap A.rowEntries =
      (List.range A.rowN).flatMap (fun i => coo.entries.filter (fun e => e.1 == i)) := by
    rw [List.flatMap_def, List.flatMap_def]
    congr 1
    apply List.map_congr_left
    intro i hi; exact hrows i (by simpa using hi)
  rw [e1, flatMap_rows_sorted hs, List.filter_eq_self.2]
  intro e he; have := (hin e he).1; simp; omega

/-- a concrete COO meeting the hypotheses of C06/C07: built by inserts, padded buffers, an empty
first row, an empty middle row and an empty last row -/
example : ∃ A : Coo Int, Coo.insertAll [(1, 0, 5), (1, 2, 6), (3, 1, 7)] (Coo.new 5 3) = .ok A ∧
    A.WF ∧ Within A.rowN A.colN A.entries ∧ SortedRows A.entries := by
  exact ⟨_, rfl, ⟨rfl, rfl, rfl, rfl, by decide⟩, by decide, by decide⟩

/-- the converted matrix is a well-formed CRS (monotone row pointer from 0 to nnz) provided the
first and the last row are not empty, whatever the target held before.
Missing from C06: empty first row on a re-used target, empty last row (see the violations). -/
theorem C06_convert_any_target_partial [Zero α] (T : Crs α) (hT : T.BufOk) (coo : Coo α)
    (hc : coo.WF) (hin : Within coo.rowN coo.colN coo.entries) (hs : SortedRows coo.entries)
    (hfirst : ∃ e ∈ coo.entries, e.1 = 0) (hlastrow : ∃ e ∈ coo.entries, e.1 + 1 = coo.rowN) :
    ∃ A, Crs.convertCoo T coo = .ok A ∧ A.WF ∧ A.rowN = coo.rowN ∧ A.colN = coo.colN ∧
      A.nnz = coo.nnz ∧
      (∀ i, i < A.rowN → A.rowEntries i = coo.entries.filter (fun e => e.1 == i)) := by
  obtain ⟨A, c, h, hb, hr, hcN, hn, hci, hz, hl, hp, hle, hlast⟩ :=
    convertCoo_ok hT hc (fun e he => (hin e he).1) hs
  obtain ⟨e1, he1, h1⟩ := hlastrow
  obtain ⟨e0, he0, h0⟩ := hfirst
  have hcM : coo.rowN ≤ c + 1 := by have := hle e1 he1; omega
  have hpos : countBelow coo.entries 1 ≠ 0 := by
    unfold countBelow
    intro hh
    rw [List.length_eq_zero_iff, List.filter_eq_nil_iff] at hh
    exact hh e0 he0 (by simp [h0])
  have hp' : ∀ r, r ≤ coo.rowN → A.ptr r = if r ≤ c + 1 then countBelow coo.entries r else 0 := by
    intro r hr'
    rw [hp r hr', if_pos (by omega)]
    unfold convPtr
    by_cases e0 : r = 0
    · subst e0; simp [countBelow_zero]
    · rw [if_neg e0, if_neg (by rintro ⟨_, h⟩; exact hpos h), if_pos (by omega)]
  have htile := tiled_of_convert hc hin hb hr hcN hn hci hl hp' hle hlast
  have hp2 : ∀ r, r ≤ coo.rowN → A.ptr r = countBelow coo.entries r := by
    intro r hr'; rw [hp' r hr', if_pos (by omega)]
  refine ⟨A, h, { toSafe := htile.toSafe, ptr_zero := ?_, ptr_last := ?_, ptr_mono := ?_ }, hr, hcN,
    hn, ?_⟩
  · rw [hp2 0 (by omega), countBelow_zero]
  · rw [hr, hp2 _ (Nat.le_refl _), countBelow_all (fun e he => (hin e he).1), hc.length_entries, hn]
  · intro i hi
    rw [hp2 i (by omega), hp2 (i+1) (by omega)]; exact countBelow_mono _ (by omega)
  · intro i hi
    exact row_of_counts hs hc hz (hp2 i (by omega)) (hp2 (i+1) (by omega))

example : ∃ (T : Crs Int) (A : Coo Int),
    Coo.insertAll [(0, 0, 5), (2, 1, 7)] (Coo.new 3 3) = .ok A ∧
    T.BufOk ∧ T.rowPtr = [9, 9, 9] ∧ A.WF ∧ Within A.rowN A.colN A.entries ∧
    SortedRows A.entries ∧ (∃ e ∈ A.entries, e.1 = 0) ∧ (∃ e ∈ A.entries, e.1 + 1 = A.rowN) := by
  refine ⟨⟨1, 1, [9, 9, 9], [], [], 0, 0, true⟩, _, rfl, ⟨rfl, rfl, Nat.le_refl _⟩, rfl,
    ⟨rfl, rfl, rfl, rfl, by decide⟩, by decide, by decide, ⟨(0, 0, 5), by decide, rfl⟩,
    ⟨(2, 1, 7), by decide, rfl⟩⟩

/-- **C06 (violated: trailing empty rows).** Converting to a fresh CRS does not always give a row
pointer ending in `nnz`. -/
theorem C06_row_ptr_end_violated :
    ¬ ∀ (M N : Nat) (L : List (Entry Int)), Within M N L → SortedLex L → ∀ coo A,
        Coo.insertAll L (Coo.new M N) = .ok coo → Crs.ofCoo coo = .ok A → A.ptr M = A.nnz := by
  intro h
  have := h 2 1 [(0, 0, 5)] (by decide) (by decide) _ _ rfl rfl
  revert this
  decide

/-- **C06 (violated: re-used target).** Converting the same COO into a target that already held
another converted matrix can give rows that differ from those of a fresh conversion. -/
theorem C06_reuse_violated :
    ¬ ∀ (coo₁ coo₂ : Coo Int) (T A B : Crs Int),
        coo₁.WF → Within coo₁.rowN coo₁.colN coo₁.entries → SortedLex coo₁.entries →
        coo₂.WF → Within coo₂.rowN coo₂.colN coo₂.entries → SortedLex coo₂.entries →
        Crs.ofCoo coo₁ = .ok T → Crs.convertCoo T coo₂ = .ok A → Crs.ofCoo coo₂ = .ok B →
        ∀ i, i < B.rowN → A.rowEntries i = B.rowEntries i := by
  intro h
  -- first a matrix with one entry in row 0, then one whose row 0 is empty
  have := h (Coo.ofZ 2 1 [(0, 0, 5)] 1) (Coo.ofZ 2 1 [(1, 0, 7)] 1) _ _ _
    (Coo.ofZ_wf (by decide))
    (by decide) (by decide)
    (Coo.ofZ_wf (by decide))
    (by decide) (by decide) rfl rfl rfl 1 (by decide)
  revert this
  decide

/-- **C07 (CRS to COO).** Converting any CRS whose rows tile the stored elements (every well-formed
CRS, and every CRS produced by C06) into any COO object lists exactly the stored entries row by
row, without out-of-bounds access. -/
theorem C07_crs_to_coo [Zero α] (A : Coo α) (hA : A.WF) (B : Crs α) (hB : B.Tiled) :
    ∃ A', Coo.convertCrs A B = .ok A' ∧ A'.WF ∧ A'.rowN = B.rowN ∧ A'.colN = B.colN ∧
      A'.nnz = B.nnz ∧ A'.entries = B.entries :=
  coo_convertCrs_ok hA hB

/-- **C07 (round trip).** COO -> CRS -> COO gives back the same dimensions and the same sequence
of triples, for every row-sorted COO. -/
theorem C07_round_trip [Zero α] (T : Coo α) (hT : T.WF) (coo : Coo α) (hc : coo.WF)
    (hin : Within coo.rowN coo.colN coo.entries) (hs : SortedRows coo.entries) :
    ∃ B A, Crs.ofCoo coo = .ok B ∧ Coo.convertCrs T B = .ok A ∧
      A.rowN = coo.rowN ∧ A.colN = coo.colN ∧ A.entries = coo.entries := by
  obtain ⟨B, h, hr, hcN, _, ht, _, he⟩ := C06_convert_rows coo hc hin hs
  obtain ⟨A, h', _, hr', hc', _, he'⟩ := C07_crs_to_coo T hT B ht
  exact ⟨B, A, h, h', by omega, by omega, by rw [he', he]⟩

/-- a well-formed CRS with an empty row -/
example : ({ rowN := 3, colN := 2, rowPtr := [0, 2, 2, 3], colInd := [1, 0, 1], val := [4, 5, 6],
             nnz := 3, alloc := 3, created := true } : Crs Int).WF :=
  { created := rfl, lenV := rfl, nnz_le := by decide, lenP := rfl,
    ptr_le := by decide, lenC := by decide,
    col_lt := by decide, ptr_zero := rfl, ptr_last := rfl, ptr_mono := by decide }

end Verif
