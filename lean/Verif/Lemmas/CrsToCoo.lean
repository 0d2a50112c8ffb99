import Verif.Lemmas.CrsConv

/-! `COO::convert(CRS)` and consequences of `convertCoo_ok`. -/

namespace Verif

open Spec

variable {α : Type}

theorem rd_ptr {A : Crs α} (hl : A.rowPtr.length = A.rowN + 1) {i : Nat} (hi : i ≤ A.rowN) :
    rd A.rowPtr i = .ok (A.ptr i) := by
  rw [rd_ok (by omega)]
  simp [Crs.ptr, List.getD_eq_getElem?_getD, List.getElem?_eq_getElem (show i < A.rowPtr.length by omega)]

/-- the pairs stored in the first `nnz` positions -/
def Crs.pairs (A : Crs α) : List (Nat × α) := (A.colInd.zip A.val).take A.nnz

theorem Crs.Safe.length_pairs {A : Crs α} (h : A.Safe) : A.pairs.length = A.nnz := by
  have := h.lenC; have := h.lenV; have := h.nnz_le
  simp [Crs.pairs]; omega

theorem Crs.Safe.rowEntries {A : Crs α} (h : A.Safe) {i : Nat} (hi : i < A.rowN) :
    A.rowEntries i = ((A.pairs.take (A.ptr (i + 1))).drop (A.ptr i)).map (fun p => (i, p.1, p.2)) :=
  rowEntries_of_pairs rfl (h.ptr_le _ (by omega))

theorem Crs.Safe.rd_col {A : Crs α} (h : A.Safe) {k : Nat} (hk : k < A.nnz) :
    rd A.colInd k = .ok (A.pairs[k]'(by rw [h.length_pairs]; exact hk)).1 := by
  have := h.lenC
  rw [rd_ok (by omega)]; simp [Crs.pairs]

theorem Crs.Safe.rd_val {A : Crs α} (h : A.Safe) {k : Nat} (hk : k < A.nnz) :
    rd A.val k = .ok (A.pairs[k]'(by rw [h.length_pairs]; exact hk)).2 := by
  have := h.lenV; have := h.nnz_le
  rw [rd_ok (by omega)]; simp [Crs.pairs]

theorem Crs.Safe.pair_col_lt {A : Crs α} (h : A.Safe) {p : Nat × α} (hp : p ∈ A.pairs) :
    p.1 < A.colN := by
  obtain ⟨k, hk, rfl⟩ := List.getElem_of_mem hp
  have hk' : k < A.nnz := by rw [h.length_pairs] at hk; exact hk
  have := h.col_lt k (by have := h.lenC; omega) hk'
  simpa [Crs.pairs] using this

theorem ofCoo_ptr [Zero α] {A : Crs α} {coo : Coo α} {c : Nat}
    (hp : ∀ r, r ≤ coo.rowN → A.ptr r =
        convPtr (fun r => (convInit (Crs.empty : Crs α) coo.rowN).getD r 0) coo.entries c r)
    {r : Nat} (hr : r ≤ coo.rowN) :
    A.ptr r = if r ≤ c + 1 then countBelow coo.entries r else 0 := by
  have h0 : ∀ r, (convInit (Crs.empty : Crs α) coo.rowN).getD r 0 = 0 := by
    intro r
    unfold convInit
    rw [getD_set (by simp)]
    split
    · rfl
    · simp only [Crs.empty, stdResize, List.getD_eq_getElem?_getD]
      by_cases h : r < coo.rowN + 1
      · simp [h]
      · simp [h]
  rw [hp r hr]
  unfold convPtr
  simp only [h0]
  by_cases e0 : r = 0
  · subst e0; simp [countBelow_zero]
  · by_cases e1 : r = 1 ∧ countBelow coo.entries 1 = 0
    · obtain ⟨rfl, e2⟩ := e1
      simp [e2]
    · rw [if_neg e0, if_neg e1]

/-- a row whose two pointers are the counts holds exactly that row's entries -/
theorem row_of_counts {A : Crs α} {coo : Coo α} (hs : SortedRows coo.entries) (hc : coo.WF)
    (hz : (A.colInd.zip A.val).take coo.nnz = coo.entries.map (·.2)) {i : Nat}
    (h1 : A.ptr i = countBelow coo.entries i)
    (h2 : A.ptr (i + 1) = countBelow coo.entries (i + 1)) :
    A.rowEntries i = coo.entries.filter (fun e => e.1 == i) := by
  have hle : A.ptr (i + 1) ≤ coo.nnz := by
    rw [h2, ← hc.length_entries]; exact countBelow_le _ _
  rw [rowEntries_of_pairs hz hle, h1, h2, ← List.map_take, ← List.map_drop, slice_eq_filter hs,
    List.map_map]
  exact map_row_filter _ _

theorem row_empty {A : Crs α} {i : Nat} (h : A.ptr (i + 1) ≤ A.ptr i) : A.rowEntries i = [] := by
  unfold Crs.rowEntries
  rw [List.drop_eq_nil_of_le (by simp; omega)]
  rfl

/-! ### COO::convert(CRS) -/

theorem fromCrs_inner {B : Crs α} (hB : B.Safe) {i a b : Nat} (hab : a ≤ b) (hb : b ≤ B.nnz)
    {Z : List (Entry α)} (hZ : Z.length = B.nnz) :
    ∃ Z' : List (Entry α), forRange a b (Coo.fromCrsElem B i) (Coo.rows Z, Coo.cols Z, Coo.vals Z) =
        .ok (Coo.rows Z', Coo.cols Z', Coo.vals Z') ∧ Z'.length = B.nnz ∧
      Z'.take b = Z.take a ++ ((B.pairs.take b).drop a).map (fun p => (i, p.1, p.2)) := by
  have hlP := hB.length_pairs
  have := forRange_sat (lo := a) (hi := b) (body := Coo.fromCrsElem B i)
    (s := (Coo.rows Z, Coo.cols Z, Coo.vals Z))
    (fun j s => ∃ Z' : List (Entry α), s = (Coo.rows Z', Coo.cols Z', Coo.vals Z') ∧
      Z'.length = B.nnz ∧
      Z'.take j = Z.take a ++ ((B.pairs.take j).drop a).map (fun p => (i, p.1, p.2))) hab
    ⟨Z, rfl, hZ, by
      rw [List.drop_eq_nil_of_le (by simp; omega)]; simp⟩
    (by
      rintro j _ hj1 hj2 ⟨Z', rfl, hl, ht⟩
      have hj : j < B.nnz := by omega
      unfold Coo.fromCrsElem
      simp only
      rw [wr_ok (by simp; omega), Res.ok_bind, hB.rd_col hj, Res.ok_bind,
        wr_ok (by simp; omega), Res.ok_bind, hB.rd_val hj, Res.ok_bind, wr_ok (by simp; omega),
        Res.ok_bind, Res.sat_ok]
      refine ⟨Z'.set j (i, B.pairs[j].1, B.pairs[j].2), ?_, by simpa using hl, ?_⟩
      · rw [Coo.rows_set, Coo.cols_set, Coo.vals_set]
      · rw [List.take_succ_eq_append_getElem (by simp; omega), List.take_set_of_le (by omega), ht,
          List.take_succ_eq_append_getElem (l := B.pairs) (by omega),
          List.drop_append_of_le_length (by simp; omega)]
        simp)
  obtain ⟨_, he, Z', rfl, hl, ht⟩ := this
  exact ⟨Z', he, hl, ht⟩

theorem fromCrs_loop {B : Crs α} (hB : B.Tiled) {Z : List (Entry α)} (hZ : Z.length = B.nnz) :
    ∃ Z' : List (Entry α), forN B.rowN (fun i s => do
        let a ← rd B.rowPtr i
        let b ← rd B.rowPtr (i + 1)
        forRange a b (Coo.fromCrsElem B i) s) (Coo.rows Z, Coo.cols Z, Coo.vals Z) =
        .ok (Coo.rows Z', Coo.cols Z', Coo.vals Z') ∧ Z'.length = B.nnz ∧ Z' = B.entries := by
  obtain ⟨m, hm, h0, hmn, hmono, htail⟩ := hB.tile
  have := forN_sat (n := B.rowN) (s := (Coo.rows Z, Coo.cols Z, Coo.vals Z))
    (body := fun i s => do
        let a ← rd B.rowPtr i
        let b ← rd B.rowPtr (i + 1)
        forRange a b (Coo.fromCrsElem B i) s)
    (fun i s => ∃ Z' : List (Entry α), s = (Coo.rows Z', Coo.cols Z', Coo.vals Z') ∧
      Z'.length = B.nnz ∧
      Z'.take (if i ≤ m then B.ptr i else B.nnz) = (List.range i).flatMap B.rowEntries)
    ⟨Z, rfl, hZ, by simp [h0]⟩
    (by
      rintro i _ hi ⟨Z', rfl, hl, ht⟩
      rw [rd_ptr hB.lenP (by omega), Res.ok_bind, rd_ptr hB.lenP (by omega), Res.ok_bind]
      by_cases him : i < m
      · obtain ⟨Z'', he, hl', ht'⟩ := fromCrs_inner hB.toSafe (i := i) (hmono i him)
          (hB.ptr_le _ (by omega)) hl
        refine ⟨_, he, Z'', rfl, hl', ?_⟩
        rw [if_pos (by omega), ht']
        rw [if_pos (by omega)] at ht
        rw [List.range_succ, List.flatMap_append, ht, List.flatMap_singleton,
          hB.toSafe.rowEntries hi]
      · rw [forRange_empty _ _ (htail i (by omega) hi), Res.sat_ok]
        refine ⟨Z', rfl, hl, ?_⟩
        rw [List.range_succ, List.flatMap_append, ← ht, List.flatMap_singleton,
          row_empty (htail i (by omega) hi), List.append_nil, if_neg (by omega)]
        split
        · have : i = m := by omega
          subst this; rw [hmn]
        · rfl)
  obtain ⟨_, he, Z', rfl, hl, ht⟩ := this
  refine ⟨Z', he, hl, ?_⟩
  unfold Crs.entries
  rw [← ht]
  split
  · have : B.rowN = m := by omega
    rw [this, hmn, List.take_of_length_le (by omega)]
  · rw [List.take_of_length_le (by omega)]

theorem coo_convertCrs_ok [Zero α] {A : Coo α} (hA : A.WF) {B : Crs α} (hB : B.Tiled) :
    ∃ A', Coo.convertCrs A B = .ok A' ∧ A'.WF ∧ A'.rowN = B.rowN ∧ A'.colN = B.colN ∧
      A'.nnz = B.nnz ∧ A'.entries = B.entries := by
  unfold Coo.convertCrs
  have hr : Coo.resize { A with rowN := B.rowN, colN := B.colN, created := true } B.nnz 0 =
      .ok { A with rowN := B.rowN, colN := B.colN, created := true,
                   val := A.val.take (min A.nnz B.nnz) ++ List.replicate (B.nnz - min A.nnz B.nnz) 0,
                   alloc := B.nnz, nnz := B.nnz, rowIdx := stdResize A.rowIdx B.nnz 0,
                   colIdx := stdResize A.colIdx B.nnz 0 } := by
    unfold Coo.resize
    simp only [if_true]
    rw [reallocCopy_ok (by have := hA.lenV; have := hA.nnz_le; omega), Res.ok_bind]
  rw [hr, Res.ok_bind]
  simp only
  have hlv : (A.val.take (min A.nnz B.nnz) ++ List.replicate (B.nnz - min A.nnz B.nnz) 0).length
      = B.nnz := by
    have := hA.lenV; have := hA.nnz_le
    simp; omega
  generalize hZ : (stdResize (stdResize A.rowIdx B.nnz 0) B.nnz 0).zip
    ((stdResize (stdResize A.colIdx B.nnz 0) B.nnz 0).zip (A.val.take (min A.nnz B.nnz) ++
      List.replicate (B.nnz - min A.nnz B.nnz) 0)) = Z
  have hZl : Z.length = B.nnz := by
    rw [← hZ]; simp only [List.length_zip, length_stdResize, hlv]; omega
  have e1 : stdResize (stdResize A.rowIdx B.nnz 0) B.nnz 0 = Coo.rows Z := by
    rw [← hZ, Coo.rows_zip (by simp) (by rw [hlv]; simp)]
  have e2 : stdResize (stdResize A.colIdx B.nnz 0) B.nnz 0 = Coo.cols Z := by
    rw [← hZ, Coo.cols_zip (by simp) (by rw [hlv]; simp)]
  have e3 : (A.val.take (min A.nnz B.nnz) ++ List.replicate (B.nnz - min A.nnz B.nnz) 0) =
      Coo.vals Z := by
    rw [← hZ, Coo.vals_zip (by simp) (by rw [hlv]; simp)]
  rw [e1, e2, e3]
  obtain ⟨Z', he, hl, hent⟩ := fromCrs_loop hB hZl
  rw [he, Res.ok_bind]
  refine ⟨_, rfl, ⟨rfl, ?_, ?_, ?_, ?_⟩, rfl, rfl, rfl, ?_⟩
  · simpa using hl
  · simpa using hl
  · simpa using hl
  · exact Nat.le_refl _
  · simp only [Coo.entries]
    rw [Coo.zip_proj, List.take_of_length_le (by omega), hent]

end Verif
