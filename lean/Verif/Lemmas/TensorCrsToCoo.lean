import Verif.Lemmas.TensorCrs
import Verif.Lemmas.CrsToCoo

/-! `tensor_COO::convert(tensor_CRS)`. -/

namespace Verif

open Spec

variable {α : Type}

/-- in a tiled matrix the rows list the stored pairs in order -/
theorem Crs.Tiled.entries_snd {B : Crs α} (hB : B.Tiled) : B.entries.map (·.2) = B.pairs := by
  obtain ⟨m, hm, h0, hmn, hmono, htail⟩ := hB.tile
  have hlP := hB.toSafe.length_pairs
  have key : ∀ i, i ≤ B.rowN → ((List.range i).flatMap B.rowEntries).map (·.2) =
      B.pairs.take (if i ≤ m then B.ptr i else B.nnz) := by
    intro i
    induction i with
    | zero => intro _; simp [h0]
    | succ i ih =>
      intro hi
      rw [List.range_succ, List.flatMap_append, List.map_append, ih (by omega), List.flatMap_singleton]
      by_cases him : i < m
      · rw [if_pos (by omega), if_pos (by omega), hB.toSafe.rowEntries (by omega), List.map_map]
        have e : ((fun x : Entry α => x.2) ∘ fun p : Nat × α => (i, p.1, p.2)) = id := by
          funext p; rfl
        rw [e, List.map_id]
        have := hmono i him
        have e2 : B.pairs.take (B.ptr i) = (B.pairs.take (B.ptr (i + 1))).take (B.ptr i) := by
          rw [List.take_take, Nat.min_eq_left this]
        rw [e2, List.take_append_drop]
      · rw [row_empty (htail i (by omega) (by omega)), List.map_nil, List.append_nil,
          if_neg (show ¬ i + 1 ≤ m by omega)]
        split
        · have : i = m := by omega
          rw [this, hmn]
        · rfl
  have := key B.rowN (Nat.le_refl _)
  rw [Crs.entries, this]
  split
  · have : B.rowN = m := by omega
    rw [this, hmn, List.take_of_length_le (by omega)]
  · rw [List.take_of_length_le (by omega)]

theorem Crs.Tiled.length_entries {B : Crs α} (hB : B.Tiled) : B.entries.length = B.nnz := by
  have := congrArg List.length hB.entries_snd
  rw [List.length_map, hB.toSafe.length_pairs] at this
  exact this

theorem Crs.Tiled.row_col {B : Crs α} (hB : B.Tiled) {e : Entry α} (he : e ∈ B.entries) :
    e.1 < B.rowN ∧ e.2.1 < B.colN := by
  constructor
  · simp only [Crs.entries, List.mem_flatMap, List.mem_range, Crs.rowEntries, List.mem_map] at he
    obtain ⟨i, hi, p, _, rfl⟩ := he
    exact hi
  · have : e.2 ∈ B.entries.map (·.2) := List.mem_map_of_mem he
    rw [hB.entries_snd] at this
    exact hB.toSafe.pair_col_lt this

namespace TCoo

/-- what is written so far: positions `ix`, the first `nz` values -/
def Out (W : List α) (ix : List (List Nat)) (nz : Nat) (s : List (List Nat) × List α × Nat) : Prop :=
  s.1 = ix ∧ s.2.2 = nz ∧ s.2.1.length = W.length ∧ s.2.1.take nz = W.take nz

theorem crsElems {A : TCrs α} {W : List α} (hW : ∀ k, k < W.length → rd A.val (A.first + k) = rd W k)
    {B : Crs α} (hB : B.Safe) {up : List Nat} {i lo hi nz : Nat} {ix : List (List Nat)}
    (hlh : lo ≤ hi) (hhi : hi ≤ B.nnz) (hnz : nz + (hi - lo) ≤ W.length)
    {s : List (List Nat) × List α × Nat} (hs : Out W ix nz s) :
    (forRange lo hi (crsElem A 0 up i B.colInd) s).Sat
      (Out W (ix ++ ((B.pairs.take hi).drop lo).map (fun p => up ++ [i, p.1])) (nz + (hi - lo))) := by
  have hlP := hB.length_pairs
  refine forRange_sat (fun j s => Out W (ix ++ ((B.pairs.take j).drop lo).map
    (fun p => up ++ [i, p.1])) (nz + (j - lo)) s) hlh ?_ ?_
  · rw [List.drop_eq_nil_of_le (by simp)]
    simpa using hs
  · rintro j s h1 h2 ⟨e1, e2, e3, e4⟩
    unfold crsElem
    rw [hB.rd_col (by omega), Res.ok_bind, hW _ (by omega), rd_ok (by omega), Res.ok_bind,
      wr_ok (by omega), Res.ok_bind, Res.sat_ok]
    refine ⟨?_, ?_, ?_, ?_⟩
    · dsimp only
      rw [e1, List.take_succ_eq_append_getElem (by omega), List.drop_append_of_le_length (by simp; omega)]
      simp
    · dsimp only; omega
    · simpa using e3
    · dsimp only
      have e5 : nz + (j + 1 - lo) = s.2.2 + 1 := by omega
      have e6 : s.2.1.take s.2.2 = W.take s.2.2 := by rw [e2]; exact e4
      rw [e5, Nat.zero_add, List.take_succ_eq_append_getElem (by simp; omega),
        List.take_set_of_le (Nat.le_refl _), e6, List.take_succ_eq_append_getElem (l := W) (by omega)]
      simp

theorem crsRows {A : TCrs α} {W : List α} (hW : ∀ k, k < W.length → rd A.val (A.first + k) = rd W k)
    {B : Crs α} (hB : B.Tiled) {up : List Nat} {nz : Nat} {ix : List (List Nat)}
    (hnz : nz + B.nnz ≤ W.length)
    {s : List (List Nat) × List α × Nat} (hs : Out W ix nz s) :
    (forN (B.rowPtr.length - 1) (fun i s => do
        let lo ← rd B.rowPtr i
        let hi ← rd B.rowPtr (i + 1)
        forRange lo hi (crsElem A 0 up i B.colInd) s) s).Sat
      (Out W (ix ++ B.entries.map (fun e => up ++ [e.1, e.2.1])) (nz + B.nnz)) := by
  obtain ⟨m, hm, h0, hmn, hmono, htail⟩ := hB.tile
  have hl := hB.lenP
  have e0 : B.rowPtr.length - 1 = B.rowN := by omega
  rw [e0]
  refine (forN_sat (fun i s => Out W (ix ++ ((List.range i).flatMap B.rowEntries).map
    (fun e => up ++ [e.1, e.2.1])) (nz + (if i ≤ m then B.ptr i else B.nnz)) s) ?_ ?_).mono ?_
  · simpa [h0] using hs
  · intro i s hi hI
    rw [rd_ptr hB.lenP (by omega), Res.ok_bind, rd_ptr hB.lenP (by omega), Res.ok_bind]
    by_cases him : i < m
    · rw [if_pos (by omega)] at hI
      have hp := hB.ptr_le (i + 1) (by omega)
      have hmo := hmono i him
      refine (crsElems hW hB.toSafe hmo hp (by omega) hI).mono ?_
      intro s' hs'
      rw [if_pos (by omega), List.range_succ, List.flatMap_append, List.map_append,
        List.flatMap_singleton, hB.toSafe.rowEntries hi, List.map_map]
      have e1 : nz + B.ptr i + (B.ptr (i + 1) - B.ptr i) = nz + B.ptr (i + 1) := by omega
      rw [e1, List.append_assoc] at hs'
      exact hs'
    · rw [forRange_empty _ _ (htail i (by omega) hi), Res.sat_ok]
      rw [List.range_succ, List.flatMap_append, List.map_append,
        List.flatMap_singleton, row_empty (htail i (by omega) hi), List.map_nil, List.append_nil,
        if_neg (by omega)]
      split at hI
      · have : i = m := by omega
        rw [this, hmn] at hI
        rw [this]; exact hI
      · exact hI
  · intro s' hs'
    have : (if B.rowN ≤ m then B.ptr B.rowN else B.nnz) = B.nnz := by
      split
      · have : B.rowN = m := by omega
        rw [this, hmn]
      · rfl
    rw [this] at hs'
    exact hs'

end TCoo

namespace TCrs

/-- all stored elements, slice by slice (proof device) -/
def elems (us : List Nat) (R C : Nat) (T : TCrs α) (n : Nat) : List (TEntry α) :=
  (List.range n).flatMap fun d =>
    (T.slice R C d).entries.map fun e => (TDense.posOf us d ++ [e.1, e.2.1], e.2.2)

theorem elems_succ (us : List Nat) (R C : Nat) (T : TCrs α) (n : Nat) :
    elems us R C T (n + 1) = elems us R C T n ++
      (T.slice R C n).entries.map fun e => (TDense.posOf us n ++ [e.1, e.2.1], e.2.2) := by
  simp [elems, List.range_succ, List.flatMap_append]

theorem offset_succ {T : TCrs α} {d : Nat} (h : d < T.colInds.length) :
    T.offset (d + 1) = T.offset d + (T.colInds.getD d []).length := by
  unfold offset
  rw [List.take_succ_eq_append_getElem h, List.map_append, List.sum_append,
    List.getD_eq_getElem?_getD, List.getElem?_eq_getElem h]
  simp

theorem offset_le {T : TCrs α} {n : Nat} (hn : n ≤ T.colInds.length) : ∀ d, d ≤ n →
    T.offset d ≤ T.offset n := by
  induction n with
  | zero => intro d hd; have : d = 0 := by omega
            rw [this]
  | succ n ih =>
    intro d hd
    by_cases h : d = n + 1
    · rw [h]
    · have := ih (by omega) d (by omega)
      rw [offset_succ (by omega)]; omega

theorem Tiled.elems_length {us : List Nat} {R C : Nat} {T : TCrs α} (h : T.Tiled us R C) :
    ∀ n, n ≤ volume us → (elems us R C T n).length = T.offset n := by
  intro n
  induction n with
  | zero => intro _; simp [elems, offset]
  | succ n ih =>
    intro hn
    rw [elems_succ, List.length_append, ih (by omega), List.length_map,
      (h.tiled n (by omega)).length_entries, offset_succ (by rw [h.lenC]; omega)]
    rfl

theorem Tiled.elems_vals {us : List Nat} {R C : Nat} {T : TCrs α} (h : T.Tiled us R C) :
    ∀ n, n ≤ volume us → (elems us R C T n).map (·.2) = (T.val.drop T.first).take (T.offset n) := by
  intro n
  induction n with
  | zero => intro _; simp [elems, offset]
  | succ n ih =>
    intro hn
    have hlt : n < T.colInds.length := by rw [h.lenC]; omega
    have h1 := (h.tiled n (by omega)).entries_snd
    have h2 : ((T.slice R C n).entries.map (fun e => (TDense.posOf us n ++ [e.1, e.2.1], e.2.2))).map (·.2)
        = (T.slice R C n).pairs.map (·.2) := by
      rw [← h1, List.map_map, List.map_map]; rfl
    have hw := h.window
    have hlv := h.lenV
    have hot := offset_le (T := T) (n := volume us) (by rw [h.lenC]) (n + 1) hn
    rw [h.total, offset_succ hlt] at hot
    have h3 : (T.slice R C n).pairs.map (·.2) = (T.slice R C n).val := by
      unfold Crs.pairs
      rw [List.map_take, List.map_snd_zip]
      · rw [List.take_of_length_le]
        simp [slice]
      · simp only [slice]; rw [List.length_take]; omega
    rw [elems_succ, List.map_append, ih (by omega), h2, h3, offset_succ hlt, List.take_add]
    congr 1
    simp [slice, List.drop_drop]

end TCrs

theorem TCoo.convertCrs_ok [Zero α] {us : List Nat} {R C : Nat} {A : TCrs α} (hA : A.Tiled us R C)
    {T : TCoo α} (hT : T.WF) :
    ∃ B, TCoo.convertCrs T A = .ok B ∧ B.WF ∧ B.shape = A.shape ∧ B.nnz = A.nnz ∧
      B.entries = TCrs.elems us R C A (volume us) := by
  have hw := hA.window
  have hlv := hA.lenV
  set W : List α := (A.val.drop A.first).take A.nnz with hWd
  have hWl : W.length = A.nnz := by simp [hWd]; omega
  have hW : ∀ k, k < W.length → rd A.val (A.first + k) = rd W k := by
    intro k hk
    unfold rd
    rw [hWd, List.getElem?_take_of_lt (by omega), List.getElem?_drop]
  have hres : ∃ b, TCoo.resize ({ T with shape := A.shape, created := true }) A.nnz 0 =
      .ok { shape := A.shape, index := stdResize T.index A.nnz [], val := b, nnz := A.nnz,
            alloc := A.nnz, created := true } ∧ b.length = A.nnz := by
    unfold TCoo.resize
    have := hT.lenV
    have := hT.nnz_le
    rw [if_pos rfl, reallocCopy_ok (by dsimp only; omega)]
    exact ⟨_, rfl, by simp; omega⟩
  obtain ⟨b0, hr, hb0⟩ := hres
  have hloop := forN_sat (n := A.colInds.length) (body := TCoo.crsSlice A) (s := ([], b0, 0))
    (fun d s => TCoo.Out W ((TCrs.elems us R C A d).map (·.1)) (A.offset d) s)
    ⟨by simp [TCrs.elems], by simp [TCrs.offset], by dsimp only; omega, by simp [TCrs.offset]⟩ (by
    intro d s hd hs
    have hdU : d < volume us := by rw [← hA.lenC]; exact hd
    have ht := hA.tiled d hdU
    obtain ⟨p, hp1, _, _⟩ := unindex_ok hdU
    have hpp : TDense.posOf us d = p := by unfold TDense.posOf; rw [hp1]
    unfold TCoo.crsSlice TCoo.slicePos
    have t : A.shape.take (A.shape.length - 2) = us := by rw [hA.shape]; simp
    rw [t, hp1, Res.ok_bind, TCrs.getD_rd (by rw [hA.lenP]; exact hdU) [], Res.ok_bind,
      TCrs.getD_rd hd [], Res.ok_bind]
    have hot := TCrs.offset_le (T := A) (n := volume us) (by rw [hA.lenC]) (d + 1) hdU
    rw [hA.total, TCrs.offset_succ hd] at hot
    have := TCoo.crsRows (A := A) (W := W) hW (B := A.slice R C d) ht (up := p)
      (nz := A.offset d) (ix := (TCrs.elems us R C A d).map (·.1))
      (by rw [hWl]; exact hot) hs
    refine this.mono ?_
    intro s' hs'
    rw [TCrs.elems_succ, List.map_append, List.map_map, TCrs.offset_succ hd, hpp]
    exact hs')
  obtain ⟨⟨ix, b, nz⟩, h1, e1, e2, e3, e4⟩ := hloop
  rw [hA.lenC] at e1 e2 e4
  dsimp only at e1 e2 e3 e4
  rw [hA.total] at e2 e4
  have hb : b = W := by
    rwa [List.take_of_length_le (by omega), List.take_of_length_le (by omega)] at e4
  refine ⟨{ shape := A.shape, index := ix, val := b, nnz := A.nnz, alloc := A.nnz, created := true },
    ?_, ?_, rfl, rfl, ?_⟩
  · unfold TCoo.convertCrs
    have h2 : ¬ A.shape.length < 2 := by rw [hA.shape]; simp
    rw [hr, Res.ok_bind, if_neg h2]
    dsimp only
    rw [h1, Res.ok_bind]
  · have hlen := hA.elems_length (volume us) (Nat.le_refl _)
    refine ⟨rfl, ?_, ?_, Nat.le_refl _⟩
    · rw [e1, List.length_map, hlen, hA.total]
    · dsimp only; omega
  · have hlen := hA.elems_length (volume us) (Nat.le_refl _)
    have hvals := hA.elems_vals (volume us) (Nat.le_refl _)
    rw [hA.total] at hvals hlen
    have : b = (TCrs.elems us R C A (volume us)).map (·.2) := by rw [hvals, hb]
    unfold TCoo.entries
    dsimp only
    rw [this, e1, List.zip_map', List.take_of_length_le (by simp; omega)]
    simp

end Verif
