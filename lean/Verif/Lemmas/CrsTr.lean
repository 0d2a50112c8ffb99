import Verif.Lemmas.CrsRows

/-! Lemmas on `CRS::transpose` (a counting sort by column). -/

namespace Verif

open Spec

variable {α : Type}

theorem countBelow_succ (L : List (Entry α)) (r : Nat) :
    countBelow L (r + 1) = countBelow L r + (rowOf L r).length := by
  unfold countBelow rowOf
  induction L with
  | nil => rfl
  | cons a L ih =>
    simp only [List.filter_cons]
    by_cases h1 : a.1 < r
    · have h2 : a.1 < r + 1 := by omega
      have h3 : ¬ a.1 = r := by omega
      simp [h1, h2, h3, ih]; omega
    · by_cases h3 : a.1 = r
      · simp [h3, ih]; omega
      · have h2 : ¬ a.1 < r + 1 := by omega
        simp [h1, h2, h3, ih]

theorem rowOf_append (L L' : List (Entry α)) (c : Nat) :
    rowOf (L ++ L') c = rowOf L c ++ rowOf L' c := by simp [rowOf]

theorem transposed_append (L L' : List (Entry α)) :
    transposed (L ++ L') = transposed L ++ transposed L' := by simp [transposed]

theorem getElem?_getD {l : List Nat} {i : Nat} (h : i < l.length) : l[i]? = some (l.getD i 0) := by
  rw [List.getD_eq_getElem?_getD, List.getElem?_eq_getElem h]; rfl

theorem rd_getD {l : List Nat} {i : Nat} (h : i < l.length) : rd l i = .ok (l.getD i 0) :=
  rd_of_getElem? (getElem?_getD h)

namespace Crs

/-- counting phase -/
theorem trCount_loop {B : Crs α} (hB : B.Tiled) :
    (forN B.nnz (trCount B.colInd) (List.replicate (B.colN + 1) 0)).Sat (fun rp =>
      rp.length = B.colN + 1 ∧ ∀ c, rp.getD c 0 = (rowOf (transposed B.entries) c).length) := by
  have hlen := hB.length_entries
  refine (forN_sat (fun k rp => rp.length = B.colN + 1 ∧
      ∀ c, rp.getD c 0 = (rowOf (transposed (B.entries.take k)) c).length) ?_ ?_).mono ?_
  · refine ⟨by simp, ?_⟩
    intro c
    simp only [List.getD_eq_getElem?_getD, List.getElem?_replicate]
    split <;> rfl
  · rintro k rp hk ⟨hl, hc⟩
    have hkE : k < B.entries.length := by omega
    have hp : B.pairs[k]? = some B.entries[k].2 := by
      rw [← hB.entries_pairs, List.getElem?_map, List.getElem?_eq_getElem hkE]; rfl
    have hlt : B.entries[k].2.1 < B.colN := (hB.toSafe.col_lt_of_mem (List.getElem_mem hkE)).2
    unfold trCount
    rw [(rd_col_of_pair hp).1, Res.ok_bind, rd_getD (by omega), Res.ok_bind, wr_ok (by omega),
      Res.sat_ok]
    refine ⟨by simpa using hl, ?_⟩
    intro c
    rw [getD_set (by omega), List.take_succ_eq_append_getElem hkE, transposed_append, rowOf_append,
      List.length_append, ← hc]
    by_cases he : c = B.entries[k].2.1
    · rw [if_pos he]; simp [transposed, rowOf, he]
    · have : ¬ B.entries[k].2.1 = c := fun h => he h.symm
      rw [if_neg he]; simp [transposed, rowOf, this]
  · rintro rp ⟨hl, hc⟩
    refine ⟨hl, fun c => ?_⟩
    rw [hc c, List.take_of_length_le (by omega)]

/-- prefix-sum phase -/
theorem trPrefix_loop {N : Nat} {S : List (Entry α)} {rp : List Nat} (hl : rp.length = N + 1)
    (hc : ∀ c, rp.getD c 0 = (rowOf S c).length) :
    (forN N trPrefix (0, rp)).Sat (fun s => s.2.length = N + 1 ∧
      ∀ c, c < N → s.2.getD c 0 = countBelow S c) := by
  refine (forN_sat (fun i s => s.2.length = N + 1 ∧ s.1 = countBelow S i ∧
      ∀ c, s.2.getD c 0 = if c < i then countBelow S c else (rowOf S c).length) ?_ ?_).mono ?_
  · exact ⟨hl, (countBelow_zero S).symm, fun c => by rw [hc c, if_neg (Nat.not_lt_zero c)]⟩
  · rintro i ⟨sum, rp⟩ hi ⟨h1, h2, h3⟩
    simp only at h1 h2 h3
    unfold trPrefix
    simp only
    rw [rd_getD (by omega), Res.ok_bind, wr_ok (by omega), Res.ok_bind, Res.sat_ok]
    refine ⟨by simpa using h1, ?_, ?_⟩
    · rw [h3, if_neg (by omega), h2, countBelow_succ]
    · intro c
      simp only
      rw [getD_set (by omega)]
      by_cases he : c = i
      · rw [if_pos he, if_pos (by omega), h2, he]
      · rw [if_neg he, h3]
        by_cases hci : c < i
        · rw [if_pos hci, if_pos (by omega)]
        · rw [if_neg hci, if_neg (by omega)]
  · rintro ⟨sum, rp⟩ ⟨h1, _, h3⟩
    exact ⟨h1, fun c hc => by rw [h3, if_pos hc]⟩

/-- shifting phase -/
theorem trShift_loop {N : Nat} {S : List (Entry α)} {rp : List Nat} (hl : rp.length = N + 1)
    (hc : ∀ c, c < N → rp.getD c 0 = countBelow S (c + 1)) (hN : rp.getD N 0 = countBelow S N) :
    (forN N trShift (0, rp)).Sat (fun s => s.2.length = N + 1 ∧
      ∀ c, c ≤ N → s.2.getD c 0 = countBelow S c) := by
  refine (forN_sat (fun i s => s.2.length = N + 1 ∧ s.1 = countBelow S i ∧
      ∀ c, c ≤ N → s.2.getD c 0 = if c < i then countBelow S c else rp.getD c 0) ?_ ?_).mono ?_
  · exact ⟨hl, (countBelow_zero S).symm, fun c _ => by simp⟩
  · rintro i ⟨sum, rp'⟩ hi ⟨h1, h2, h3⟩
    simp only at h1 h2 h3
    unfold trShift
    simp only
    rw [rd_getD (by omega), Res.ok_bind, wr_ok (by omega), Res.ok_bind, Res.sat_ok]
    refine ⟨by simpa using h1, ?_, ?_⟩
    · rw [h3 i (by omega), if_neg (by omega), hc i hi]
    · intro c hcN
      simp only
      rw [getD_set (by omega)]
      by_cases he : c = i
      · rw [if_pos he, if_pos (by omega), h2, he]
      · rw [if_neg he, h3 c hcN]
        by_cases hci : c < i
        · rw [if_pos hci, if_pos (by omega)]
        · rw [if_neg hci, if_neg (by omega)]
  · rintro ⟨sum, rp'⟩ ⟨h1, _, h3⟩
    refine ⟨h1, fun c hcN => ?_⟩
    rw [h3 c hcN]
    by_cases hci : c < N
    · rw [if_pos hci]
    · have : c = N := by omega
      rw [if_neg hci, this, hN]

/-- state of the scatter phase after the entries `L` -/
def ScInv (B : Crs α) (cl vl : Nat) (L : List (Entry α)) (s : List Nat × List Nat × List α) : Prop :=
  s.1.length = B.colN + 1 ∧ s.2.1.length = cl ∧ s.2.2.length = vl ∧
  s.1.getD B.colN 0 = B.nnz ∧
  (∀ c, c < B.colN → s.1.getD c 0 =
    countBelow (transposed B.entries) c + (rowOf (transposed L) c).length) ∧
  ∀ c m e, c < B.colN → (rowOf (transposed L) c)[m]? = some e →
    s.2.1[countBelow (transposed B.entries) c + m]? = some e.2.1 ∧
    s.2.2[countBelow (transposed B.entries) c + m]? = some e.2.2

theorem transposed_getElem_fst {L : List (Entry α)} {c m : Nat} {e : Entry α}
    (h : (rowOf (transposed L) c)[m]? = some e) : e.1 = c := by
  have := List.mem_of_getElem? h
  simp [rowOf] at this
  exact this.2

theorem trScatter_loop {B : Crs α} (hB : B.Tiled) {cl vl : Nat} (hcl : B.nnz ≤ cl)
    (hvl : B.nnz ≤ vl) {s : List Nat × List Nat × List α} (h0 : ScInv B cl vl [] s) :
    (forN B.rowN (trRow B) s).Sat (ScInv B cl vl B.entries) := by
  refine hB.loop_sat (body := trScatter B) (ScInv B cl vl) h0 ?_
  rintro L e R ⟨rp, ci, v⟩ hE _ hlt hp ⟨i1, i2, i3, i4, i5, i6⟩
  have hmem : e ∈ B.entries := by rw [hE]; simp
  have hcol : e.2.1 < B.colN := (hB.toSafe.col_lt_of_mem hmem).2
  obtain ⟨hrc, hrv⟩ := rd_col_of_pair hp
  simp only at i1 i2 i3 i4 i5 i6
  have hlenE := hB.length_entries
  -- bounds of the target slot
  have hbound : ∀ c, countBelow (transposed B.entries) c + (rowOf (transposed B.entries) c).length
      ≤ B.nnz := by
    intro c
    rw [← countBelow_succ]
    refine Nat.le_trans (countBelow_le _ _) ?_
    simp [transposed, hlenE]
  have hle : ∀ c, (rowOf (transposed L) c).length + (if c = e.2.1 then 1 else 0) ≤
      (rowOf (transposed B.entries) c).length := by
    intro c
    rw [hE, transposed_append, rowOf_append, List.length_append]
    have : transposed (e :: R) = (e.2.1, e.1, e.2.2) :: transposed R := rfl
    rw [this]
    by_cases hc : c = e.2.1
    · simp [rowOf, hc]
    · simp [hc]
  have hd : countBelow (transposed B.entries) e.2.1 + (rowOf (transposed L) e.2.1).length < B.nnz := by
    have h1 := hbound e.2.1
    have h2 := hle e.2.1
    simp at h2; omega
  unfold trScatter
  simp only
  rw [hrc, Res.ok_bind, rd_getD (by omega), Res.ok_bind, i5 _ hcol, wr_ok (by omega), Res.ok_bind,
    hrv, Res.ok_bind, wr_ok (by omega), Res.ok_bind, wr_ok (by omega), Res.ok_bind, Res.sat_ok]
  refine ⟨by simpa using i1, by simpa using i2, by simpa using i3, ?_, ?_, ?_⟩
  · simp only
    rw [getD_set (by omega), if_neg (by omega), i4]
  · intro c hc
    simp only
    rw [getD_set (by omega), transposed_append, rowOf_append, List.length_append]
    by_cases he : c = e.2.1
    · rw [if_pos he, he]; simp [transposed, rowOf]; omega
    · have : ¬ e.2.1 = c := fun h => he h.symm
      rw [if_neg he, i5 c hc]; simp [transposed, rowOf, this]
  · intro c m x hc hx
    simp only
    rw [transposed_append, rowOf_append] at hx
    -- positions of different columns differ
    by_cases he : c = e.2.1
    · subst he
      have hsing : rowOf (transposed [e]) e.2.1 = [(e.2.1, e.1, e.2.2)] := by
        simp [transposed, rowOf]
      rw [hsing] at hx
      by_cases hm : m < (rowOf (transposed L) e.2.1).length
      · rw [List.getElem?_append_left hm] at hx
        rw [List.getElem?_set_ne (by omega), List.getElem?_set_ne (by omega)]
        exact i6 _ _ _ hc hx
      · have hm2 : m = (rowOf (transposed L) e.2.1).length := by
          have : m < (rowOf (transposed L) e.2.1 ++ [(e.2.1, e.1, e.2.2)]).length := by
            by_contra hcon
            rw [List.getElem?_eq_none (by omega)] at hx; cases hx
          simp at this; omega
        subst hm2
        rw [List.getElem?_append_right (Nat.le_refl _)] at hx
        simp at hx; subst hx
        rw [List.getElem?_set_self (by omega), List.getElem?_set_self (by omega)]
        exact ⟨rfl, rfl⟩
    · have hnil : rowOf (transposed [e]) c = [] := by
        have : ¬ e.2.1 = c := fun h => he h.symm
        simp [transposed, rowOf, this]
      rw [hnil, List.append_nil] at hx
      have hm : m < (rowOf (transposed L) c).length := by
        by_contra hcon
        rw [List.getElem?_eq_none (by omega)] at hx; cases hx
      have hne : countBelow (transposed B.entries) e.2.1 + (rowOf (transposed L) e.2.1).length ≠
          countBelow (transposed B.entries) c + m := by
        have l1 := hle c
        have l2 := hle e.2.1
        simp only [if_true] at l2
        have s1 := countBelow_succ (transposed B.entries) c
        have s2 := countBelow_succ (transposed B.entries) e.2.1
        rcases Nat.lt_or_ge c e.2.1 with h | h
        · have := countBelow_mono (transposed B.entries) (r := c + 1) (s := e.2.1) (by omega)
          omega
        · have := countBelow_mono (transposed B.entries) (r := e.2.1 + 1) (s := c) (by omega)
          omega
      rw [List.getElem?_set_ne (by omega), List.getElem?_set_ne (by omega)]
      exact i6 _ _ _ hc hx

theorem trCore_ok {A B : Crs α} (hB : B.Tiled) (hAp : A.rowPtr.length = B.colN + 1)
    (hAc : A.colInd.length = B.nnz) (hAn : A.nnz = B.nnz) (hAv : A.val.length = A.alloc)
    (hAa : A.nnz ≤ A.alloc) (hAr : A.rowN = B.colN) (hAcN : A.colN = B.rowN)
    (hcr : A.created = true) :
    ∃ C, trCore A B = .ok C ∧ C.WF ∧ C.rowN = B.colN ∧ C.colN = B.rowN ∧ C.nnz = B.nnz ∧
      ∀ c, c < B.colN → C.rowEntries c = rowOf (transposed B.entries) c := by
  have hlenE := hB.length_entries
  unfold trCore
  have hS : ∀ x ∈ transposed B.entries, x.1 < B.colN := by
    intro x hx
    simp only [transposed, List.mem_map] at hx
    obtain ⟨e, he, rfl⟩ := hx
    exact (hB.toSafe.col_lt_of_mem he).2
  have hlenT : (transposed B.entries).length = B.nnz := by simp [transposed, hlenE]
  have hall : countBelow (transposed B.entries) B.colN = B.nnz := by
    rw [countBelow_all hS, hlenT]
  have e0 : vcopy (B.colN + 1) (List.replicate (B.colN + 1) 0) A.rowPtr =
      .ok (List.replicate (B.colN + 1) 0) := by
    rw [vcopy_ok (by simp) (by omega)]
    rw [List.drop_of_length_le (by omega)]; simp
  rw [e0, Res.ok_bind]
  obtain ⟨rp1, h1, l1, c1⟩ := trCount_loop hB
  rw [← hAn] at h1
  rw [h1, Res.ok_bind]
  obtain ⟨⟨_, rp2⟩, h2, l2, c2⟩ := trPrefix_loop l1 c1
  rw [h2, Res.ok_bind]
  simp only at l2 c2 ⊢
  rw [wr_ok (by omega), Res.ok_bind]
  obtain ⟨⟨rp3, ci, v⟩, h3, i1, i2, i3, i4, i5, i6⟩ := trScatter_loop hB
    (cl := B.nnz) (vl := A.alloc) (Nat.le_refl _) (by omega)
    (s := (rp2.set B.colN B.nnz, A.colInd, A.val))
    (by
      refine ⟨by simpa using l2, hAc, hAv, ?_, ?_, ?_⟩
      · simp only; rw [getD_set (by omega), if_pos rfl]
      · intro c hc
        simp only; rw [getD_set (by omega), if_neg (by omega), c2 c hc]; simp [transposed, rowOf]
      · intro c m e _ h; simp [transposed, rowOf] at h)
  rw [h3, Res.ok_bind]
  simp only at i1 i2 i3 i4 i5 i6 ⊢
  obtain ⟨⟨_, rp4⟩, h4, l4, c4⟩ := trShift_loop (S := transposed B.entries) i1
    (fun c hc => by rw [i5 c hc, countBelow_succ]) (by rw [i4, hall])
  rw [h4, Res.ok_bind]
  simp only at l4 c4 ⊢
  have hrow : ∀ c, c < B.colN → ((((ci.zip v).take (countBelow (transposed B.entries) (c+1))).drop
      (countBelow (transposed B.entries) c)).map (fun p => (c, p.1, p.2))) =
        rowOf (transposed B.entries) c := by
    intro c hc
    apply List.ext_getElem?
    intro m
    have hsucc := countBelow_succ (transposed B.entries) c
    have hle := countBelow_le (transposed B.entries) (c + 1)
    rw [hlenT] at hle
    by_cases hm : m < (rowOf (transposed B.entries) c).length
    · have hx := List.getElem?_eq_getElem hm
      obtain ⟨q1, q2⟩ := i6 c m _ hc hx
      have q3 := transposed_getElem_fst hx
      rw [hx, List.getElem?_map, List.getElem?_drop, List.getElem?_take, if_pos (by omega)]
      have : (ci.zip v)[countBelow (transposed B.entries) c + m]? =
          some ((rowOf (transposed B.entries) c)[m].2.1, (rowOf (transposed B.entries) c)[m].2.2) := by
        rw [List.getElem?_zip_eq_some]; exact ⟨q1, q2⟩
      rw [this]
      simp only [Option.map_some, Option.some.injEq]
      exact Prod.ext q3.symm rfl
    · rw [List.getElem?_eq_none (l := rowOf (transposed B.entries) c) (by omega),
        List.getElem?_eq_none]
      simp only [List.length_map, List.length_drop, List.length_take, List.length_zip]; omega
  refine ⟨_, rfl, ?_, hAr, hAcN, hAn, ?_⟩
  · have hptr : ∀ c, c ≤ B.colN → Crs.ptr { A with rowPtr := rp4, colInd := ci, val := v } c =
        countBelow (transposed B.entries) c := c4
    refine { created := hcr, lenV := i3, nnz_le := hAa, lenP := by simp; omega, ptr_le := ?_,
             lenC := by simp; omega, col_lt := ?_, ptr_zero := ?_, ptr_last := ?_, ptr_mono := ?_ }
    · intro i hi
      rw [hptr i (by simp at hi; omega)]
      have := countBelow_le (transposed B.entries) i
      rw [hlenT] at this
      simp only; omega
    · intro k hk hk2
      simp only at hk hk2 ⊢
      -- position `k` belongs to some column
      have hex : ∃ c, c < B.colN ∧ countBelow (transposed B.entries) c ≤ k ∧
          k < countBelow (transposed B.entries) (c + 1) := by
        have : ∀ n, n ≤ B.colN → k < countBelow (transposed B.entries) n →
            ∃ c, c < n ∧ countBelow (transposed B.entries) c ≤ k ∧
              k < countBelow (transposed B.entries) (c + 1) := by
          intro n
          induction n with
          | zero => intro _ h; rw [countBelow_zero] at h; omega
          | succ n ih =>
            intro hn h
            by_cases hh : k < countBelow (transposed B.entries) n
            · obtain ⟨c, hc, hh⟩ := ih (by omega) hh
              exact ⟨c, by omega, hh⟩
            · exact ⟨n, by omega, by omega, h⟩
        exact this B.colN (Nat.le_refl _) (by omega)
      obtain ⟨c, hc, hk1, hk3⟩ := hex
      rw [countBelow_succ] at hk3
      have hx := List.getElem?_eq_getElem
        (show k - countBelow (transposed B.entries) c < (rowOf (transposed B.entries) c).length by omega)
      obtain ⟨q1, _⟩ := i6 c _ _ hc hx
      have e1 : countBelow (transposed B.entries) c + (k - countBelow (transposed B.entries) c) = k := by
        omega
      rw [e1, List.getElem?_eq_getElem hk] at q1
      have hm := List.mem_of_getElem? hx
      simp only [Option.some.injEq] at q1
      rw [q1, hAcN]
      simp only [rowOf, transposed, List.mem_filter, List.mem_map] at hm
      obtain ⟨⟨e, he, hh⟩, _⟩ := hm
      have := (hB.toSafe.col_lt_of_mem he).1
      rw [show (rowOf (transposed B.entries) c)[k - countBelow (transposed B.entries) c].2.1 = e.1 from by
        have := congrArg (fun x : Entry α => x.2.1) hh
        simpa [rowOf, transposed] using this.symm]
      exact this
    · rw [hptr 0 (by omega), countBelow_zero]
    · have := c4 _ (Nat.le_refl _)
      rw [hall] at this
      show rp4.getD A.rowN 0 = A.nnz
      rw [hAn, hAr, this]
    · intro i hi
      simp only at hi
      rw [hptr i (by omega), hptr (i+1) (by omega)]
      exact countBelow_mono _ (by omega)
  · intro c hc
    have := hrow c hc
    unfold Crs.rowEntries
    have e1 : Crs.ptr { A with rowPtr := rp4, colInd := ci, val := v } (c + 1) =
        countBelow (transposed B.entries) (c + 1) := c4 _ (by omega)
    have e2 : Crs.ptr { A with rowPtr := rp4, colInd := ci, val := v } c =
        countBelow (transposed B.entries) c := c4 _ (by omega)
    rw [e1, e2]
    exact this

end Crs
end Verif
