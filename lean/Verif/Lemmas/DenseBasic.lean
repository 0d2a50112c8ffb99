import Verif.Spec.DenseSpec
import Verif.Lemmas.Loops
import Verif.Lemmas.CooBasic

/-! Lemmas on dense matrices. -/

namespace Verif

open Spec

variable {α : Type}

namespace Dense

theorem WF.idx_lt {D : Dense α} (h : D.WF) {i j : Nat} (hi : i < D.rowN) (hj : j < D.colN) :
    D.colN * i + j < D.nnz := by rw [h.nnz_eq]; exact Verif.idx_lt hi hj

theorem at_eq_rd {D : Dense α} (h : D.WF) {i j : Nat} (hi : i < D.rowN) (hj : j < D.colN) :
    D.at_ i j = rd D.val (D.first + (D.colN * i + j)) := by
  have h1 := h.idx_lt hi hj
  have h2 := h.window
  unfold at_ at1
  rw [cassert_decide hi, Res.ok_bind, cassert_decide hj, Res.ok_bind, cassert_decide h1,
    Res.ok_bind, cassert_decide (by omega), Res.ok_bind]

theorem at_exists {D : Dense α} (h : D.WF) {i j : Nat} (hi : i < D.rowN) (hj : j < D.colN) :
    ∃ v, D.at_ i j = .ok v ∧ D.val[D.first + (D.colN * i + j)]? = some v := by
  have h1 := h.idx_lt hi hj
  have h2 := h.window
  have h3 := h.lenV
  rw [at_eq_rd h hi hj, rd_ok (by omega)]
  exact ⟨_, rfl, List.getElem?_eq_getElem (by omega)⟩

theorem at_of_getElem? {D : Dense α} (h : D.WF) {i j : Nat} (hi : i < D.rowN) (hj : j < D.colN)
    {v : α} (hv : D.val[D.first + (D.colN * i + j)]? = some v) : D.at_ i j = .ok v := by
  rw [at_eq_rd h hi hj, rd_of_getElem? hv]

theorem insert_ok {D : Dense α} (h : D.WF) {i j : Nat} (hi : i < D.rowN) (hj : j < D.colN) (v : α) :
    D.insert i j v = .ok { D with val := D.val.set (D.first + (D.colN * i + j)) v } := by
  have h1 := h.idx_lt hi hj
  have h2 := h.window
  have h3 := h.lenV
  unfold insert insert1
  rw [cassert_decide hi, Res.ok_bind, cassert_decide hj, Res.ok_bind, cassert_decide h1,
    Res.ok_bind, cassert_decide (by omega), Res.ok_bind, wr_ok (by omega), Res.ok_bind]

theorem empty_own : (empty : Dense α).Own := ⟨rfl, Nat.le_refl _, rfl⟩

theorem resize_own {A : Dense α} (h : A.Own) (hc : A.created = true) (N : Nat) (v : α) :
    ∃ V a, resize A N v = .ok { A with val := V, alloc := a, nnz := N } ∧ V.length = a ∧ N ≤ a := by
  obtain ⟨hl, hn, hf⟩ := h
  unfold resize
  by_cases hN : A.first + N < A.alloc
  · rw [if_pos hN]
    by_cases hlh : A.nnz ≤ N
    · obtain ⟨b', h1, h2⟩ := forRange_sat (lo := A.nnz) (hi := N)
        (body := fun i b => wr b (A.first + i) v) (s := A.val)
        (fun _ s => s.length = A.val.length) hlh rfl (by
          intro i s _ h2 hs
          rw [wr_ok (by omega), Res.sat_ok]; simpa using hs)
      rw [h1, Res.ok_bind]
      exact ⟨b', A.alloc, rfl, by omega, by omega⟩
    · rw [forRange_empty _ _ (by omega), Res.ok_bind]
      exact ⟨A.val, A.alloc, rfl, by omega, by omega⟩
  · rw [if_neg hN, if_pos hc, reallocCopy_ok (by omega), Res.ok_bind]
    refine ⟨A.val.take (min A.nnz N) ++ List.replicate (N - min A.nnz N) v, N, by rw [hf], ?_,
      Nat.le_refl _⟩
    simp; omega

theorem new_ok [Zero α] (M N : Nat) : ∃ D, (new M N : Res (Dense α)) = .ok D ∧ D.WF ∧
    D.first = 0 ∧ D.rowN = M ∧ D.colN = N ∧ D.created = true ∧
    D.val = List.replicate (M * N) 0 := by
  unfold new resize empty
  simp only [Nat.not_lt_zero, if_false, if_true]
  rw [reallocCopy_ok (by simp), Res.ok_bind]
  refine ⟨_, rfl, ⟨by simp, rfl, by simp⟩, rfl, rfl, rfl, rfl, by simp⟩

/-! ### COO to Dense -/

theorem convertCoo_loop [Zero α] {D : Dense α} (hD : D.WF) (hf : D.first = 0) {coo : Coo α}
    (hc : coo.WF) (hin : Within D.rowN D.colN coo.entries)
    (h0 : ∀ k, k < D.nnz → D.val[k]? = some 0) :
    (forN coo.nnz (fun k (A : Dense α) => do
      let r ← rd coo.rowIdx k
      let c ← rd coo.colIdx k
      let v ← rd coo.val k
      A.insert r c v) D).Sat (fun D' => D'.WF ∧ D'.rowN = D.rowN ∧ D'.colN = D.colN ∧
        D'.first = 0 ∧ ∀ i j, i < D.rowN → j < D.colN →
          D'.val[D.colN * i + j]? = some (lastAt coo.entries i j)) := by
  have hlE := hc.length_entries
  refine (forN_sat (fun k (D' : Dense α) => ∃ V, D' = { D with val := V } ∧
      V.length = D.val.length ∧ ∀ i j, i < D.rowN → j < D.colN →
        V[D.colN * i + j]? = some (lastAt (coo.entries.take k) i j)) ?_ ?_).mono ?_
  · exact ⟨D.val, rfl, rfl, fun i j hi hj => by rw [h0 _ (hD.idx_lt hi hj)]; rfl⟩
  · rintro k _ hk ⟨V, rfl, hV, hlast⟩
    have hkE : k < coo.entries.length := by omega
    have l1 := hc.lenR; have l2 := hc.lenC; have l3 := hc.lenV; have l4 := hc.nnz_le
    have e1 : rd coo.rowIdx k = .ok coo.entries[k].1 := by
      rw [rd_ok (by omega)]; simp [Coo.entries]
    have e2 : rd coo.colIdx k = .ok coo.entries[k].2.1 := by
      rw [rd_ok (by omega)]; simp [Coo.entries]
    have e3 : rd coo.val k = .ok coo.entries[k].2.2 := by
      rw [rd_ok (by omega)]; simp [Coo.entries]
    obtain ⟨hr, hcl⟩ := hin _ (List.getElem_mem hkE)
    have hwf : ({ D with val := V } : Dense α).WF := ⟨by rw [← hD.lenV]; exact hV, hD.nnz_eq, hD.window⟩
    rw [e1, Res.ok_bind, e2, Res.ok_bind, e3, Res.ok_bind, insert_ok hwf hr hcl, Res.sat_ok]
    refine ⟨_, rfl, by simpa using hV, ?_⟩
    intro i j hi hj
    rw [List.take_succ_eq_append_getElem hkE, lastAt_append_singleton]
    simp only [hf, Nat.zero_add]
    have hlt := hD.idx_lt hr hcl
    have hw := hD.window
    have hl := hD.lenV
    by_cases he : coo.entries[k].1 = i ∧ coo.entries[k].2.1 = j
    · obtain ⟨rfl, rfl⟩ := he
      rw [List.getElem?_set_self (by omega)]; simp
    · rw [if_neg he, List.getElem?_set_ne, hlast i j hi hj]
      intro h
      exact he (idx_inj hcl hj h)
  · rintro _ ⟨V, rfl, hV, hlast⟩
    refine ⟨⟨by rw [← hD.lenV]; exact hV, hD.nnz_eq, hD.window⟩, rfl, rfl, hf, ?_⟩
    intro i j hi hj
    rw [hlast i j hi hj, List.take_of_length_le (by omega)]

theorem convertCoo_ok [Zero α] {T : Dense α} (hT : T.Own) {coo : Coo α} (hc : coo.WF)
    (hin : Within coo.rowN coo.colN coo.entries) :
    ∃ D, T.convertCoo coo = .ok D ∧ D.WF ∧ D.first = 0 ∧ D.rowN = coo.rowN ∧ D.colN = coo.colN ∧
      ∀ i j, i < coo.rowN → j < coo.colN → D.at_ i j = .ok (lastAt coo.entries i j) := by
  have hown : ({ T with rowN := coo.rowN, colN := coo.colN, created := true } : Dense α).Own :=
    ⟨hT.lenV, hT.nnz_le, hT.first0⟩
  obtain ⟨V, a, hr, hV, ha⟩ := resize_own hown rfl (coo.rowN * coo.colN) 0
  unfold convertCoo
  rw [hr, Res.ok_bind]
  simp only
  rw [forN_write (fun _ => (0 : α)) (by omega) (by intro i _; rfl), Res.ok_bind]
  obtain ⟨D', h, hwf, h1, h2, h3, hlast⟩ := convertCoo_loop (D := {
      rowN := coo.rowN, colN := coo.colN,
      val := (List.range (coo.rowN * coo.colN)).map (fun _ => (0:α)) ++ V.drop (coo.rowN * coo.colN),
      nnz := coo.rowN * coo.colN, alloc := a, first := T.first, created := true })
    (coo := coo) ⟨by simp; omega, rfl, by simp [hT.first0]; omega⟩ hT.first0 hc hin
    (by intro k hk; rw [getElem?_written, if_pos hk])
  refine ⟨D', h, hwf, h3, h1, h2, ?_⟩
  intro i j hi hj
  simp only at h1 h2 hlast
  refine at_of_getElem? hwf (by omega) (by omega) ?_
  rw [h3, Nat.zero_add, h2]
  exact hlast i j hi hj

end Dense

/-! ### Dense to COO -/

theorem nonzeros_length [Zero α] [DecidableEq α] (M N : Nat) (f : Nat → Nat → α) :
    (nonzeros M N f).length ≤ M * N := by
  induction M with
  | zero => simp [nonzeros]
  | succ M ih =>
    have : nonzeros (M + 1) N f = nonzeros M N f ++
        ((List.range N).filterMap fun j => if f M j = 0 then none else some (M, j, f M j)) := by
      simp [nonzeros, List.range_succ, List.flatMap_append]
    rw [this, List.length_append, Nat.succ_mul]
    have := List.length_filterMap_le
      (fun j => if f M j = 0 then none else some (M, j, f M j)) (List.range N)
    simp at this
    omega

theorem fromDense_loop [Zero α] [DecidableEq α] {D : Dense α} {f : Nat → Nat → α}
    (hat : ∀ i j, i < D.rowN → j < D.colN → D.at_ i j = .ok (f i j)) {V : List α}
    (hV : V.length = D.rowN * D.colN) :
    (forN D.rowN (fun i s => forN D.colN (fun j s => Coo.fromDenseElem D i j s) s)
      (([] : List Nat), ([] : List Nat), V, 0)).Sat (fun s =>
        ∃ V', s = (Coo.rows (nonzeros D.rowN D.colN f), Coo.cols (nonzeros D.rowN D.colN f), V',
            (nonzeros D.rowN D.colN f).length) ∧ V'.length = V.length ∧
          V'.take (nonzeros D.rowN D.colN f).length = Coo.vals (nonzeros D.rowN D.colN f)) := by
  -- the entries after `i` full rows and `j` elements of row `i`
  let E : Nat → Nat → List (Entry α) := fun i j => nonzeros i D.colN f ++
    ((List.range j).filterMap fun j => if f i j = 0 then none else some (i, j, f i j))
  have hE0 : ∀ i, E i 0 = nonzeros i D.colN f := by intro i; simp [E]
  have hEn : ∀ i, E i D.colN = nonzeros (i + 1) D.colN f := by
    intro i; simp [E, nonzeros, List.range_succ, List.flatMap_append]
  have hEs : ∀ i j, E i (j + 1) = E i j ++ (if f i j = 0 then [] else [(i, j, f i j)]) := by
    intro i j
    simp only [E, List.range_succ, List.filterMap_append, List.append_assoc]
    congr 2
    by_cases h : f i j = 0 <;> simp [h]
  have hElen : ∀ i j, (E i j).length ≤ D.colN * i + j := by
    intro i j
    have h1 := nonzeros_length i D.colN f
    have h2 := List.length_filterMap_le
      (fun j => if f i j = 0 then none else some (i, j, f i j)) (List.range j)
    simp only [List.length_range] at h2
    simp only [E, List.length_append]
    rw [Nat.mul_comm D.colN i]; omega
  let P : List (Entry α) → (List Nat × List Nat × List α × Nat) → Prop := fun L s =>
    ∃ V', s = (Coo.rows L, Coo.cols L, V', L.length) ∧ V'.length = V.length ∧
      V'.take L.length = Coo.vals L
  have main := forN_sat (n := D.rowN) (s := (([] : List Nat), ([] : List Nat), V, 0))
    (body := fun i s => forN D.colN (fun j s => Coo.fromDenseElem D i j s) s)
    (fun i s => P (E i 0) s)
    ⟨V, by simp [hE0, nonzeros, Coo.rows, Coo.cols], rfl, by simp [hE0, nonzeros, Coo.vals]⟩
    (by
      intro i s hi hs
      have := forN_sat (n := D.colN) (s := s) (body := fun j s => Coo.fromDenseElem D i j s)
        (fun j s => P (E i j) s) hs
        (by
          rintro j _ hj ⟨V', rfl, hl, ht⟩
          unfold Coo.fromDenseElem
          rw [hat i j hi hj, Res.ok_bind]
          by_cases h0 : f i j = 0
          · rw [if_neg (by simpa using h0), Res.sat_ok]
            refine ⟨V', ?_, hl, ?_⟩
            · simp [hEs, h0]
            · simpa [hEs, h0] using ht
          · have hlt : (E i j).length < V'.length := by
              have h1 := hElen i j
              have h2 := idx_lt hi hj
              omega
            rw [if_pos (by simpa using h0), Res.ok_bind, wr_ok hlt, Res.ok_bind, Res.sat_ok]
            refine ⟨V'.set (E i j).length (f i j), ?_, by simpa using hl, ?_⟩
            · simp [hEs, h0, Coo.rows, Coo.cols]
            · have hs : (E i (j + 1)) = E i j ++ [(i, j, f i j)] := by rw [hEs, if_neg h0]
              rw [hs, List.length_append, List.length_singleton,
                List.take_succ_eq_append_getElem (by simpa using hlt),
                List.take_set_of_le (Nat.le_refl _), ht]
              simp [Coo.vals])
      refine this.mono ?_
      intro s' hs'
      have e : E i D.colN = E (i + 1) 0 := by rw [hEn, hE0]
      simpa only [e] using hs')
  refine main.mono ?_
  intro s hs
  have e : E D.rowN 0 = nonzeros D.rowN D.colN f := hE0 _
  simpa only [P, e] using hs

theorem Coo.convertDense_ok [Zero α] [DecidableEq α] {T : Coo α} (hT : T.WF) {D : Dense α}
    {f : Nat → Nat → α} (hat : ∀ i j, i < D.rowN → j < D.colN → D.at_ i j = .ok (f i j)) :
    ∃ A, Coo.convertDense T D = .ok A ∧ A.WF ∧ A.rowN = D.rowN ∧ A.colN = D.colN ∧
      A.entries = nonzeros D.rowN D.colN f := by
  unfold Coo.convertDense
  have hr : Coo.resize { T with rowN := D.rowN, colN := D.colN, created := true }
      (D.rowN * D.colN) 0 =
      .ok { T with rowN := D.rowN, colN := D.colN, created := true,
                   val := T.val.take (min T.nnz (D.rowN * D.colN)) ++
                     List.replicate (D.rowN * D.colN - min T.nnz (D.rowN * D.colN)) 0,
                   alloc := D.rowN * D.colN, nnz := D.rowN * D.colN,
                   rowIdx := stdResize T.rowIdx (D.rowN * D.colN) 0,
                   colIdx := stdResize T.colIdx (D.rowN * D.colN) 0 } := by
    unfold Coo.resize
    simp only [if_true]
    rw [reallocCopy_ok (by have := hT.lenV; have := hT.nnz_le; omega), Res.ok_bind]
  rw [hr, Res.ok_bind]
  simp only
  have hlv : (T.val.take (min T.nnz (D.rowN * D.colN)) ++
      List.replicate (D.rowN * D.colN - min T.nnz (D.rowN * D.colN)) 0).length
      = D.rowN * D.colN := by
    have := hT.lenV; have := hT.nnz_le
    simp; omega
  obtain ⟨_, he, V', rfl, hl, ht⟩ := fromDense_loop hat hlv
  rw [he, Res.ok_bind]
  simp only
  generalize hL : nonzeros D.rowN D.colN f = L at *
  have hLle : L.length ≤ D.rowN * D.colN := by rw [← hL]; exact nonzeros_length _ _ _
  unfold Coo.resize
  simp only [if_true]
  have hm : min (D.rowN * D.colN) L.length = L.length := by omega
  rw [reallocCopy_ok (by omega), Res.ok_bind, hm, ht]
  have e1 : stdResize (Coo.rows L) L.length 0 = Coo.rows L := by
    simp [stdResize, List.take_of_length_le]
  have e2 : stdResize (Coo.cols L) L.length 0 = Coo.cols L := by
    simp [stdResize, List.take_of_length_le]
  refine ⟨_, rfl, ⟨rfl, by simp, by simp, by simp, Nat.le_refl _⟩, rfl, rfl, ?_⟩
  simp only [Coo.entries, e1, e2, Nat.sub_self, List.replicate_zero, List.append_nil]
  rw [Coo.zip_proj, List.take_length]

end Verif
