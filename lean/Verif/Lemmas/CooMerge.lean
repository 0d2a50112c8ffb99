import Verif.Lemmas.CooBasic
import Mathlib.Data.List.Induction

/-! `sort(merge)` of COO: sorted permutation, then one entry per run of equal positions. -/

namespace Verif.Coo

variable {α : Type}

theorem take_perm_of_frame {β : Type} {a a' : List β} {n : Nat} (hp : a'.Perm a)
    (hf : ∀ k, n ≤ k → a'[k]? = a[k]?) : (a'.take n).Perm (a.take n) := by
  have hd : a'.drop n = a.drop n := by
    apply List.ext_getElem?
    intro k
    simp only [List.getElem?_drop]
    exact hf _ (by omega)
  have h1 : (a'.take n ++ a'.drop n).Perm (a.take n ++ a.drop n) := by simpa using hp
  rw [hd] at h1
  exact (List.perm_append_right_iff _).1 h1

theorem qSort_entries {Z : List (Entry α)} {nnz : Nat} (h : nnz ≤ Z.length) :
    ∃ Z' : List (Entry α), qSort (nnz + 1) 0 nnz (rows Z) (cols Z) (vals Z) =
        .ok (rows Z', cols Z', vals Z') ∧
      Z'.length = Z.length ∧ (Z'.take nnz).Perm (Z.take nnz) ∧ Spec.SortedLex (Z'.take nnz) := by
  obtain ⟨Z', hZ', hr, hs⟩ := QS.qSort_sat (ecmp_ok (α := α)) (nnz + 1) 0 nnz Z h (by omega)
  refine ⟨Z', sim_qSort _ _ _ _ _ hZ', hr.len,
    take_perm_of_frame hr.perm (fun k hk => hr.frame k (Or.inr hk)), ?_⟩
  unfold Spec.SortedLex
  rw [List.pairwise_iff_getElem]
  intro i j hi hj hij
  simp only [List.length_take] at hi hj
  simp only [List.getElem_take]
  exact ecmp_le.1 (hs i j (by omega) (by omega) (Nat.zero_le _) hij (by omega))

theorem eq_dropLast_append {β : Type} {xs : List β} {l : β} (h : xs.getLast? = some l) :
    xs = xs.dropLast ++ [l] := by
  obtain ⟨ys, rfl⟩ := List.getLast?_eq_some_iff.1 h
  rw [List.dropLast_concat]

/-! ### keeping the last entry of each run -/

def klStep (acc : List (Entry α)) (e : Entry α) : List (Entry α) :=
  match acc.getLast? with
  | some l => if l.1 = e.1 ∧ l.2.1 = e.2.1 then acc.dropLast ++ [e] else acc ++ [e]
  | none => [e]

def keepLast (L : List (Entry α)) : List (Entry α) := L.foldl klStep []

theorem keepLast_append (L : List (Entry α)) (e : Entry α) :
    keepLast (L ++ [e]) = klStep (keepLast L) e := by simp [keepLast]

theorem getLast?_klStep (acc : List (Entry α)) (e : Entry α) :
    (klStep acc e).getLast? = some e := by
  unfold klStep
  split
  · split <;> simp
  · rfl

theorem keepLast_getLast? (L : List (Entry α)) : (keepLast L).getLast? = L.getLast? := by
  induction L using List.reverseRecOn with
  | nil => rfl
  | append_singleton L e _ => rw [keepLast_append, getLast?_klStep]; simp

theorem keepLast_mem {L : List (Entry α)} : ∀ {x}, x ∈ keepLast L → x ∈ L := by
  induction L using List.reverseRecOn with
  | nil => intro x h; exact h
  | append_singleton L e ih =>
    intro x h
    rw [keepLast_append] at h
    unfold klStep at h
    split at h
    · split at h
      · simp only [List.mem_append, List.mem_singleton] at h ⊢
        rcases h with h | h
        · exact .inl (ih ((List.dropLast_sublist _).subset h))
        · exact .inr h
      · simp only [List.mem_append, List.mem_singleton] at h ⊢
        rcases h with h | h
        · exact .inl (ih h)
        · exact .inr h
    · simp only [List.mem_singleton] at h; simp [h]

theorem keepLast_pos {L : List (Entry α)} : ∀ {x}, x ∈ L →
    ∃ y ∈ keepLast L, y.1 = x.1 ∧ y.2.1 = x.2.1 := by
  induction L using List.reverseRecOn with
  | nil => intro x h; simp at h
  | append_singleton L e ih =>
    intro x h
    rw [keepLast_append]
    simp only [List.mem_append, List.mem_singleton] at h
    rcases h with h | h
    · obtain ⟨y, hy, h1, h2⟩ := ih h
      unfold klStep
      split
      · rename_i l hl
        have hacc : keepLast L = (keepLast L).dropLast ++ [l] :=
          eq_dropLast_append hl
        split
        · rename_i hpos
          rw [hacc] at hy
          simp only [List.mem_append, List.mem_singleton] at hy
          rcases hy with hy | hy
          · exact ⟨y, by simp [hy], h1, h2⟩
          · subst hy; exact ⟨e, by simp, by omega, by omega⟩
        · exact ⟨y, by simp [hy], h1, h2⟩
      · rename_i hl
        rw [List.getLast?_eq_none_iff] at hl
        rw [hl] at hy; simp at hy
    · subst h
      refine ⟨x, ?_, rfl, rfl⟩
      have := getLast?_klStep (keepLast L) x
      exact List.mem_of_getLast? this

theorem keepLast_strict {L : List (Entry α)} (h : Spec.SortedLex L) :
    Spec.StrictLex (keepLast L) := by
  induction L using List.reverseRecOn with
  | nil => exact List.Pairwise.nil
  | append_singleton L e ih =>
    unfold Spec.SortedLex at h
    rw [List.pairwise_append] at h
    obtain ⟨hL, _, hle⟩ := h
    have ih := ih hL
    rw [keepLast_append]
    unfold klStep
    split
    · rename_i l hl
      have hacc : keepLast L = (keepLast L).dropLast ++ [l] :=
        eq_dropLast_append hl
      rw [hacc] at ih
      unfold Spec.StrictLex at ih ⊢
      rw [List.pairwise_append] at ih
      obtain ⟨i1, _, i3⟩ := ih
      have hlL : l ∈ L := keepLast_mem (List.mem_of_getLast? hl)
      have hlast := hle l hlL e (by simp)
      split
      · rename_i hpos
        rw [List.pairwise_append]
        refine ⟨i1, List.pairwise_singleton _ _, ?_⟩
        intro a ha b hb
        simp only [List.mem_singleton] at hb; subst hb
        have := i3 a ha l (by simp)
        omega
      · rename_i hpos
        rw [hacc, List.append_assoc, List.pairwise_append]
        refine ⟨i1, ?_, ?_⟩
        · simp
          omega
        · intro a ha b hb
          simp only [List.mem_append, List.mem_singleton] at hb
          have := i3 a ha l (by simp)
          rcases hb with hb | hb
          · subst hb; exact this
          · subst hb; omega
    · exact List.pairwise_singleton _ _

theorem keepLast_distinct {L : List (Entry α)} (h : Spec.DistinctPos L) : keepLast L = L := by
  induction L using List.reverseRecOn with
  | nil => rfl
  | append_singleton L e ih =>
    unfold Spec.DistinctPos at h
    rw [List.pairwise_append] at h
    obtain ⟨hL, _, hle⟩ := h
    rw [keepLast_append, ih hL]
    unfold klStep
    split
    · rename_i l hl
      have := hle l (List.mem_of_getLast? hl) e (by simp)
      simp [this]
    · rename_i hl
      rw [List.getLast?_eq_none_iff] at hl
      simp [hl]

theorem mergeStep_ok {Z : List (Entry α)} {k i : Nat} (hk : k < i) (hi : i < Z.length) :
    mergeStep i (k, rows Z, cols Z, vals Z) =
      if Z[k].1 = Z[i].1 ∧ Z[k].2.1 = Z[i].2.1 then
        .ok (k, rows (Z.set k Z[i]), cols (Z.set k Z[i]), vals (Z.set k Z[i]))
      else
        .ok (k + 1, rows (Z.set (k+1) Z[i]), cols (Z.set (k+1) Z[i]), vals (Z.set (k+1) Z[i])) := by
  have hk' : k < Z.length := by omega
  simp only [mergeStep, rd_rows hk', rd_rows hi, rd_cols hk', rd_cols hi, Res.ok_bind, rd_vals hi]
  by_cases h : Z[k].1 = Z[i].1 ∧ Z[k].2.1 = Z[i].2.1
  · have hn : ¬ (Z[k].1 ≠ Z[i].1 ∨ Z[k].2.1 ≠ Z[i].2.1) := by omega
    rw [if_neg hn, if_pos h, wr_ok (by simpa using hk'), Res.ok_bind, rows_set, cols_set, vals_set]
    have e1 : (rows Z).set k Z[i].1 = rows Z := by
      have := List.set_getElem_self (as := rows Z) (i := k) (by simpa using hk')
      rw [← h.1]; simpa [rows] using this
    have e2 : (cols Z).set k Z[i].2.1 = cols Z := by
      have := List.set_getElem_self (as := cols Z) (i := k) (by simpa using hk')
      rw [← h.2]; simpa [cols] using this
    rw [e1, e2]
  · have hn : (Z[k].1 ≠ Z[i].1 ∨ Z[k].2.1 ≠ Z[i].2.1) := by omega
    rw [if_pos hn, if_neg h, wr_ok (by simp; omega), Res.ok_bind, wr_ok (by simp; omega),
      Res.ok_bind, wr_ok (by simp; omega), Res.ok_bind, rows_set, cols_set, vals_set]

theorem mergeLoop_ok {Z : List (Entry α)} {nnz : Nat} (h : nnz ≤ Z.length) (h1 : 1 ≤ nnz) :
    ∃ (k : Nat) (Z' : List (Entry α)),
      forRange 1 nnz mergeStep (0, rows Z, cols Z, vals Z) = .ok (k, rows Z', cols Z', vals Z') ∧
      Z'.length = Z.length ∧ k + 1 ≤ nnz ∧ Z'.take (k + 1) = keepLast (Z.take nnz) := by
  have := forRange_sat (lo := 1) (hi := nnz) (body := mergeStep (α := α))
    (s := (0, rows Z, cols Z, vals Z))
    (fun i s => ∃ Z' : List (Entry α), s = (s.1, rows Z', cols Z', vals Z') ∧
      Z'.length = Z.length ∧ s.1 + 1 ≤ i ∧ Z'.take (s.1 + 1) = keepLast (Z.take i) ∧
      (∀ j, i ≤ j → Z'[j]? = Z[j]?)) h1
    ⟨Z, rfl, rfl, by simp, by
      have hz : 0 < Z.length := by omega
      rw [List.take_succ_eq_append_getElem hz]
      rfl, fun _ _ => rfl⟩
    (by
      rintro i ⟨k, R, C, V⟩ hi1 hi2 ⟨Z', hs, hlen, hk, ht, hf⟩
      simp only [Prod.mk.injEq, true_and] at hs hk ht
      obtain ⟨rfl, rfl, rfl⟩ := hs
      have hiZ : i < Z'.length := by omega
      have hkZ : k < Z'.length := by omega
      have hget : Z[i]'(by omega) = Z'[i] := by
        have := hf i (Nat.le_refl _)
        rw [List.getElem?_eq_getElem hiZ, List.getElem?_eq_getElem (by omega)] at this
        exact (Option.some.inj this).symm
      have hkl : keepLast (Z.take (i + 1)) = klStep (Z'.take (k + 1)) Z'[i] := by
        rw [List.take_succ_eq_append_getElem (by omega), keepLast_append, ← ht, hget]
      have hlast : (Z'.take (k + 1)).getLast? = some Z'[k] := by
        rw [List.take_succ_eq_append_getElem hkZ]; exact List.getLast?_concat
      rw [mergeStep_ok (by omega) hiZ]
      by_cases hp : Z'[k].1 = Z'[i].1 ∧ Z'[k].2.1 = Z'[i].2.1
      · rw [if_pos hp, Res.sat_ok]
        refine ⟨Z'.set k Z'[i], rfl, by simpa using hlen, by simp; omega, ?_, ?_⟩
        · simp only
          rw [hkl]; unfold klStep; rw [hlast]; simp only [hp, and_self, if_true]
          rw [List.take_succ_eq_append_getElem (by simpa using hkZ),
            List.take_succ_eq_append_getElem hkZ, List.dropLast_concat]
          rw [List.take_set_of_le (by omega)]; simp
        · intro j hj
          rw [List.getElem?_set_ne (by omega)]; exact hf j (by omega)
      · rw [if_neg hp, Res.sat_ok]
        refine ⟨Z'.set (k + 1) Z'[i], rfl, by simpa using hlen, by simp; omega, ?_, ?_⟩
        · simp only
          rw [hkl]; unfold klStep; rw [hlast]; simp only [hp, if_false]
          rw [List.take_succ_eq_append_getElem (i := k + 1) (by simp; omega),
            List.take_set_of_le (by omega)]
          simp
        · intro j hj
          rw [List.getElem?_set_ne (by omega)]; exact hf j (by omega))
  obtain ⟨⟨k, R, C, V⟩, he, Z', hs, hlen, hk, ht, _⟩ := this
  simp only [Prod.mk.injEq, true_and] at hs hk ht
  obtain ⟨rfl, rfl, rfl⟩ := hs
  exact ⟨k, Z', he, hlen, hk, ht⟩

theorem sort_false_ok {A : Coo α} (h : A.WF) :
    (A.sort false).Sat (fun A' => A'.WF ∧ A'.rowN = A.rowN ∧ A'.colN = A.colN ∧
      A'.nnz = A.nnz ∧ A'.entries.Perm A.entries ∧ Spec.SortedLex A'.entries) := by
  have hz := h.length_zip3
  have hle := h.nnz_le
  have hA := h.eq_ofZ
  obtain ⟨Z', hq, hlen, hp, hs⟩ := qSort_entries (Z := A.zip3) (nnz := A.nnz) (by omega)
  refine ⟨ofZ A.rowN A.colN Z' A.nnz, ?_, ofZ_wf (by omega), rfl, rfl, rfl, ?_, ?_⟩
  · have : A.sort false = (ofZ A.rowN A.colN A.zip3 A.nnz).sort false := by rw [← hA]
    rw [this]
    simp only [sort, ofZ, hq, Res.ok_bind, hlen]
    rfl
  · rw [entries_ofZ]; exact hp
  · rw [entries_ofZ]; exact hs

theorem sort_true_ok {A : Coo α} (h : A.WF) (hpos : 1 ≤ A.nnz) :
    (A.sort true).Sat (fun A' => A'.WF ∧ A'.rowN = A.rowN ∧ A'.colN = A.colN ∧
      A'.nnz ≤ A.nnz ∧ ∃ S, S.Perm A.entries ∧ Spec.SortedLex S ∧ A'.entries = keepLast S) := by
  have hz := h.length_zip3
  have hle := h.nnz_le
  have hA := h.eq_ofZ
  obtain ⟨Z', hq, hlen, hp, hs⟩ := qSort_entries (Z := A.zip3) (nnz := A.nnz) (by omega)
  obtain ⟨k, Z'', hm, hlen2, hk, ht⟩ := mergeLoop_ok (Z := Z') (nnz := A.nnz) (by omega) hpos
  refine ⟨ofZ A.rowN A.colN Z'' (k + 1), ?_, ofZ_wf (by omega), rfl, rfl, hk, ?_⟩
  · have : A.sort true = (ofZ A.rowN A.colN A.zip3 A.nnz).sort true := by rw [← hA]
    rw [this]
    simp only [sort, ofZ, hq, Res.ok_bind, hlen, if_true, hm, hlen2]
  · exact ⟨Z'.take A.nnz, hp, hs, by rw [entries_ofZ, ht]⟩

end Verif.Coo
