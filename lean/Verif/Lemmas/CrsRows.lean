import Verif.Lemmas.CrsToCoo

/-! The row-by-row loop over a CRS matrix visits the stored entries in order. -/

namespace Verif

open Spec

variable {α : Type}

namespace Crs

/-- the entries of the rows below `i` -/
def entriesTo (A : Crs α) (i : Nat) : List (Entry α) := (List.range i).flatMap A.rowEntries

theorem entriesTo_succ (A : Crs α) (i : Nat) :
    A.entriesTo (i + 1) = A.entriesTo i ++ A.rowEntries i := by
  simp [entriesTo, List.range_succ, List.flatMap_append]

theorem entriesTo_prefix (A : Crs α) {i k : Nat} (h : i ≤ k) :
    ∃ R, A.entriesTo k = A.entriesTo i ++ R := by
  induction k with
  | zero => exact ⟨[], by have : i = 0 := by omega
                          subst this; simp⟩
  | succ k ih =>
    by_cases hk : i ≤ k
    · obtain ⟨R, hR⟩ := ih hk
      exact ⟨R ++ A.rowEntries k, by rw [entriesTo_succ, hR, List.append_assoc]⟩
    · have : i = k + 1 := by omega
      subst this; exact ⟨[], by simp⟩

theorem Safe.length_rowEntries {A : Crs α} (h : A.Safe) {i : Nat} (hi : i < A.rowN) :
    (A.rowEntries i).length = A.ptr (i + 1) - A.ptr i := by
  have := h.ptr_le (i + 1) (by omega)
  rw [h.rowEntries hi]; simp [h.length_pairs]; omega

theorem Safe.getElem_rowEntries {A : Crs α} (h : A.Safe) {i : Nat} (hi : i < A.rowN) {t : Nat}
    {e : Entry α} (ht : (A.rowEntries i)[t]? = some e) :
    e.1 = i ∧ A.pairs[A.ptr i + t]? = some e.2 := by
  rw [h.rowEntries hi] at ht
  simp only [List.getElem?_map, List.getElem?_drop, Option.map_eq_some_iff] at ht
  obtain ⟨p, hp, rfl⟩ := ht
  refine ⟨rfl, ?_⟩
  rw [List.getElem?_take] at hp
  split at hp
  · exact hp
  · cases hp

/-- number of entries in the rows below `i` of a tiled matrix -/
theorem Tiled.length_entriesTo {A : Crs α} (h : A.Tiled) : ∃ m, m ≤ A.rowN ∧
    (∀ i, i ≤ m → (A.entriesTo i).length = A.ptr i) ∧
    (∀ i, i < m → A.ptr i ≤ A.ptr (i + 1)) ∧ A.ptr m = A.nnz ∧
    (∀ i, m ≤ i → i < A.rowN → A.ptr (i + 1) ≤ A.ptr i) := by
  obtain ⟨m, hm, h0, hmn, hmono, htail⟩ := h.tile
  refine ⟨m, hm, ?_, hmono, hmn, htail⟩
  intro i
  induction i with
  | zero => intro _; simp [entriesTo, h0]
  | succ i ih =>
    intro hi
    rw [entriesTo_succ, List.length_append, ih (by omega),
      h.toSafe.length_rowEntries (by omega)]
    have := hmono i (by omega)
    omega

theorem entries_tail {A : Crs α} {m : Nat}
    (htail : ∀ i, m ≤ i → i < A.rowN → A.ptr (i + 1) ≤ A.ptr i) : ∀ i, m ≤ i → i ≤ A.rowN →
    A.entriesTo i = A.entriesTo m := by
  intro i
  induction i with
  | zero => intro h1 _; have : m = 0 := by omega
            rw [this]
  | succ i ih =>
    intro h1 h2
    by_cases hm : m ≤ i
    · rw [entriesTo_succ, ih hm (by omega), row_empty (htail i hm (by omega)), List.append_nil]
    · have : m = i + 1 := by omega
      rw [this]

theorem Tiled.length_entries {A : Crs α} (h : A.Tiled) : A.entries.length = A.nnz := by
  obtain ⟨m, hm, hl, _, hmn, htail⟩ := h.length_entriesTo
  have : A.entries = A.entriesTo m := entries_tail htail A.rowN hm (Nat.le_refl _)
  rw [this, hl m (Nat.le_refl _), hmn]

/-- **Row loop.** Running `body i j` for every row `i` and every `j` in that row's range is running
it over the stored entries in order; the entry in hand is at position `j` of the arrays. -/
theorem Tiled.loop_sat {σ : Type} {A : Crs α} (h : A.Tiled) {body : Nat → Nat → σ → Res σ} {s : σ}
    (P : List (Entry α) → σ → Prop) (h0 : P [] s)
    (hstep : ∀ L e R s, A.entries = L ++ e :: R → e.1 < A.rowN → L.length < A.nnz →
      A.pairs[L.length]? = some e.2 → P L s → (body e.1 L.length s).Sat (P (L ++ [e]))) :
    (forN A.rowN (fun i s => do
      let a ← rd A.rowPtr i
      let b ← rd A.rowPtr (i + 1)
      forRange a b (body i) s) s).Sat (P A.entries) := by
  obtain ⟨m, hm, hl, hmono, hmn, htail⟩ := h.length_entriesTo
  refine (forN_sat (fun i s => P (A.entriesTo i) s) (by simpa [entriesTo] using h0) ?_)
  intro i s hi hP
  rw [rd_ptr h.lenP (by omega), Res.ok_bind, rd_ptr h.lenP (by omega), Res.ok_bind]
  by_cases him : i < m
  · have hle := hmono i him
    have hlr := h.toSafe.length_rowEntries hi
    have hlen := hl i (by omega)
    have := forRange_sat (lo := A.ptr i) (hi := A.ptr (i + 1)) (body := body i) (s := s)
      (fun j s => P (A.entriesTo i ++ (A.rowEntries i).take (j - A.ptr i)) s) hle
      (by simpa using hP)
      (by
        intro j s h1 h2 hPs
        have hjt : j - A.ptr i < (A.rowEntries i).length := by omega
        have hlL : (A.entriesTo i ++ (A.rowEntries i).take (j - A.ptr i)).length = j := by
          simp; omega
        obtain ⟨he1, he2⟩ := h.toSafe.getElem_rowEntries hi
          (List.getElem?_eq_getElem hjt)
        obtain ⟨R, hR⟩ := A.entriesTo_prefix (i := i + 1) (k := A.rowN) (by omega)
        have hsplit : A.rowEntries i = (A.rowEntries i).take (j - A.ptr i) ++
            (A.rowEntries i)[j - A.ptr i] :: (A.rowEntries i).drop (j - A.ptr i + 1) := by
          rw [← List.drop_eq_getElem_cons hjt, List.take_append_drop]
        have hent : A.entries = (A.entriesTo i ++ (A.rowEntries i).take (j - A.ptr i)) ++
            (A.rowEntries i)[j - A.ptr i] :: ((A.rowEntries i).drop (j - A.ptr i + 1) ++ R) := by
          have : A.entries = A.entriesTo A.rowN := rfl
          rw [this, hR, entriesTo_succ]
          have e2 := congrArg (· ++ R) hsplit
          simp only [List.append_assoc, List.cons_append] at e2 ⊢
          rw [e2]
        have hjn : j < A.nnz := by have := h.ptr_le (i + 1) (by omega); omega
        have := hstep _ _ _ s hent (by rw [he1]; exact hi) (by omega)
          (by rw [hlL]; have e : A.ptr i + (j - A.ptr i) = j := by omega
              rw [e] at he2; exact he2) hPs
        rw [hlL, he1] at this
        refine this.mono ?_
        intro s' hs'
        have e : j + 1 - A.ptr i = (j - A.ptr i) + 1 := by omega
        rw [e, List.take_succ_eq_append_getElem hjt, ← List.append_assoc]
        exact hs')
    refine this.mono ?_
    intro s' hs'
    rw [List.take_of_length_le (by omega)] at hs'
    rw [entriesTo_succ]; exact hs'
  · rw [forRange_empty _ _ (htail i (by omega) hi), Res.sat_ok]
    rw [entriesTo_succ, row_empty (htail i (by omega) hi), List.append_nil]
    exact hP

/-- the stored entries, without their rows, are the stored pairs -/
theorem Tiled.entries_pairs {A : Crs α} (h : A.Tiled) : A.entries.map (·.2) = A.pairs := by
  have := h.loop_sat (σ := Unit) (body := fun _ _ s => .ok s) (s := ())
    (fun L _ => L.map (·.2) = A.pairs.take L.length) (by simp)
    (by
      intro L e R s hE _ hlt hp hP
      rw [Res.sat_ok]
      have hlt' : L.length < A.pairs.length := by rw [h.toSafe.length_pairs]; exact hlt
      rw [List.map_append, hP, List.length_append, List.length_singleton,
        List.take_succ_eq_append_getElem hlt']
      rw [List.getElem?_eq_getElem hlt'] at hp
      simp at hp
      simp [hp])
  obtain ⟨_, _, hh⟩ := this
  rw [hh, h.length_entries, List.take_of_length_le (by rw [h.toSafe.length_pairs]; exact Nat.le_refl _)]

theorem rd_col_of_pair {A : Crs α} {k : Nat} {p : Nat × α} (h : A.pairs[k]? = some p) :
    rd A.colInd k = .ok p.1 ∧ rd A.val k = .ok p.2 := by
  unfold pairs at h
  rw [List.getElem?_take] at h
  split at h
  · rw [List.getElem?_zip_eq_some] at h
    exact ⟨rd_of_getElem? h.1, rd_of_getElem? h.2⟩
  · cases h

theorem Safe.col_lt_of_mem {A : Crs α} (h : A.Safe) {e : Entry α} (he : e ∈ A.entries) :
    e.1 < A.rowN ∧ e.2.1 < A.colN := by
  unfold entries at he
  rw [List.mem_flatMap] at he
  obtain ⟨i, hi, he⟩ := he
  rw [List.mem_range] at hi
  obtain ⟨t, ht⟩ := List.getElem?_of_mem he
  obtain ⟨h1, h2⟩ := h.getElem_rowEntries hi ht
  exact ⟨by omega, h.pair_col_lt (List.mem_of_getElem? h2)⟩

end Crs
end Verif
