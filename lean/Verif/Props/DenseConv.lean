import Verif.Lemmas.DenseBasic

/-!
C08: conversions between COO and Dense.
-/

namespace Verif

open Spec

variable {α : Type}

theorem mem_nonzeros [Zero α] [DecidableEq α] {M N : Nat} {f : Nat → Nat → α} {e : Entry α} :
    e ∈ nonzeros M N f ↔ e.1 < M ∧ e.2.1 < N ∧ f e.1 e.2.1 ≠ 0 ∧ e.2.2 = f e.1 e.2.1 := by
  obtain ⟨i, j, v⟩ := e
  simp only [nonzeros, List.mem_flatMap, List.mem_range, List.mem_filterMap]
  constructor
  · rintro ⟨i', hi, j', hj, h⟩
    by_cases h0 : f i' j' = 0
    · simp [h0] at h
    · rw [if_neg h0] at h
      simp only [Option.some.injEq, Prod.mk.injEq] at h
      obtain ⟨rfl, rfl, rfl⟩ := h
      exact ⟨hi, hj, h0, rfl⟩
  · rintro ⟨hi, hj, h0, hv⟩
    exact ⟨i, hi, j, hj, by rw [if_neg h0]; simp [hv]⟩

theorem lastAt_nonzeros [Zero α] [DecidableEq α] {M N : Nat} {f : Nat → Nat → α} {i j : Nat}
    (hi : i < M) (hj : j < N) : lastAt (nonzeros M N f) i j = f i j := by
  by_cases h0 : f i j = 0
  · rw [h0]
    apply lastAt_of_not_mem
    rintro e he ⟨rfl, rfl⟩
    exact (mem_nonzeros.1 he).2.2.1 h0
  · have := lastAt_mem (L := nonzeros M N f) (i := i) (j := j)
      ⟨(i, j, f i j), mem_nonzeros.2 ⟨hi, hj, h0, rfl⟩, rfl, rfl⟩
    exact (mem_nonzeros.1 this).2.2.2

theorem strictLex_nonzeros [Zero α] [DecidableEq α] (M N : Nat) (f : Nat → Nat → α) :
    StrictLex (nonzeros M N f) := by
  unfold StrictLex nonzeros
  rw [List.pairwise_flatMap]
  constructor
  · intro i _
    rw [List.pairwise_filterMap]
    refine List.Pairwise.imp ?_ List.pairwise_lt_range
    intro a b hab x hx y hy
    split at hx <;> simp at hx
    split at hy <;> simp at hy
    subst hx; subst hy
    exact Or.inr ⟨rfl, hab⟩
  · refine List.Pairwise.imp ?_ List.pairwise_lt_range
    intro a b hab x hx y hy
    simp only [List.mem_filterMap] at hx hy
    obtain ⟨j, _, hx⟩ := hx
    obtain ⟨k, _, hy⟩ := hy
    split at hx <;> simp at hx
    split at hy <;> simp at hy
    subst hx; subst hy
    exact Or.inl hab

/-- **C08 (COO to Dense).** Converting any COO matrix with in-range positions (sorted or not, with
repeated positions or not) into any dense object that owns its storage, whatever that object held
before, gives a dense matrix of the same dimensions that reads the same at every position. -/
theorem C08_coo_to_dense [Zero α] (T : Dense α) (hT : T.Own) (coo : Coo α) (hc : coo.WF)
    (hin : Within coo.rowN coo.colN coo.entries) :
    ∃ D, T.convertCoo coo = .ok D ∧ D.WF ∧ D.rowN = coo.rowN ∧ D.colN = coo.colN ∧
      ∀ i j, i < coo.rowN → j < coo.colN → D.at_ i j = coo.at_ i j := by
  obtain ⟨D, h, hwf, _, hr, hcN, hat⟩ := Dense.convertCoo_ok hT hc hin
  refine ⟨D, h, hwf, hr, hcN, fun i j hi hj => ?_⟩
  rw [hat i j hi hj, Coo.at_ok hc (by omega) (by omega)]

/-- a dirty, larger target and a COO with a repeated position -/
example : ∃ (T : Dense Int) (A : Coo Int), T.Own ∧ T.val = [7, 7, 7, 7, 7, 7, 7, 7] ∧
    Coo.insertAll [(1, 2, 5), (0, 0, 4), (1, 2, 6)] (Coo.new 2 3) = .ok A ∧ A.WF ∧
    Within A.rowN A.colN A.entries := by
  exact ⟨⟨2, 4, [7, 7, 7, 7, 7, 7, 7, 7], 8, 8, 0, true⟩, _, ⟨rfl, by decide, rfl⟩, rfl, rfl,
    ⟨rfl, rfl, rfl, rfl, by decide⟩, by decide⟩

/-- **C08 (Dense to COO).** Converting any dense matrix into any COO object stores exactly the
non-zero elements, each once, in row-major order. -/
theorem C08_dense_to_coo [Zero α] [DecidableEq α] (T : Coo α) (hT : T.WF) (D : Dense α)
    (hD : D.WF) :
    ∃ A, Coo.convertDense T D = .ok A ∧ A.WF ∧ A.rowN = D.rowN ∧ A.colN = D.colN ∧
      StrictLex A.entries ∧
      ∀ e, e ∈ A.entries ↔ e.1 < D.rowN ∧ e.2.1 < D.colN ∧ e.2.2 ≠ 0 ∧
        D.at_ e.1 e.2.1 = .ok e.2.2 := by
  have hat : ∀ i j, i < D.rowN → j < D.colN →
      D.at_ i j = .ok (D.val.getD (D.first + (D.colN * i + j)) 0) := by
    intro i j hi hj
    obtain ⟨v, h1, h2⟩ := Dense.at_exists hD hi hj
    rw [h1, List.getD_eq_getElem?_getD, h2]; rfl
  obtain ⟨A, h, hw, hr, hc, he⟩ := Coo.convertDense_ok hT hat
  refine ⟨A, h, hw, hr, hc, by rw [he]; exact strictLex_nonzeros _ _ _, ?_⟩
  intro e
  rw [he, mem_nonzeros]
  constructor
  · rintro ⟨h1, h2, h3, h4⟩
    exact ⟨h1, h2, by rw [h4]; exact h3, by rw [hat _ _ h1 h2, h4]⟩
  · rintro ⟨h1, h2, h3, h4⟩
    rw [hat _ _ h1 h2] at h4
    injection h4 with h4
    exact ⟨h1, h2, by rw [h4]; exact h3, h4.symm⟩

/-- **C08 (round trip).** Dense -> COO -> Dense gives back every element (also for a dense source
that starts at an offset of a shared storage). -/
theorem C08_round_trip [Zero α] [DecidableEq α] (T : Coo α) (hT : T.WF) (T' : Dense α)
    (hT' : T'.Own) (D : Dense α) (hD : D.WF) :
    ∃ A D', Coo.convertDense T D = .ok A ∧ T'.convertCoo A = .ok D' ∧
      D'.rowN = D.rowN ∧ D'.colN = D.colN ∧
      ∀ i j, i < D.rowN → j < D.colN → D'.at_ i j = D.at_ i j := by
  have hat : ∀ i j, i < D.rowN → j < D.colN →
      D.at_ i j = .ok (D.val.getD (D.first + (D.colN * i + j)) 0) := by
    intro i j hi hj
    obtain ⟨v, h1, h2⟩ := Dense.at_exists hD hi hj
    rw [h1, List.getD_eq_getElem?_getD, h2]; rfl
  obtain ⟨A, h, hw, hr, hc, he⟩ := Coo.convertDense_ok hT hat
  obtain ⟨D', h', _, _, hr', hc', hat'⟩ := Dense.convertCoo_ok hT' hw (by
    rw [he]; intro e hm
    have := mem_nonzeros.1 hm
    exact ⟨by omega, by omega⟩)
  refine ⟨A, D', h, h', by omega, by omega, fun i j hi hj => ?_⟩
  rw [hat' i j (by omega) (by omega), he, lastAt_nonzeros hi hj, hat i j hi hj]

/-- a dense source starting at offset 1 of its storage -/
example : ({ rowN := 2, colN := 2, val := [9, 1, 0, 3, 4, 9], nnz := 4, alloc := 6, first := 1,
             created := false } : Dense Int).WF := ⟨rfl, rfl, by decide⟩

/-- **C08 (violated for aliases).** When the conversion target is an alias at a non-zero offset
(obtained with `move` from an offset view), the zero fill starts at the beginning of the shared
storage: the converted matrix keeps stale elements. -/
theorem C08_offset_target_violated :
    ¬ ∀ (T : Dense Int) (coo : Coo Int) (D : Dense Int), T.WF → coo.WF →
        Within coo.rowN coo.colN coo.entries → T.convertCoo coo = .ok D →
        ∀ i j, i < coo.rowN → j < coo.colN → D.at_ i j = coo.at_ i j := by
  intro h
  have := h ⟨1, 2, [5, 6, 7, 8], 2, 4, 1, false⟩ (Coo.new 1 2)
    ⟨1, 2, [0, 0, 7, 8], 2, 4, 1, true⟩ ⟨rfl, rfl, by decide⟩ (Coo.new_wf _ _) (by decide) rfl 0 1
    (by decide) (by decide)
  revert this
  decide

end Verif
