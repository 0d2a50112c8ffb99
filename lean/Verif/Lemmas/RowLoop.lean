import Verif.Lemmas.CrsRows
import Verif.Spec.LinAlg

/-! Row loops over memory-safe CRS matrices as folds over the row's entries, and sums. -/

namespace Verif

open Spec

variable {α : Type}

namespace Crs

theorem pairs_col_lt {A : Crs α} (h : A.Safe) {k : Nat} {p : Nat × α} (hp : A.pairs[k]? = some p) :
    p.1 < A.colN ∧ k < A.nnz := by
  unfold pairs at hp
  rw [List.getElem?_take] at hp
  split at hp
  · rename_i hk
    rw [List.getElem?_zip_eq_some] at hp
    have hl : k < A.colInd.length := by have := h.lenC; omega
    have h1 := hp.1
    rw [List.getElem?_eq_getElem hl] at h1
    injection h1 with h1
    exact ⟨h1 ▸ h.col_lt k hl hk, hk⟩
  · cases hp

/-- **Row loop.** A loop over row `i`'s range, with total-correctness invariant over the entries seen. -/
theorem Safe.row_sat {σ : Type} {A : Crs α} (h : A.Safe) {i : Nat} (hi : i < A.rowN)
    {body : Nat → σ → Res σ} {s : σ} (P : List (Entry α) → σ → Prop) (h0 : P [] s)
    (hstep : ∀ L e R s k, A.rowEntries i = L ++ e :: R → e.1 = i → A.pairs[k]? = some e.2 → P L s →
      (body k s).Sat (P (L ++ [e]))) :
    (do let a ← rd A.rowPtr i
        let b ← rd A.rowPtr (i + 1)
        forRange a b body s : Res σ).Sat (P (A.rowEntries i)) := by
  rw [rd_ptr h.lenP (by omega), Res.ok_bind, rd_ptr h.lenP (by omega), Res.ok_bind]
  by_cases hle : A.ptr i ≤ A.ptr (i + 1)
  · have hlr := h.length_rowEntries hi
    have := forRange_sat (lo := A.ptr i) (hi := A.ptr (i + 1)) (body := body) (s := s)
      (fun j s => P ((A.rowEntries i).take (j - A.ptr i)) s) hle (by simpa using h0)
      (by
        intro j s h1 h2 hPs
        have hjt : j - A.ptr i < (A.rowEntries i).length := by omega
        obtain ⟨he1, he2⟩ := h.getElem_rowEntries hi (List.getElem?_eq_getElem hjt)
        rw [show A.ptr i + (j - A.ptr i) = j by omega] at he2
        have hsplit : A.rowEntries i = (A.rowEntries i).take (j - A.ptr i) ++
            (A.rowEntries i)[j - A.ptr i] :: (A.rowEntries i).drop (j - A.ptr i + 1) := by
          rw [← List.drop_eq_getElem_cons hjt, List.take_append_drop]
        have := hstep _ _ _ s j hsplit he1 he2 hPs
        refine this.mono ?_
        intro s' hs'
        rw [show j + 1 - A.ptr i = (j - A.ptr i) + 1 by omega, List.take_succ_eq_append_getElem hjt]
        exact hs')
    refine this.mono ?_
    intro s' hs'
    rwa [List.take_of_length_le (by omega)] at hs'
  · rw [forRange_empty _ _ (by omega), Res.sat_ok, row_empty (by omega)]
    exact h0

/-- A row loop whose body always completes is a fold over the row's entries. -/
theorem Safe.row_fold {σ : Type} {A : Crs α} (h : A.Safe) {i : Nat} (hi : i < A.rowN)
    {body : Nat → σ → Res σ} (g : σ → Entry α → σ) (s : σ)
    (hbody : ∀ k p s, A.pairs[k]? = some p → p.1 < A.colN → body k s = .ok (g s (i, p))) :
    (do let a ← rd A.rowPtr i
        let b ← rd A.rowPtr (i + 1)
        forRange a b body s : Res σ) = .ok ((A.rowEntries i).foldl g s) := by
  obtain ⟨r, hr, hP⟩ := h.row_sat hi (body := body) (s := s) (fun L t => t = L.foldl g s) rfl
    (by
      rintro L e R t k hE he hk rfl
      rw [hbody k e.2 _ hk (pairs_col_lt h hk).1, Res.sat_ok]
      have : (i, e.2) = e := by rw [← he]
      rw [this]; simp)
  rw [hr, hP]

/-- **All rows.** Total-correctness rule for the nested loop over all rows. -/
theorem Safe.loop_sat {σ : Type} {A : Crs α} (h : A.Safe) {body : Nat → Nat → σ → Res σ} {s : σ}
    (P : List (Entry α) → σ → Prop) (h0 : P [] s)
    (hstep : ∀ L e R s k, A.entries = L ++ e :: R → e.1 < A.rowN → A.pairs[k]? = some e.2 → P L s →
      (body e.1 k s).Sat (P (L ++ [e]))) :
    (forN A.rowN (fun i s => do
      let a ← rd A.rowPtr i
      let b ← rd A.rowPtr (i + 1)
      forRange a b (body i) s) s).Sat (P A.entries) := by
  refine (forN_sat (fun i s => P (A.entriesTo i) s) (by simpa [entriesTo] using h0) ?_)
  intro i s hi hP
  obtain ⟨R, hR⟩ := A.entriesTo_prefix (i := i + 1) (k := A.rowN) (by omega)
  refine (h.row_sat hi (body := body i) (s := s) (fun L t => P (A.entriesTo i ++ L) t)
    (by simpa using hP) ?_).mono ?_
  · intro L e R' t k hE he hk hPt
    have hent : A.entries = (A.entriesTo i ++ L) ++ e :: (R' ++ R) := by
      have : A.entries = A.entriesTo A.rowN := rfl
      rw [this, hR, entriesTo_succ, hE]; simp
    have := hstep _ _ _ t k hent (by rw [he]; exact hi) hk hPt
    rw [he] at this
    simpa using this
  · intro t ht
    rw [entriesTo_succ]; exact ht

/-- only row `i` contributes to position `(i, j)` -/
theorem sumAt_entries [Zero α] [Add α] (A : Crs α) {i : Nat} (hi : i < A.rowN) (j : Nat) :
    sumAt A.entries i j = sumAt (A.rowEntries i) i j := by
  have key : ∀ n, (A.entriesTo n).filter (fun e => e.1 == i && e.2.1 == j) =
      if i < n then (A.rowEntries i).filter (fun e => e.1 == i && e.2.1 == j) else [] := by
    intro n
    induction n with
    | zero => simp [entriesTo]
    | succ n ih =>
      rw [entriesTo_succ, List.filter_append, ih]
      by_cases h : n = i
      · subst h; simp
      · have : (A.rowEntries n).filter (fun e => e.1 == i && e.2.1 == j) = [] := by
          rw [List.filter_eq_nil_iff]
          intro e he
          simp only [rowEntries, List.mem_map] at he
          obtain ⟨p, _, rfl⟩ := he
          simp [h]
        rw [this, List.append_nil]
        by_cases h2 : i < n
        · rw [if_pos h2, if_pos (by omega)]
        · rw [if_neg h2, if_neg (by omega)]
  unfold sumAt
  have h1 : A.entries = A.entriesTo A.rowN := rfl
  rw [h1, key, if_pos hi]

theorem rowEntries_fst (A : Crs α) (i : Nat) : ∀ e ∈ A.rowEntries i, e.1 = i := by
  intro e he
  simp only [rowEntries, List.mem_map] at he
  obtain ⟨p, _, rfl⟩ := he
  rfl

theorem Safe.rowEntries_col {A : Crs α} (h : A.Safe) {i : Nat} (hi : i < A.rowN) :
    ∀ e ∈ A.rowEntries i, e.2.1 < A.colN := by
  intro e he
  apply (h.col_lt_of_mem (e := e) _).2
  unfold entries
  rw [List.mem_flatMap]
  exact ⟨i, by simpa using hi, he⟩

end Crs

theorem sumAt_cons [AddCommMonoid α] (e : Entry α) (L : List (Entry α)) (i j : Nat) :
    sumAt (e :: L) i j = (if e.1 = i ∧ e.2.1 = j then e.2.2 else 0) + sumAt L i j := by
  unfold sumAt
  rw [List.filter_cons]
  by_cases h : e.1 = i ∧ e.2.1 = j
  · simp [h]
  · rw [if_neg h, if_neg (by simpa using h), zero_add]

theorem foldl_add_eq {α β : Type} [AddCommMonoid α] (f : β → α) (L : List β) (z : α) :
    L.foldl (fun acc e => acc + f e) z = z + (L.map f).sum := by
  induction L generalizing z with
  | nil => simp
  | cons e L ih => simp [ih, add_assoc]

/-- The inner product of a row's entries with `x` is the sum over all columns of (what is stored in
that column) times `x`. -/
theorem row_sum_eq [NonUnitalNonAssocSemiring α] (L : List (Entry α)) (i n : Nat) (x : Nat → α)
    (hi : ∀ e ∈ L, e.1 = i) (hc : ∀ e ∈ L, e.2.1 < n) :
    (L.map (fun e => e.2.2 * x e.2.1)).sum = ∑ j ∈ Finset.range n, sumAt L i j * x j := by
  induction L with
  | nil => simp [sumAt]
  | cons e L ih =>
    have hi' := hi e (by simp)
    have hc' := hc e (by simp)
    simp only [List.map_cons, List.sum_cons, sumAt_cons, add_mul, Finset.sum_add_distrib]
    rw [ih (fun e he => hi e (by simp [he])) (fun e he => hc e (by simp [he]))]
    congr 1
    rw [Finset.sum_eq_single e.2.1]
    · simp [hi']
    · intro j _ hj
      rw [if_neg (fun h => hj h.2.symm), zero_mul]
    · intro h; simp at h; omega

/-- The contributions to column `j` over all entries. -/
theorem col_sum_eq [NonUnitalNonAssocSemiring α] (L : List (Entry α)) (j m : Nat) (x : Nat → α)
    (hr : ∀ e ∈ L, e.1 < m) :
    ((L.filter (fun e => e.2.1 == j)).map (fun e => e.2.2 * x e.1)).sum =
      ∑ i ∈ Finset.range m, sumAt L i j * x i := by
  induction L with
  | nil => simp [sumAt]
  | cons e L ih =>
    have hr' := hr e (by simp)
    simp only [sumAt_cons, add_mul, Finset.sum_add_distrib]
    rw [← ih (fun e he => hr e (by simp [he])), List.filter_cons]
    by_cases h : e.2.1 = j
    · simp only [h, BEq.rfl, if_true, List.map_cons, List.sum_cons]
      congr 1
      rw [Finset.sum_eq_single e.1]
      · simp
      · intro i _ hi
        rw [if_neg (fun h => hi h.1.symm), zero_mul]
      · intro h; simp at h; omega
    · rw [if_neg (by simpa using h)]
      have : ∀ i, (if e.1 = i ∧ e.2.1 = j then e.2.2 else 0) * x i = 0 := by
        intro i; rw [if_neg (fun h' => h h'.2), zero_mul]
      simp [this]

end Verif
