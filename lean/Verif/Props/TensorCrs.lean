import Verif.Lemmas.TensorCrsToCoo

/-!
C47 (`tensor_CRS` conversions) and C50 (copies of a `tensor_CRS`).
-/

namespace Verif

open Spec

variable {α : Type}

/-- **C47 (conversion).** Converting a sorted coordinate tensor (rank at least 2, every position inside
the shape) gives one memory-safe CRS matrix per slice; each row of each slice lists exactly the elements
of that slice and row, in order. -/
theorem C47_convert [Zero α] (us : List Nat) (R C : Nat) (coo : TCoo α) (hc : coo.WF)
    (hshape : coo.shape = us ++ [R, C]) (hin : InsideT coo.shape coo.entries)
    (hs : SortedT coo.shape coo.entries) :
    ∃ A, TCrs.ofCoo coo = .ok A ∧ A.Tiled us R C ∧ A.nnz = coo.nnz ∧
      ∀ d, d < volume us →
        (A.slice R C d).entries = sliceOf us coo.entries d ∧
        ∀ i, i < R → (A.slice R C d).rowEntries i =
          (sliceOf us coo.entries d).filter (fun e => e.1 == i) := by
  obtain ⟨A, h1, h2, h3, _, h4⟩ := TCrs.ofCoo_ok hc hshape hin hs
  refine ⟨A, h1, h2, h3, ?_⟩
  intro d hd
  rw [hshape] at hin hs
  have ho := TCrs.Ord_tag hin hs
  obtain ⟨B, hB, hr, _, _, _, h5, h6⟩ := C06_convert_rows
    (Coo.ofZ R C (sliceOf us coo.entries d) (sliceOf us coo.entries d).length)
    (Coo.ofZ_wf (Nat.le_refl _)) (by
      rw [Coo.entries_ofZ, List.take_length]
      intro e he
      rw [TCrs.sliceOf_eq, TCrs.mem_sub, List.mem_map] at he
      obtain ⟨x, hx, hxe⟩ := he
      obtain ⟨ps, r, c, hp, h1, h2, h3⟩ := (hin x hx).split
      obtain ⟨-, f2, f3⟩ := split_fields (r := r) (c := c) h1.length
      simp only [TCrs.tag, hp, f2, f3, Prod.mk.injEq] at hxe
      rw [← hxe.2]
      exact ⟨h2, h3⟩) (by
      rw [Coo.entries_ofZ, List.take_length, TCrs.sliceOf_eq]
      exact ho.sub d)
  rw [h4 d hd] at hB
  cases hB
  rw [Coo.entries_ofZ, List.take_length] at h5 h6
  exact ⟨h6, h5⟩

/-- **C47 (to coordinates).** Converting a well-formed `tensor_CRS` into any `tensor_COO` gives its
elements slice by slice: all positions are inside the shape, slices come in order, and the elements of
slice `d` are those of the CRS matrix of slice `d` in row order. -/
theorem C47_to_coo [Zero α] (us : List Nat) (R C : Nat) (A : TCrs α) (hA : A.Tiled us R C)
    (T : TCoo α) (hT : T.WF) :
    ∃ B, TCoo.convertCrs T A = .ok B ∧ B.WF ∧ B.shape = A.shape ∧ B.nnz = A.nnz ∧
      InsideT A.shape B.entries ∧
      B.entries.Pairwise (fun a b => sliceNo us a.1 ≤ sliceNo us b.1) ∧
      ∀ d, d < volume us → sliceOf us B.entries d = (A.slice R C d).entries := by
  obtain ⟨B, h1, h2, h3, h4, h5⟩ := TCoo.convertCrs_ok hA hT
  have hslice : ∀ d, d < volume us → ∀ e : Entry α,
      sliceNo us (TDense.posOf us d ++ [e.1, e.2.1]) = d ∧
      rowIx us (TDense.posOf us d ++ [e.1, e.2.1]) = e.1 ∧
      colIx us (TDense.posOf us d ++ [e.1, e.2.1]) = e.2.1 := by
    intro d hd e
    obtain ⟨hp, hq⟩ := TDense.posOf_ok hd
    have := split_fields (r := e.1) (c := e.2.1) hp.length
    rwa [hq] at this
  refine ⟨B, h1, h2, h3, h4, ?_, ?_, ?_⟩
  · rw [h5, hA.shape]
    intro e he
    simp only [TCrs.elems, List.mem_flatMap, List.mem_range, List.mem_map] at he
    obtain ⟨d, hd, x, hx, rfl⟩ := he
    have := (hA.tiled d hd).row_col hx
    refine InShape.append (TDense.posOf_ok hd).1 ?_
    rw [InShape.cons_iff, InShape.cons_iff, InShape.nil_iff]
    exact ⟨this.1, this.2, rfl⟩
  · rw [h5]
    have key : ∀ n, n ≤ volume us →
        (TCrs.elems us R C A n).Pairwise (fun a b => sliceNo us a.1 ≤ sliceNo us b.1) ∧
        ∀ e ∈ TCrs.elems us R C A n, sliceNo us e.1 < n := by
      intro n
      induction n with
      | zero => intro _; simp [TCrs.elems]
      | succ n ih =>
        intro hn
        obtain ⟨i1, i2⟩ := ih (by omega)
        rw [TCrs.elems_succ]
        constructor
        · rw [List.pairwise_append]
          refine ⟨i1, ?_, ?_⟩
          · rw [List.pairwise_map]
            refine List.Pairwise.imp (R := fun _ _ => True) ?_ (by simp [List.pairwise_iff_forall_sublist])
            intro a b _
            rw [(hslice n (by omega) a).1, (hslice n (by omega) b).1]
          · intro a ha b hb
            rw [List.mem_map] at hb
            obtain ⟨x, _, rfl⟩ := hb
            have := i2 a ha
            dsimp only
            rw [(hslice n (by omega) x).1]; omega
        · intro e he
          rw [List.mem_append, List.mem_map] at he
          rcases he with he | ⟨x, _, rfl⟩
          · have := i2 e he; omega
          · dsimp only
            rw [(hslice n (by omega) x).1]; omega
    exact (key _ (Nat.le_refl _)).1
  · intro d hd
    rw [h5]
    have key : ∀ n, n ≤ volume us → sliceOf us (TCrs.elems us R C A n) d =
        if d < n then (A.slice R C d).entries else [] := by
      intro n
      induction n with
      | zero => intro _; simp [TCrs.elems, sliceOf]
      | succ n ih =>
        intro hn
        have happ : ∀ L L' : List (TEntry α), sliceOf us (L ++ L') d = sliceOf us L d ++ sliceOf us L' d := by
          intro L L'; simp [sliceOf, List.filter_append]
        rw [TCrs.elems_succ, happ, ih (by omega)]
        by_cases hdn : d = n
        · subst hdn
          rw [if_neg (by omega), if_pos (by omega), List.nil_append]
          unfold sliceOf
          rw [List.filter_eq_self.mpr, List.map_map]
          · conv_rhs => rw [← List.map_id (A.slice R C d).entries]
            refine List.map_congr_left ?_
            intro e _
            have := hslice d hd e
            simp only [Function.comp, this.2.1, this.2.2, id]
          · intro e he
            rw [List.mem_map] at he
            obtain ⟨x, _, rfl⟩ := he
            simp [(hslice d hd x).1]
        · have hnil : sliceOf us ((A.slice R C n).entries.map
              fun e => (TDense.posOf us n ++ [e.1, e.2.1], e.2.2)) d = [] := by
            unfold sliceOf
            rw [List.filter_eq_nil_iff.mpr]
            · rfl
            · intro e he
              rw [List.mem_map] at he
              obtain ⟨x, _, rfl⟩ := he
              simp only [(hslice n (by omega) x).1]
              simp; omega
          rw [hnil, List.append_nil]
          by_cases hlt : d < n
          · rw [if_pos hlt, if_pos (by omega)]
          · rw [if_neg hlt, if_neg (by omega)]
    rw [key _ (Nat.le_refl _), if_pos hd]

/-- **C47 (round trip).** `tensor_COO -> tensor_CRS -> tensor_COO` gives back the same shape and the same
sequence of elements. -/
theorem C47_round_trip [Zero α] (us : List Nat) (R C : Nat) (coo : TCoo α) (hc : coo.WF)
    (hshape : coo.shape = us ++ [R, C]) (hin : InsideT coo.shape coo.entries)
    (hs : SortedT coo.shape coo.entries) (T : TCoo α) (hT : T.WF) :
    ∃ A B, TCrs.ofCoo coo = .ok A ∧ TCoo.convertCrs T A = .ok B ∧ B.shape = coo.shape ∧
      B.entries = coo.entries := by
  obtain ⟨A, h1, h2, h3, h4⟩ := C47_convert us R C coo hc hshape hin hs
  obtain ⟨B, h5, _, h6, _, h7⟩ := TCoo.convertCrs_ok h2 hT
  refine ⟨A, B, h1, h5, by rw [h6, h2.shape, hshape], ?_⟩
  rw [h7]
  rw [hshape] at hin hs
  -- each slice's part is the part of the original list
  have hpart : ∀ d, d < volume us →
      ((A.slice R C d).entries.map fun e => (TDense.posOf us d ++ [e.1, e.2.1], e.2.2)) =
        coo.entries.filter (fun e => sliceNo us e.1 == d) := by
    intro d hd
    rw [(h4 d hd).1]
    unfold sliceOf
    rw [List.map_map]
    conv_rhs => rw [← List.map_id (coo.entries.filter (fun e => sliceNo us e.1 == d))]
    refine List.map_congr_left ?_
    intro e he
    rw [List.mem_filter] at he
    obtain ⟨he, hd'⟩ := he
    obtain ⟨ps, r, c, hp, h1, h2, h3⟩ := (hin e he).split
    obtain ⟨f1, f2, f3⟩ := split_fields (r := r) (c := c) h1.length
    rw [hp, f1, beq_iff_eq] at hd'
    simp only [Function.comp, hp, f2, f3, id]
    rw [← hd', TDense.posOf_rowMajor h1, ← hp]
  have hcat : ∀ n, n ≤ volume us → TCrs.elems us R C A n =
      coo.entries.filter (fun e => decide (sliceNo us e.1 < n)) := by
    intro n
    induction n with
    | zero => intro _; simp [TCrs.elems]
    | succ n ih =>
      intro hn
      rw [TCrs.elems_succ, ih (by omega), hpart n (by omega)]
      -- split a list sorted by slice
      have : ∀ L : List (TEntry α), L.Pairwise (fun a b => sliceNo us a.1 ≤ sliceNo us b.1) →
          L.filter (fun e => decide (sliceNo us e.1 < n)) ++ L.filter (fun e => sliceNo us e.1 == n) =
            L.filter (fun e => decide (sliceNo us e.1 < n + 1)) := by
        intro L
        induction L with
        | nil => intro _; rfl
        | cons a L ih =>
          intro hp
          rw [List.pairwise_cons] at hp
          have ih := ih hp.2
          by_cases h1 : sliceNo us a.1 < n
          · have h2 : ¬ sliceNo us a.1 = n := by omega
            have h3 : sliceNo us a.1 < n + 1 := by omega
            simp [h1, h2, h3, ← ih]
          · have hnil : L.filter (fun e => decide (sliceNo us e.1 < n)) = [] := by
              rw [List.filter_eq_nil_iff]
              intro e he
              have := hp.1 e he
              simp; omega
            rw [hnil, List.nil_append] at ih
            by_cases h2 : sliceNo us a.1 = n
            · have h3 : sliceNo us a.1 < n + 1 := by omega
              simp [h2, hnil, ← ih]
            · have h3 : ¬ sliceNo us a.1 < n + 1 := by omega
              simp [h1, h2, h3, hnil, ← ih]
      refine this _ (List.Pairwise.imp_of_mem ?_ hs)
      intro a b ha hb hab
      have := order_split (hin a ha) (hin b hb) hab
      omega
  rw [hcat _ (Nat.le_refl _), List.filter_eq_self]
  intro e he
  obtain ⟨ps, r, c, hp, h1, h2, h3⟩ := (hin e he).split
  obtain ⟨f1, _⟩ := split_fields (r := r) (c := c) h1.length
  rw [hp, f1]
  simpa using rowMajor_lt h1

/-- the hypotheses are met by a rank-4 tensor with empty slices, rows and a repeated position -/
example :
    let coo : TCoo Int := TCoo.ofZ [2, 2, 3, 2]
      [([0, 1, 1, 0], 4), ([0, 1, 1, 1], 5), ([1, 0, 0, 1], 6), ([1, 0, 2, 0], 7), ([1, 0, 2, 0], 8)] 5
    coo.shape = [2, 2] ++ [3, 2] ∧ SortedT coo.shape coo.entries ∧
      (TCrs.ofCoo coo).Sat (fun A => A.rowPtrs = [[0, 0, 0, 0], [0, 0, 2, 0], [0, 1, 1, 3], [0, 0, 0, 0]] ∧
        A.colInds = [[], [0, 1], [1, 0, 0], []]) := by
  refine ⟨rfl, by unfold SortedT; decide, _, rfl, rfl, rfl⟩

/-- **C47 (violated: re-used target).** Converting into a `tensor_CRS` that already holds a converted
tensor does not give the result of a fresh conversion: the new columns are appended to the old ones. -/
theorem C47_reuse_violated :
    ¬ ∀ (coo : TCoo Int) (A B : TCrs Int), coo.WF → InsideT coo.shape coo.entries →
        SortedT coo.shape coo.entries → TCrs.ofCoo coo = .ok A → TCrs.convertCoo A coo = .ok B →
        B.colInds = A.colInds := by
  intro h
  have := h (TCoo.ofZ [1, 1] [([0, 0], 5)] 1) _ _ ⟨rfl, rfl, rfl, by decide⟩ (by
      intro e he
      simp [TCoo.entries, TCoo.ofZ] at he
      subst he
      exact List.Forall₂.cons (by decide) (List.Forall₂.cons (by decide) List.Forall₂.nil))
    (by unfold SortedT; decide) rfl rfl
  revert this
  decide

/-- **C47 (violated: re-used target, second conversion back).** The second conversion of the same tensor
into the same target can also be turned back into a coordinate tensor with different elements. -/
theorem C47_reuse_elements_violated :
    ¬ ∀ (coo₁ coo₂ : TCoo Int) (A B : TCrs Int) (D : TCoo Int), coo₁.shape = coo₂.shape →
        TCrs.ofCoo coo₁ = .ok A → TCrs.convertCoo A coo₂ = .ok B →
        TCoo.convertCrs (TCoo.new [1]) B = .ok D → D.entries = coo₂.entries := by
  intro h
  have := h (TCoo.ofZ [1, 2] [([0, 0], 5)] 1) (TCoo.ofZ [1, 2] [([0, 1], 7)] 1) _ _ _ rfl rfl rfl rfl
  revert this
  decide

end Verif
