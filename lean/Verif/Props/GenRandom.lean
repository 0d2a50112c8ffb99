import Verif.Lemmas.Gen
import Verif.Props.CooSort
import Mathlib.Data.Finset.Card
import Mathlib.Data.List.Nodup
import Mathlib.Data.Finset.Dedup

/-!
C27: `random_structure_matrix` stores exactly `nnzrow` distinct columns in every row, for every stream
of random draws.
-/

namespace Verif
namespace Gen

open Spec

variable {α : Type}

/-- the distinct columns stored in row `i` -/
def colsOf (L : List (Entry α)) (i : Nat) : Finset Nat := ((rowOf L i).map (·.2.1)).toFinset

theorem mem_colsOf {L : List (Entry α)} {i c : Nat} :
    c ∈ colsOf L i ↔ ∃ v, (i, c, v) ∈ L := by
  simp only [colsOf, rowOf, List.mem_toFinset, List.mem_map, List.mem_filter, beq_iff_eq]
  constructor
  · rintro ⟨⟨r, c', v⟩, ⟨h1, h2⟩, h3⟩
    simp only at h2 h3
    subst h2 h3
    exact ⟨v, h1⟩
  · rintro ⟨v, hv⟩
    exact ⟨(i, c, v), ⟨hv, rfl⟩, rfl⟩

theorem colsOf_append {L X : List (Entry α)} {i : Nat} :
    colsOf (L ++ X) i = colsOf L i ∪ colsOf X i := by
  ext c
  simp only [mem_colsOf, List.mem_append, Finset.mem_union]
  constructor
  · rintro ⟨v, h | h⟩
    · exact .inl ⟨v, h⟩
    · exact .inr ⟨v, h⟩
  · rintro (⟨v, h⟩ | ⟨v, h⟩)
    · exact ⟨v, .inl h⟩
    · exact ⟨v, .inr h⟩

theorem at_ne_zero_iff [Zero α] {L : List (Entry α)} {val : α} (hval : val ≠ 0)
    (hL : ∀ e ∈ L, e.2.2 = val) {i c : Nat} : lastAt L i c ≠ 0 ↔ c ∈ colsOf L i := by
  rw [mem_colsOf]
  constructor
  · intro h
    by_cases hex : ∃ e ∈ L, e.1 = i ∧ e.2.1 = c
    · obtain ⟨⟨r, c', v⟩, he, h1, h2⟩ := hex
      simp only at h1 h2
      subst h1 h2
      exact ⟨v, he⟩
    · exact absurd (lastAt_of_not_mem fun e he hh => hex ⟨e, he, hh⟩) h
  · rintro ⟨v, hv⟩
    have := lastAt_mem (L := L) (i := i) (j := c) ⟨_, hv, rfl, rfl⟩
    have h2 : lastAt L i c = val := hL _ this
    rw [h2]; exact hval

/-- the part of the matrix produced for row `i` -/
def RowPart (N : Nat) (val : α) (i : Nat) (X : List (Entry α)) : Prop :=
  ∀ e ∈ X, e.1 = i ∧ e.2.1 < N ∧ e.2.2 = val

theorem randRow_ok [Zero α] [DecidableEq α] {M N k i : Nat} {val : α} (hval : val ≠ 0) (hi : i < M)
    (hM : M < 2147483648) (hN : N < 2147483648) : ∀ (ds : List Nat) (left : Nat) (A : Coo α),
    (∀ d ∈ ds, d < N) → A.WF → A.rowN = M → A.colN = N → (∀ e ∈ A.entries, e.2.2 = val) →
    (colsOf A.entries i).card + left = k →
    randRow i val ds left A = .ok none ∨
    ∃ ds' A' X, randRow i val ds left A = .ok (some (ds', A')) ∧ (∃ pre, ds = pre ++ ds') ∧ A'.WF ∧
      A'.rowN = M ∧ A'.colN = N ∧ A'.entries = A.entries ++ X ∧ RowPart N val i X ∧
      (colsOf A'.entries i).card = k := by
  intro ds
  induction ds with
  | nil =>
    intro left A hd hwf hr hc hv hk
    cases left with
    | zero => exact .inr ⟨[], A, [], rfl, ⟨[], rfl⟩, hwf, hr, hc, by simp, by simp [RowPart], by omega⟩
    | succ left => exact .inl rfl
  | cons c ds ih =>
    intro left A hd hwf hr hc hv hk
    cases left with
    | zero =>
      exact .inr ⟨c :: ds, A, [], rfl, ⟨[], rfl⟩, hwf, hr, hc, by simp, by simp [RowPart], by omega⟩
    | succ left =>
      have hcN : c < N := hd c (by simp)
      have hat := Coo.at_ok hwf (i := i) (j := c) (by omega) (by omega)
      obtain ⟨A1, hA1, hwf1, hr1, hc1, he1⟩ := Coo.insert_ok hwf (m := i) (n := c) (v := val)
        (by omega) (by omega)
      have hins : insertI A i c val = .ok A1 := by
        unfold insertI
        rw [toSize_nat (by omega), toSize_nat (by omega)]; exact hA1
      have hv1 : ∀ e ∈ A1.entries, e.2.2 = val := by
        rw [he1]; intro e he
        rcases List.mem_append.1 he with h | h
        · exact hv e h
        · simp only [List.mem_singleton] at h; rw [h]
      have hcols : colsOf A1.entries i = insert c (colsOf A.entries i) := by
        rw [he1]; ext d
        simp only [mem_colsOf, List.mem_append, List.mem_singleton, Finset.mem_insert, Prod.mk.injEq]
        constructor
        · rintro ⟨v, h | ⟨-, h, -⟩⟩
          · exact .inr ⟨v, h⟩
          · exact .inl h
        · rintro (rfl | ⟨v, h⟩)
          · exact ⟨val, .inr ⟨trivial, rfl, rfl⟩⟩
          · exact ⟨v, .inl h⟩
      have hiff := at_ne_zero_iff hval hv (i := i) (c := c)
      simp only [randRow, hat, hins, Res.ok_bind]
      have fin : ∀ left', (colsOf A1.entries i).card + left' = k →
          randRow i val ds left' A1 = .ok none ∨
          ∃ ds' A' X, randRow i val ds left' A1 = .ok (some (ds', A')) ∧
            (∃ pre, c :: ds = pre ++ ds') ∧ A'.WF ∧
            A'.rowN = M ∧ A'.colN = N ∧ A'.entries = A.entries ++ X ∧ RowPart N val i X ∧
            (colsOf A'.entries i).card = k := by
        intro left' hk'
        rcases ih left' A1 (fun d h => hd d (by simp [h])) hwf1 (by omega) (by omega) hv1 hk' with h | h
        · exact .inl h
        · obtain ⟨ds', A', X, h1, ⟨pre, h2⟩, h3, h4, h5, h6, h7, h8⟩ := h
          refine .inr ⟨ds', A', (i, c, val) :: X, h1, ⟨c :: pre, by rw [h2]; rfl⟩, h3, h4, h5, ?_, ?_, h8⟩
          · rw [h6, he1]; simp
          · intro e he
            rcases List.mem_cons.1 he with h | h
            · rw [h]; exact ⟨rfl, hcN, rfl⟩
            · exact h7 e h
      by_cases hx : lastAt A.entries i c ≠ 0
      · rw [if_pos hx]
        apply fin
        rw [hcols, Finset.insert_eq_of_mem (hiff.1 hx)]; exact hk
      · rw [if_neg hx]
        apply fin
        rw [hcols, Finset.card_insert_of_notMem (fun h => hx (hiff.2 h))]; omega

/-- a draw list that covers all columns finishes the row -/
theorem randRow_finishes [Zero α] [DecidableEq α] {M N k i : Nat} {val : α} (hval : val ≠ 0)
    (hi : i < M) (hkN : k < N) (hM : M < 2147483648) (hN : N < 2147483648) (b : List Nat) :
    ∀ (a : List Nat) (left : Nat) (A : Coo α),
    (∀ d ∈ a, d < N) → A.WF → A.rowN = M → A.colN = N → (∀ e ∈ A.entries, e.2.2 = val) →
    (colsOf A.entries i).card + left = k → (∀ c, c < N → c ∈ a ∨ c ∈ colsOf A.entries i) →
    ∃ a' A', randRow i val (a ++ b) left A = .ok (some (a' ++ b, A')) := by
  intro a
  induction a with
  | nil =>
    intro left A hd hwf hr hc hv hk hcov
    exfalso
    have : Finset.range N ⊆ colsOf A.entries i := by
      intro c hc
      rcases hcov c (Finset.mem_range.1 hc) with h | h
      · simp at h
      · exact h
    have := Finset.card_le_card this
    rw [Finset.card_range] at this
    omega
  | cons c a ih =>
    intro left A hd hwf hr hc hv hk hcov
    cases left with
    | zero => exact ⟨c :: a, A, rfl⟩
    | succ left =>
      have hcN : c < N := hd c (by simp)
      have hat := Coo.at_ok hwf (i := i) (j := c) (by omega) (by omega)
      obtain ⟨A1, hA1, hwf1, hr1, hc1, he1⟩ := Coo.insert_ok hwf (m := i) (n := c) (v := val)
        (by omega) (by omega)
      have hins : insertI A i c val = .ok A1 := by
        unfold insertI
        rw [toSize_nat (by omega), toSize_nat (by omega)]; exact hA1
      have hv1 : ∀ e ∈ A1.entries, e.2.2 = val := by
        rw [he1]; intro e he
        rcases List.mem_append.1 he with h | h
        · exact hv e h
        · simp only [List.mem_singleton] at h; rw [h]
      have hcols : colsOf A1.entries i = insert c (colsOf A.entries i) := by
        rw [he1]; ext d
        simp only [mem_colsOf, List.mem_append, List.mem_singleton, Finset.mem_insert, Prod.mk.injEq]
        constructor
        · rintro ⟨v, h | ⟨-, h, -⟩⟩
          · exact .inr ⟨v, h⟩
          · exact .inl h
        · rintro (rfl | ⟨v, h⟩)
          · exact ⟨val, .inr ⟨trivial, rfl, rfl⟩⟩
          · exact ⟨v, .inl h⟩
      have hiff := at_ne_zero_iff hval hv (i := i) (c := c)
      have hcov' : ∀ d, d < N → d ∈ a ∨ d ∈ colsOf A1.entries i := by
        intro d hdN
        rw [hcols, Finset.mem_insert]
        rcases hcov d hdN with h | h
        · rcases List.mem_cons.1 h with h | h
          · exact .inr (.inl h)
          · exact .inl h
        · exact .inr (.inr h)
      simp only [List.cons_append, randRow, hat, hins, Res.ok_bind]
      by_cases hx : lastAt A.entries i c ≠ 0
      · rw [if_pos hx]
        refine ih _ A1 (fun d h => hd d (by simp [h])) hwf1 (by omega) (by omega) hv1 ?_ hcov'
        rw [hcols, Finset.insert_eq_of_mem (hiff.1 hx)]; exact hk
      · rw [if_neg hx]
        refine ih _ A1 (fun d h => hd d (by simp [h])) hwf1 (by omega) (by omega) hv1 ?_ hcov'
        rw [hcols, Finset.card_insert_of_notMem (fun h => hx (hiff.2 h))]; omega

/-- What is known after some rows have been produced. -/
structure Rows (A : Coo α) (M N k : Nat) (val : α) (done : List Nat) : Prop where
  wf : A.WF
  rows : A.rowN = M
  cols : A.colN = N
  part : ∀ e ∈ A.entries, e.1 ∈ done ∧ e.2.1 < N ∧ e.2.2 = val
  count : ∀ i ∈ done, (colsOf A.entries i).card = k

theorem colsOf_eq_empty {L : List (Entry α)} {i : Nat} (h : ∀ e ∈ L, e.1 ≠ i) : colsOf L i = ∅ := by
  ext c
  rw [mem_colsOf]
  simp only [Finset.notMem_empty, iff_false, not_exists]
  intro v hv
  exact h _ hv rfl

theorem Rows.step {A A' : Coo α} {M N k i : Nat} {val : α} {done : List Nat} {X : List (Entry α)}
    (h : Rows A M N k val done) (hi : i ∉ done) (hwf : A'.WF) (hr : A'.rowN = M) (hc : A'.colN = N)
    (he : A'.entries = A.entries ++ X) (hX : RowPart N val i X)
    (hk : (colsOf A'.entries i).card = k) : Rows A' M N k val (done ++ [i]) := by
  refine ⟨hwf, hr, hc, ?_, ?_⟩
  · intro e hmem
    rw [he] at hmem
    rcases List.mem_append.1 hmem with h1 | h1
    · have := h.part e h1
      exact ⟨by simp [this.1], this.2⟩
    · have := hX e h1
      exact ⟨by simp [this.1], this.2⟩
  · intro r hr'
    rcases List.mem_append.1 hr' with h1 | h1
    · have hne : r ≠ i := fun e => hi (e ▸ h1)
      have : colsOf X r = ∅ := colsOf_eq_empty fun e he' h2 => hne (h2 ▸ (hX e he').1)
      rw [he, colsOf_append, this, Finset.union_empty]
      exact h.count r h1
    · simp only [List.mem_singleton] at h1
      rw [h1]; exact hk

theorem randRows_ok [Zero α] [DecidableEq α] {M N k : Nat} {val : α} (hval : val ≠ 0)
    (hM : M < 2147483648) (hN : N < 2147483648) : ∀ (is done : List Nat) (ds : List Nat) (A : Coo α),
    (∀ d ∈ ds, d < N) → (∀ i ∈ is, i < M) → (done ++ is).Nodup → Rows A M N k val done →
    randRows k val is ds A = .ok none ∨
    ∃ ds' A', randRows k val is ds A = .ok (some (ds', A')) ∧ Rows A' M N k val (done ++ is) := by
  intro is
  induction is with
  | nil => intro done ds A _ _ _ h; exact .inr ⟨ds, A, rfl, by simpa using h⟩
  | cons i is ih =>
    intro done ds A hd his hnd h
    have hi : i ∉ done := by
      intro hmem
      have := List.disjoint_of_nodup_append hnd hmem
      simp at this
    have hc0 : (colsOf A.entries i).card + k = k := by
      rw [colsOf_eq_empty (i := i) fun e he h2 => hi (by rw [← h2]; exact (h.part e he).1)]; simp
    simp only [randRows]
    rcases randRow_ok hval (his i (by simp)) hM hN ds k A hd h.wf h.rows h.cols
      (fun e he => (h.part e he).2.2) hc0 with hn | ⟨ds', A', X, h1, ⟨pre, h2⟩, h3, h4, h5, h6, h7, h8⟩
    · rw [hn]; exact .inl rfl
    · rw [h1]
      simp only [Res.ok_bind]
      have := ih (done ++ [i]) ds' A' (fun d h' => hd d (by rw [h2]; simp [h']))
        (fun j hj => his j (by simp [hj])) (by simpa using hnd) (h.step hi h3 h4 h5 h6 h7 h8)
      simpa using this

/-- `n` consecutive blocks of draws each of which covers all columns -/
def Covers (N : Nat) : Nat → List Nat → Prop
  | 0, _ => True
  | n + 1, ds => ∃ a b, ds = a ++ b ∧ (∀ c, c < N → c ∈ a) ∧ Covers N n b

theorem Covers.prepend {N : Nat} {n : Nat} {ds : List Nat} (h : Covers N n ds) (a : List Nat) :
    Covers N n (a ++ ds) := by
  cases n with
  | zero => trivial
  | succ n =>
    obtain ⟨x, y, h1, h2, h3⟩ := h
    exact ⟨a ++ x, y, by rw [h1]; simp, fun c hc => by simp [h2 c hc], h3⟩

theorem randRows_finishes [Zero α] [DecidableEq α] {M N k : Nat} {val : α} (hval : val ≠ 0)
    (hkN : k < N) (hM : M < 2147483648) (hN : N < 2147483648) :
    ∀ (is done : List Nat) (ds : List Nat) (A : Coo α),
    (∀ d ∈ ds, d < N) → (∀ i ∈ is, i < M) → (done ++ is).Nodup → Rows A M N k val done →
    Covers N is.length ds → randRows k val is ds A ≠ .ok none := by
  intro is
  induction is with
  | nil => intro done ds A _ _ _ h _ hh; exact nomatch hh
  | cons i is ih =>
    intro done ds A hd his hnd h hcov
    have hi : i ∉ done := by
      intro hmem
      have := List.disjoint_of_nodup_append hnd hmem
      simp at this
    have hc0 : (colsOf A.entries i).card + k = k := by
      rw [colsOf_eq_empty (i := i) fun e he h2 => hi (by rw [← h2]; exact (h.part e he).1)]; simp
    obtain ⟨a, b, h1, h2, h3⟩ := hcov
    obtain ⟨a', A1, hf⟩ := randRow_finishes hval (his i (by simp)) hkN hM hN b a k A
      (fun d h' => hd d (by rw [h1]; simp [h'])) h.wf h.rows h.cols
      (fun e he => (h.part e he).2.2) hc0 (fun c hc => .inl (h2 c hc))
    rw [← h1] at hf
    simp only [randRows, hf, Res.ok_bind]
    rcases randRow_ok hval (his i (by simp)) hM hN ds k A hd h.wf h.rows h.cols
      (fun e he => (h.part e he).2.2) hc0 with hn | ⟨ds', A', X, h1', ⟨pre, h2'⟩, h3', h4, h5, h6, h7, h8⟩
    · rw [hn] at hf; simp at hf
    · rw [hf] at h1'
      simp only [Res.ok.injEq, Option.some.injEq, Prod.mk.injEq] at h1'
      obtain ⟨e1, e2⟩ := h1'
      subst e1 e2
      exact ih (done ++ [i]) _ _ (fun d h' => hd d (by rw [h2']; simp only [List.mem_append] at h' ⊢; exact .inr h'))
        (fun j hj => his j (by simp [hj])) (by simpa using hnd) (h.step hi h3' h4 h5 h6 h7 h8)
        (h3.prepend a')

/-- in a strictly ordered list the number of entries of a row is its number of distinct columns -/
theorem card_colsOf {L : List (Entry α)} (h : StrictLex L) (i : Nat) :
    (colsOf L i).card = (rowOf L i).length := by
  unfold colsOf
  rw [List.toFinset_card_of_nodup, List.length_map]
  unfold rowOf
  have hp : (L.filter (fun e => e.1 == i)).Pairwise
      (fun a b => a.1 < b.1 ∨ (a.1 = b.1 ∧ a.2.1 < b.2.1)) := h.filter _
  rw [List.Nodup, List.pairwise_map]
  refine hp.imp_of_mem ?_
  intro a b ha hb hab
  simp only [List.mem_filter, beq_iff_eq] at ha hb
  omega

/-- **C27.** Whatever the stream of draws (each a valid column) and whatever non-zero value, the
generator either is still waiting for draws (`none`) or returns an `M × N` matrix in row-major order
without duplicate positions in which every row stores exactly `nnzrow` entries, all inside the matrix
and all equal to `val`. -/
theorem C27_random_structure [Zero α] [DecidableEq α] (M N nnzrow : Nat) (val : α) (draws : List Nat)
    (hdraws : ∀ d ∈ draws, d < N) (hval : val ≠ 0) (hM0 : 0 < M) (hk0 : 0 < nnzrow) (hk : nnzrow < N)
    (hM : M < 2147483648) (hN : N < 2147483648) :
    randomStructure M N nnzrow val draws = .ok none ∨
    ∃ A, randomStructure M N nnzrow val draws = .ok (some A) ∧ A.WF ∧ A.rowN = M ∧ A.colN = N ∧
      StrictLex A.entries ∧ Within M N A.entries ∧ (∀ e ∈ A.entries, e.2.2 = val) ∧
      ∀ i, i < M → (rowOf A.entries i).length = nnzrow := by
  unfold randomStructure
  rw [if_neg (by omega)]
  have h0 : Rows (Coo.new M N : Coo α) M N nnzrow val [] :=
    ⟨Coo.new_wf M N, rfl, rfl, by simp, by simp⟩
  rcases randRows_ok hval hM hN (List.range M) [] draws _ hdraws (by simp) (by simpa using List.nodup_range)
    h0 with h | ⟨ds', A, h, hR⟩
  · rw [h]; exact .inl rfl
  · right
    simp only [List.nil_append] at hR
    have hne : 1 ≤ A.nnz := by
      have h1 := hR.count 0 (by simpa using hM0)
      have h2 : (colsOf A.entries 0).Nonempty := Finset.card_pos.1 (by omega)
      obtain ⟨c, hc⟩ := h2
      obtain ⟨v, hv⟩ := mem_colsOf.1 hc
      have := hR.wf.length_entries
      have := List.length_pos_of_mem hv
      omega
    obtain ⟨B, hB, hwf, hr, hc, hs, hsub, hsup, -⟩ := C03_sort_merge A hR.wf hne
    refine ⟨B, ?_, hwf, by rw [hr, hR.rows], by rw [hc, hR.cols], hs, ?_, ?_, ?_⟩
    · simp only [h, Res.ok_bind, hB]
    · intro e he
      have := hR.part e (hsub e he)
      exact ⟨by simpa using this.1, this.2.1⟩
    · intro e he
      exact (hR.part e (hsub e he)).2.2
    · intro i hi
      rw [← card_colsOf hs, ← hR.count i (by simpa using hi)]
      congr 1
      ext c
      rw [mem_colsOf, mem_colsOf]
      constructor
      · rintro ⟨v, hv⟩; exact ⟨v, hsub _ hv⟩
      · rintro ⟨v, hv⟩
        obtain ⟨⟨r, c', w⟩, h1, h2, h3⟩ := hsup _ hv
        simp only at h2 h3
        subst h2 h3
        exact ⟨w, h1⟩

/-- The generator can always still finish: after any draws, `M` more rounds over all the columns
are enough. -/
theorem C27_can_finish [Zero α] [DecidableEq α] (M N nnzrow : Nat) (val : α) (draws : List Nat)
    (hdraws : ∀ d ∈ draws, d < N) (hval : val ≠ 0) (hM0 : 0 < M) (hk0 : 0 < nnzrow) (hk : nnzrow < N)
    (hM : M < 2147483648) (hN : N < 2147483648) :
    ∃ A, randomStructure M N nnzrow val (draws ++ (List.replicate M (List.range N)).flatten) =
      .ok (some A) := by
  have hd : ∀ d ∈ draws ++ (List.replicate M (List.range N)).flatten, d < N := by
    intro d h
    rcases List.mem_append.1 h with h | h
    · exact hdraws d h
    · simp only [List.mem_flatten, List.mem_replicate] at h
      obtain ⟨l, ⟨-, rfl⟩, h⟩ := h
      exact List.mem_range.1 h
  rcases C27_random_structure M N nnzrow val _ hd hval hM0 hk0 hk hM hN with h | ⟨A, h, -⟩
  · exfalso
    have h0 : Rows (Coo.new M N : Coo α) M N nnzrow val [] :=
      ⟨Coo.new_wf M N, rfl, rfl, by simp, by simp⟩
    have hcov : Covers N (List.range M).length (draws ++ (List.replicate M (List.range N)).flatten) := by
      apply Covers.prepend
      rw [List.length_range]
      clear h hd hM0 hM h0
      induction M with
      | zero => trivial
      | succ M ih =>
        exact ⟨List.range N, _, by rw [List.replicate_succ, List.flatten_cons], by simp, ih⟩
    have hf := randRows_finishes hval hk hM hN (List.range M) [] _ _ hd (by simp)
      (by simpa using List.nodup_range) h0 hcov
    rcases randRows_ok hval hM hN (List.range M) [] _ _ hd (by simp) (by simpa using List.nodup_range)
      h0 with h' | ⟨ds', A, h', hR⟩
    · exact hf h'
    · unfold randomStructure at h
      rw [if_neg (by omega)] at h
      simp only [h', Res.ok_bind] at h
      cases hs : A.sort true <;> simp [hs, bind, Res.bind] at h
  · exact ⟨A, h⟩

/-- A request for at least `N` entries per row is refused. -/
theorem C27_reject [Zero α] [DecidableEq α] (M N nnzrow : Nat) (val : α) (draws : List Nat)
    (h : N ≤ nnzrow) : ∃ e, randomStructure M N nnzrow val draws = .throw e := by
  simp [randomStructure, h]

/-- The hypotheses are met, and a repeated draw is really drawn again: -/
example : ∃ A : Coo Int, randomStructure 2 3 2 5 [1, 1, 0, 2, 2, 1] = .ok (some A) ∧
    A.entries = [(0, 0, 5), (0, 1, 5), (1, 1, 5), (1, 2, 5)] := ⟨_, rfl, rfl⟩

/-- Boundary: with the value 0 a repeated column is not detected, and a row is left with fewer than
`nnzrow` entries. -/
theorem C27_zero_value_violated : ∃ A : Coo Int, randomStructure 1 3 2 0 [1, 1] = .ok (some A) ∧
    (rowOf A.entries 0).length = 1 := ⟨_, rfl, rfl⟩

/-- Boundary: `nnzrow = 0` yields a matrix that claims one stored element and stores none. -/
theorem C27_empty_violated : ∃ A : Coo Int, randomStructure 1 3 0 7 [] = .ok (some A) ∧
    A.nnz = 1 ∧ A.val = [] := ⟨_, rfl, rfl, rfl⟩

end Gen
end Verif
