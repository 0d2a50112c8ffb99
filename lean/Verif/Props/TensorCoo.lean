import Verif.Lemmas.TensorConv

/-!
C37: coordinate tensors (`tensor_COO`): insertion histories, sorting, diagonal, conversion to and from
dense tensors.
-/

namespace Verif

open Spec

variable {α : Type}

/-- **C37 (insert/at).** For every history of insertions, at any positions, `at` returns the value inserted
last at that position, and 0 where nothing was inserted. -/
theorem C37_insert_at [Zero α] (shape : List Nat) (L : List (TEntry α)) :
    ∃ T, TCoo.insertAll L (TCoo.new shape) = .ok T ∧ T.WF ∧ T.shape = shape ∧ T.nnz = L.length ∧
      T.entries = L ∧ ∀ pos, T.at_ pos = .ok (lastAtPos L pos) := by
  obtain ⟨T, h1, h2, h3, h4⟩ := TCoo.insertAll_ok L (TCoo.new_wf shape)
  have h4' : T.entries = L := by simpa [TCoo.entries, TCoo.new] using h4
  exact ⟨T, h1, h2, h3, by rw [← h2.length_entries, h4'], h4', fun pos => by rw [TCoo.at_ok h2, h4']⟩

example : lastAtPos [([0, 1], (5 : Int)), ([1, 0], 7), ([0, 1], 9)] [0, 1] = 9 ∧
    lastAtPos [([0, 1], (5 : Int)), ([1, 0], 7), ([0, 1], 9)] [1, 1] = 0 := by decide

/-- **C37 (sort).** For tensors of at most 2^31 positions, `sort(false)` makes the stored elements a
permutation of the previous ones in row-major order, and `at` is unchanged wherever a position is
stored at most once. -/
theorem C37_sort_partial [Zero α] {T : TCoo α} (h : T.WF) (hv : volume T.shape ≤ 2 ^ 31)
    (hg : InsideT T.shape T.entries) :
    ∃ T', T.sort false = .ok T' ∧ T'.WF ∧ T'.shape = T.shape ∧ T'.nnz = T.nnz ∧
      T'.entries.Perm T.entries ∧ SortedT T.shape T'.entries ∧
      ∀ pos, (∀ x ∈ T.entries, ∀ y ∈ T.entries, x.1 = pos → y.1 = pos → x = y) →
        T'.at_ pos = T.at_ pos := by
  obtain ⟨T', h1, h2, h3, h4, h5, h6⟩ := TCoo.sort_false_ok h hv hg
  exact ⟨T', h1, h2, h3, h4, h5, h6, fun pos hu => by
    rw [TCoo.at_ok h2, TCoo.at_ok h, lastAtPos_perm h5 hu]⟩

/-- **C37 (sort with merge).** `sort(true)` of a tensor with at least one element stores every position
exactly once, in row-major order, with one of the values stored there; without repeated positions the
elements are only permuted and `at` is unchanged. -/
theorem C37_sort_merge_partial [Zero α] {T : TCoo α} (h : T.WF) (hne : 1 ≤ T.nnz)
    (hv : volume T.shape ≤ 2 ^ 31) (hg : InsideT T.shape T.entries) :
    ∃ T', T.sort true = .ok T' ∧ T'.WF ∧ T'.shape = T.shape ∧ StrictT T.shape T'.entries ∧
      (∀ e ∈ T'.entries, e ∈ T.entries) ∧ (∀ e ∈ T.entries, ∃ e' ∈ T'.entries, e'.1 = e.1) ∧
      (DistinctT T.entries → T'.entries.Perm T.entries ∧ ∀ pos, T'.at_ pos = T.at_ pos) := by
  obtain ⟨T', h1, h2, h3, _, S, h5, h6, h7⟩ := TCoo.sort_true_ok h hne hv hg
  have hgS : ∀ e ∈ S, InShape T.shape e.1 := fun e he => hg e (h5.mem_iff.1 he)
  refine ⟨T', h1, h2, h3, ?_, ?_, ?_, ?_⟩
  · rw [h7]
    exact KL.keepLast_strict (fun e : TEntry α => rowMajor T.shape e.1) h6
      (fun a ha b hb he => rowMajor_inj (hgS a ha) (hgS b hb) he)
  · intro e he; rw [h7] at he; exact h5.mem_iff.1 (KL.keepLast_mem he)
  · intro e he; rw [h7]; exact KL.keepLast_pos (h5.mem_iff.2 he)
  · intro hd
    have hdS : S.Pairwise fun a b => a.1 ≠ b.1 :=
      (h5.pairwise_iff (fun {a b} hab => Ne.symm hab)).2 hd
    rw [KL.keepLast_distinct hdS] at h7
    refine ⟨h7 ▸ h5, fun pos => ?_⟩
    rw [TCoo.at_ok h2, TCoo.at_ok h, h7]
    refine congrArg Res.ok (lastAtPos_perm h5 ?_)
    intro x hx y hy hxp hyp
    exact DistinctT.eq_of_mem hd hx hy (hxp.trans hyp.symm)

/-- a tensor meeting the hypotheses of both theorems, unsorted, with a repeated position -/
example : ∃ T : TCoo Int, T = ⟨[2, 2], [[1, 1], [0, 0], [0, 0]], [9, 1, 2], 3, 3, true⟩ ∧
    T.WF ∧ 1 ≤ T.nnz ∧ volume T.shape ≤ 2 ^ 31 ∧ InsideT T.shape T.entries ∧
    T.sort true = .ok ⟨[2, 2], [[0, 0], [1, 1], [1, 1]], [1, 9, 9], 2, 3, true⟩ :=
  ⟨_, rfl, ⟨rfl, rfl, rfl, by decide⟩, by decide, by decide, by
    intro e he
    change e ∈ [([1, 1], 9), ([0, 0], 1), ([0, 0], 2)] at he
    simp only [List.mem_cons, List.not_mem_nil, or_false] at he
    rcases he with rfl | rfl | rfl <;> exact List.Forall₂.cons (by decide) (.cons (by decide) .nil), by decide⟩

/-- **C37 violated (large tensors).** With more than 2^31 positions the 32-bit truncation of the linear
index makes `sort` leave elements in the wrong order, or compute an overflowing difference. -/
theorem C37_sort_violated :
    (∃ T T' : TCoo Int, T.WF ∧ InsideT T.shape T.entries ∧ T.sort false = .ok T' ∧
      ¬ SortedT T.shape T'.entries) ∧
    (∃ (T : TCoo Int) (m : String), T.WF ∧ InsideT T.shape T.entries ∧ T.sort false = .ub m) := by
  refine ⟨⟨⟨[4294967296], [[2147483648], [0]], [7, 8], 2, 2, true⟩,
      ⟨[4294967296], [[2147483648], [0]], [7, 8], 2, 2, true⟩, ⟨rfl, rfl, rfl, by decide⟩, ?_, by decide, ?_⟩,
    ⟨⟨[4294967296], [[0], [2147483648]], [7, 8], 2, 2, true⟩, _, ⟨rfl, rfl, rfl, by decide⟩, ?_, rfl⟩⟩
  · intro e he
    change e ∈ [([2147483648], 7), ([0], 8)] at he
    simp only [List.mem_cons, List.not_mem_nil, or_false] at he
    rcases he with rfl | rfl <;> exact List.Forall₂.cons (by decide) .nil
  · intro h
    have := (List.pairwise_cons.1 h).1 ([0], 8) (by decide)
    revert this
    decide
  · intro e he
    change e ∈ [([0], 7), ([2147483648], 8)] at he
    simp only [List.mem_cons, List.not_mem_nil, or_false] at he
    rcases he with rfl | rfl <;> exact List.Forall₂.cons (by decide) .nil

/-- **C37 violated (empty tensor).** `sort(true)` of a tensor without elements leaves it claiming one
element that no buffer backs; every `at` then reads out of bounds. -/
theorem C37_sort_empty_violated [Zero α] (shape : List Nat) :
    ∃ T', (TCoo.new shape : TCoo α).sort true = .ok T' ∧ T'.nnz = 1 ∧ T'.val = [] ∧
      ∀ pos, ∃ m, T'.at_ pos = .ub m :=
  ⟨_, rfl, rfl, rfl, fun _ => ⟨_, rfl⟩⟩

/-- **C37 violated (unchecked positions).** `insert` accepts positions of the wrong rank or outside the
shape; `sort` then throws, and a position outside the shape is written to another element by the
conversion to a dense tensor. -/
theorem C37_unchecked_violated :
    (∃ (T : TCoo Int) (m : String), TCoo.insertAll [([0], 1), ([0, 0], 2)] (TCoo.new [2, 2]) = .ok T ∧
      T.sort false = .throw m) ∧
    (∃ (T : TCoo Int) (D : TDense Int), TCoo.insertAll [([0, 2], 1)] (TCoo.new [2, 2]) = .ok T ∧
      TDense.empty.ofCoo T = .ok D ∧ T.at_ [1, 0] = .ok 0 ∧ D.at_ [1, 0] = .ok 1) :=
  ⟨⟨_, _, rfl, rfl⟩, ⟨_, ⟨[2, 2], [0, 0, 1, 0], 4, 4, 0, true⟩, rfl, by decide, by decide, by decide⟩⟩

/-- **C37 (from dense).** Converting a dense tensor (stored from offset 0) gives exactly its non-zero
elements in row-major order, whatever the target held before; `at` agrees everywhere. -/
theorem C37_of_dense_partial [Zero α] [DecidableEq α] {T : TCoo α}
    (hT : T.val.length = T.alloc ∧ T.nnz ≤ T.alloc) {D : TDense α} (hD : D.WF) (h0 : D.first = 0)
    {f : List Nat → α} (hf : D.Reads f) :
    ∃ A, T.ofDense D = .ok A ∧ A.WF ∧ A.shape = D.shape ∧ InsideT A.shape A.entries ∧
      StrictT A.shape A.entries ∧ (∀ e ∈ A.entries, e.2 ≠ 0) ∧
      ∀ pos, InShape D.shape pos → A.at_ pos = .ok (f pos) := by
  obtain ⟨A, h1, h2, h3, h4⟩ := ofDense_ok hT hD h0 hf
  refine ⟨A, h1, h2, h3, ?_, ?_, ?_, ?_⟩
  · rw [h3, h4]; exact nzT_inside
  · rw [h3, h4]; exact nzT_strict
  · intro e he
    rw [h4] at he
    obtain ⟨k, _, hne, rfl⟩ := mem_nzT.1 he
    exact hne
  · intro pos hp
    rw [TCoo.at_ok h2, h4, nzT_lastAt hp]

/-- **C37 violated (from dense, with an offset).** For a tensor that shares storage at an offset the test
for zero looks at other elements than the copy: here every element is lost. -/
theorem C37_of_dense_violated : ∃ (D : TDense Int) (A : TCoo Int), D.WF ∧ D.at_ [0] = .ok 5 ∧
    (TCoo.new [] : TCoo Int).ofDense D = .ok A ∧ A.at_ [0] = .ok 0 :=
  ⟨⟨[2], [0, 0, 5, 6], 2, 4, 2, false⟩, ⟨[2], [], [], 0, 0, true⟩, ⟨rfl, by decide, by decide⟩, by decide,
    by decide, by decide⟩

/-- **C37 (to dense).** Converting a coordinate tensor whose positions lie inside the shape gives a dense
tensor with the same `at` everywhere (the last value wins), whatever the target held before. -/
theorem C37_to_dense [Zero α] {T : TDense α} (hT : T.Own) {A : TCoo α} (hA : A.WF)
    (hg : InsideT A.shape A.entries) :
    ∃ D, T.ofCoo A = .ok D ∧ D.WF ∧ D.shape = A.shape ∧
      ∀ pos, InShape A.shape pos → D.at_ pos = A.at_ pos := by
  obtain ⟨D, h1, h2, h3, _, h5⟩ := TDense.ofCoo_ok hT hA hg
  exact ⟨D, h1, h2, h3, fun pos hp => by rw [TCoo.at_ok hA]; exact h5 pos (by rw [h3]; exact hp)⟩

/-- **C37 (round trip).** dense → coordinate → dense preserves every element. -/
theorem C37_round_trip [Zero α] [DecidableEq α] {T : TCoo α}
    (hT : T.val.length = T.alloc ∧ T.nnz ≤ T.alloc) {D : TDense α} (hD : D.WF) (h0 : D.first = 0)
    {f : List Nat → α} (hf : D.Reads f) {E : TDense α} (hE : E.Own) :
    ∃ A D', T.ofDense D = .ok A ∧ E.ofCoo A = .ok D' ∧ D'.shape = D.shape ∧ D'.Reads f := by
  obtain ⟨A, h1, h2, h3, h4, _, _, h7⟩ := C37_of_dense_partial hT hD h0 hf
  obtain ⟨D', g1, _, g3, g4⟩ := C37_to_dense hE h2 h4
  refine ⟨A, D', h1, g1, by rw [g3, h3], ?_⟩
  intro pos hp
  rw [g3] at hp
  rw [g4 pos hp]
  exact h7 pos (by rw [← h3]; exact hp)

example : (TCoo.new [] : TCoo Int).ofDense ⟨[2, 2], [0, 3, 0, 4], 4, 4, 0, true⟩ =
    .ok ⟨[2, 2], [[0, 1], [1, 1]], [3, 4], 2, 2, true⟩ ∧
    (TDense.empty : TDense Int).ofCoo ⟨[2, 2], [[0, 1], [1, 1]], [3, 4], 2, 2, true⟩ =
    .ok ⟨[2, 2], [0, 3, 0, 4], 4, 4, 0, true⟩ := by decide

/-! ### the diagonal -/

theorem foldl_min_eq {m : Nat} : ∀ (l : List Nat) (z : Nat), (∀ s ∈ l, m ≤ s) → m ≤ z →
    (m = z ∨ m ∈ l) → l.foldl min z = m := by
  intro l
  induction l with
  | nil => intro z _ _ h; simpa [eq_comm] using h
  | cons a l ih =>
    intro z h1 h2 h3
    rw [List.foldl_cons]
    have ha := h1 a (by simp)
    refine ih _ (fun s hs => h1 s (by simp [hs])) (by omega) ?_
    rcases h3 with h3 | h3
    · left; omega
    · rw [List.mem_cons] at h3
      rcases h3 with h3 | h3
      · left; omega
      · right; exact h3

theorem allEqualFirst_iff {pos : List Nat} {n : Nat} (hl : pos.length = n + 1) :
    TCoo.allEqualFirst pos = true ↔ ∃ r, pos = List.replicate (n + 1) r := by
  unfold TCoo.allEqualFirst
  rw [List.all_eq_true]
  constructor
  · intro h
    exact ⟨pos.headD 0, by rw [List.eq_replicate_iff]; exact ⟨hl, fun b hb => by simpa using h b hb⟩⟩
  · rintro ⟨r, rfl⟩ x hx
    rw [List.mem_replicate] at hx
    simp [List.replicate_succ, hx.2]

/-- **C37 (diagonal).** `diag` of a tensor of rank ≥ 1 stores `A(r, r, ..., r)` at element `r` of a vector
whose length is the smallest extent; nothing outside the vector changes. -/
theorem C37_diag [Zero α] {T : TCoo α} (h : T.WF) (hg : InsideT T.shape T.entries) (hr : T.shape ≠ [])
    {d : Win α} (hd : d.Ok) (hmin : ∀ s ∈ T.shape, d.size ≤ s) (hmem : d.size ∈ T.shape) :
    ∃ d', T.diag d = .ok d' ∧ d.Updated d' ∧
      ∀ r, r < d.size → d'.get r = T.at_ (List.replicate T.shape.length r) := by
  obtain ⟨n, hn⟩ : ∃ n, T.shape.length = n + 1 :=
    ⟨T.shape.length - 1, by have := List.length_pos_of_ne_nil hr; omega⟩
  unfold Win.Ok at hd
  unfold TCoo.diag
  rw [if_neg hr, cassert_decide (by
    cases hs : T.shape with
    | nil => exact absurd hs hr
    | cons a l =>
      rw [hs] at hmin hmem
      exact foldl_min_eq _ _ hmin (hmin a (by simp)) (Or.inr hmem)), Res.ok_bind, forN_eq_forList]
  obtain ⟨b, b1, b2, b3⟩ := forList_write (fun _ => (0 : α)) d.off (List.range d.size) d.buf
    (body := fun i b => wr b (d.off + i) 0) (fun i _ t _ => rfl)
    (fun i hi => by rw [List.mem_range] at hi; omega)
  rw [b1, Res.ok_bind]
  obtain ⟨b', c1, c2, c3, c4⟩ := forN_sat (n := T.nnz)
    (body := fun i (b : List α) => do
      let pos ← rd T.index i
      if TCoo.allEqualFirst pos then do
        let r ← rd pos 0
        let v ← rd T.val i
        wr b (d.off + r) v
      else .ok b) (s := b)
    (fun i b' => b'.length = d.buf.length ∧
      (∀ r, r < d.size → b'[d.off + r]? = some (lastAtPos (T.entries.take i) (List.replicate (n + 1) r))) ∧
      (∀ k, k < d.off ∨ d.off + d.size ≤ k → b'[k]? = d.buf[k]?))
    ⟨b2, fun r hr => by
      rw [b3, if_pos ⟨by omega, by rw [List.mem_range]; omega⟩]; rfl, fun k hk => by
      rw [b3, if_neg (by rw [List.mem_range]; omega)]⟩
    (by
      rintro i b' hi ⟨w1, w2, w3⟩
      have hlen := h.length_entries
      have hle := h.nnz_le
      have g1 := h.lenI; have g2 := h.lenV
      have hie : i < T.entries.length := by omega
      have hent : T.entries[i] = (T.index[i]'(by omega), T.val[i]'(by omega)) := by
        simp [TCoo.entries]
      have hpos : InShape T.shape (T.index[i]'(by omega)) := by
        have := hg _ (List.getElem_mem hie)
        rwa [hent] at this
      rw [rd_ok (by omega), Res.ok_bind]
      have hpl : (T.index[i]'(by omega)).length = n + 1 := by rw [hpos.length, hn]
      generalize hpp : (T.index[i]'(by omega)) = pos at *
      generalize hvv : (T.val[i]'(by omega)) = v at *
      by_cases he : TCoo.allEqualFirst pos = true
      · rw [if_pos he]
        obtain ⟨r, hr'⟩ := (allEqualFirst_iff hpl).1 he
        have hrd : rd pos 0 = .ok r := by
          apply rd_of_getElem?; rw [hr']; simp
        have hrs : r < d.size := by
          have key : ∀ {s p : List Nat}, InShape s p → ∀ x ∈ s, (∀ y ∈ p, y = r) → r < x := by
            intro s p hsp
            unfold InShape at hsp
            induction hsp with
            | nil => intro x hx; simp at hx
            | cons hab _ ih =>
              intro x hx hy
              rw [List.mem_cons] at hx
              rcases hx with rfl | hx
              · exact lt_of_eq_of_lt (hy _ (by simp)).symm hab
              · exact ih x hx (fun y hyy => hy y (by simp [hyy]))
          exact key hpos _ hmem (by rw [hr']; intro y hy; exact (List.mem_replicate.1 hy).2)
        rw [hrd, Res.ok_bind, rd_ok (by omega), Res.ok_bind, wr_ok (by omega)]
        refine Res.Sat.ok ⟨by simpa using w1, ?_, ?_⟩
        · intro q hq
          rw [List.take_succ_eq_append_getElem hie, TCoo.lastAtPos_append_singleton, hent]
          simp only
          by_cases hqr : q = r
          · subst hqr
            rw [if_pos hr', List.getElem?_set_self (by omega), hvv]
          · rw [if_neg (by
              rw [hr']
              intro hc
              have := congrArg (fun l => l.headD 0) hc
              simp [List.replicate_succ] at this
              exact hqr this.symm), List.getElem?_set_ne (by omega), w2 q hq]
        · intro k hk
          rw [List.getElem?_set_ne (by omega), w3 k hk]
      · rw [if_neg he]
        refine Res.Sat.ok ⟨w1, ?_, w3⟩
        intro q hq
        rw [List.take_succ_eq_append_getElem hie, TCoo.lastAtPos_append_singleton, hent]
        simp only
        rw [if_neg (fun hc => he ((allEqualFirst_iff hpl).2 ⟨q, hc⟩)), w2 q hq])
  refine ⟨{ d with buf := b' }, ?_, ⟨rfl, rfl, c2, c4⟩, ?_⟩
  · rw [c1]; rfl
  · intro r hr'
    rw [TCoo.at_ok h, hn]
    unfold Win.get
    apply rd_of_getElem?
    simp only
    rw [c3 r hr', List.take_of_length_le (by rw [h.length_entries])]

example : (TCoo.mk [2, 3] [[1, 1], [0, 2]] [(4 : Int), 5] 2 2 true).diag ⟨[9, 9, 9, 9], 1, 2⟩ =
    .ok ⟨[9, 0, 4, 9], 1, 2⟩ := by decide

end Verif
