import Verif.Lemmas.TensorCoo

/-! Conversions between dense and coordinate tensors; looking up elements. -/

namespace Verif

open Spec

variable {α : Type}

theorem Spec.DistinctT.eq_of_mem {L : List (TEntry α)} (h : DistinctT L) {x y : TEntry α} (hx : x ∈ L)
    (hy : y ∈ L) (he : x.1 = y.1) : x = y := by
  unfold DistinctT at h
  induction L with
  | nil => simp at hx
  | cons a L ih =>
    rw [List.pairwise_cons] at h
    rw [List.mem_cons] at hx hy
    rcases hx with rfl | hx <;> rcases hy with rfl | hy
    · rfl
    · exact absurd he (h.1 y hy)
    · exact absurd he.symm (h.1 x hx)
    · exact ih h.2 hx hy

theorem lastAtPos_eq_zero [Zero α] {L : List (TEntry α)} {pos : List Nat}
    (h : ∀ e ∈ L, e.1 ≠ pos) : lastAtPos L pos = 0 := by
  induction L using List.reverseRecOn with
  | nil => rfl
  | append_singleton L e ih =>
    rw [TCoo.lastAtPos_append_singleton, if_neg (h e (by simp))]
    exact ih (fun x hx => h x (by simp [hx]))

theorem lastAtPos_of_mem [Zero α] {L : List (TEntry α)} {e : TEntry α} (he : e ∈ L)
    (hu : ∀ x ∈ L, x.1 = e.1 → x = e) : lastAtPos L e.1 = e.2 := by
  induction L using List.reverseRecOn with
  | nil => simp at he
  | append_singleton L x ih =>
    rw [TCoo.lastAtPos_append_singleton]
    split
    · rename_i hx
      rw [hu x (by simp) hx]
    · rename_i hx
      rw [List.mem_append, List.mem_singleton] at he
      rcases he with he | he
      · exact ih he (fun y hy => hu y (by simp [hy]))
      · exact absurd (by rw [he]) hx

theorem lastAtPos_perm [Zero α] {L L' : List (TEntry α)} (hp : L'.Perm L) {pos : List Nat}
    (hu : ∀ x ∈ L, ∀ y ∈ L, x.1 = pos → y.1 = pos → x = y) : lastAtPos L' pos = lastAtPos L pos := by
  by_cases h : ∃ e ∈ L, e.1 = pos
  · obtain ⟨e, he, rfl⟩ := h
    rw [lastAtPos_of_mem he (fun x hx hxe => hu x hx e he hxe rfl),
      lastAtPos_of_mem (hp.mem_iff.2 he) (fun x hx hxe => hu x (hp.mem_iff.1 hx) e he hxe rfl)]
  · have h' : ∀ e ∈ L, e.1 ≠ pos := fun e he hq => h ⟨e, he, hq⟩
    rw [lastAtPos_eq_zero h', lastAtPos_eq_zero (fun e he => h' e (hp.mem_iff.1 he))]

namespace TDense

theorem resize_own {T : TDense α} (h : T.Own) (hc : T.created = true) (N : Nat) (v : α) :
    ∃ T', T.resize N v = .ok T' ∧ T'.Own ∧ T'.nnz = N ∧ T'.shape = T.shape ∧ T'.created = true := by
  have h1 := h.lenV; have h2 := h.nnz_le; have h3 := h.first0
  unfold resize
  by_cases hb : T.first + N < T.alloc
  · rw [if_pos hb]
    obtain ⟨b, hb1, hb2⟩ : (forRange T.nnz N (fun i b => wr b (T.first + i) v) T.val).Sat
        (fun b => b.length = T.alloc) := by
      by_cases hle : T.nnz ≤ N
      · exact forRange_sat (fun _ (b : List α) => b.length = T.alloc) hle h1 (fun i s _ hi hs => by
          rw [wr_ok (by omega)]; exact Res.Sat.ok (by simpa using hs))
      · rw [show forRange T.nnz N (fun i b => wr b (T.first + i) v) T.val = .ok T.val by
          unfold forRange; rw [show N - T.nnz = 0 by omega]; rfl]
        exact Res.Sat.ok h1
    rw [hb1, Res.ok_bind]
    exact ⟨_, rfl, ⟨hb2, by simp only; omega, h3⟩, rfl, rfl, hc⟩
  · rw [if_neg hb, if_pos hc, reallocCopy_ok (by omega), Res.ok_bind]
    refine ⟨_, rfl, ⟨?_, Nat.le_refl _, rfl⟩, rfl, rfl, hc⟩
    simp; omega

end TDense

/-- the non-zero elements among the first `i` places -/
def nzT [Zero α] [DecidableEq α] (shape : List Nat) (f : List Nat → α) (i : Nat) : List (TEntry α) :=
  (List.range i).filterMap fun k =>
    if f (TDense.posOf shape k) = 0 then none else some (TDense.posOf shape k, f (TDense.posOf shape k))

section
variable [Zero α] [DecidableEq α] {shape : List Nat} {f : List Nat → α}

theorem nzT_succ (i : Nat) : nzT shape f (i + 1) = nzT shape f i ++
    (if f (TDense.posOf shape i) = 0 then [] else
      [(TDense.posOf shape i, f (TDense.posOf shape i))]) := by
  unfold nzT
  rw [List.range_succ, List.filterMap_append]
  congr 1
  by_cases h : f (TDense.posOf shape i) = 0 <;> simp [h]

theorem nzT_length (i : Nat) : (nzT shape f i).length ≤ i := by
  have := List.length_filterMap_le (fun k =>
    if f (TDense.posOf shape k) = 0 then none else some (TDense.posOf shape k, f (TDense.posOf shape k)))
    (List.range i)
  simpa [nzT] using this

theorem mem_nzT {i : Nat} {e : TEntry α} : e ∈ nzT shape f i ↔
    ∃ k, k < i ∧ f (TDense.posOf shape k) ≠ 0 ∧ e = (TDense.posOf shape k, f (TDense.posOf shape k)) := by
  unfold nzT
  rw [List.mem_filterMap]
  constructor
  · rintro ⟨k, hk, h⟩
    by_cases h0 : f (TDense.posOf shape k) = 0
    · simp [h0] at h
    · rw [if_neg h0] at h
      cases h
      exact ⟨k, by simpa using hk, h0, rfl⟩
  · rintro ⟨k, hk, h0, rfl⟩
    exact ⟨k, by simpa using hk, by rw [if_neg h0]⟩

theorem nzT_strict : StrictT shape (nzT shape f (volume shape)) := by
  unfold StrictT nzT
  rw [List.pairwise_filterMap]
  have : (List.range (volume shape)).Pairwise (fun a b => a < b ∧ b < volume shape) := by
    rw [List.pairwise_iff_getElem]
    intro i j hi hj hij
    simp at hi hj
    simp [hij, hj]
  refine this.imp ?_
  intro a b hab x hx y hy
  by_cases ha : f (TDense.posOf shape a) = 0
  · simp [ha] at hx
  · by_cases hb : f (TDense.posOf shape b) = 0
    · simp [hb] at hy
    · rw [if_neg ha] at hx; rw [if_neg hb] at hy
      cases hx; cases hy
      simp only
      rw [(TDense.posOf_ok (show a < volume shape by omega)).2, (TDense.posOf_ok hab.2).2]
      exact hab.1

theorem nzT_inside : InsideT shape (nzT shape f (volume shape)) := by
  intro e he
  obtain ⟨k, hk, _, rfl⟩ := mem_nzT.1 he
  exact (TDense.posOf_ok hk).1

theorem nzT_lastAt {pos : List Nat} (hp : InShape shape pos) :
    lastAtPos (nzT shape f (volume shape)) pos = f pos := by
  by_cases h0 : f pos = 0
  · rw [h0]
    apply lastAtPos_eq_zero
    intro e he hq
    obtain ⟨k, hk, hne, rfl⟩ := mem_nzT.1 he
    simp only at hq
    rw [hq] at hne
    exact hne h0
  · have hmem : (pos, f pos) ∈ nzT shape f (volume shape) := by
      rw [mem_nzT]
      refine ⟨rowMajor shape pos, rowMajor_lt hp, ?_, ?_⟩ <;> rw [TDense.posOf_rowMajor hp]
      exact h0
    refine lastAtPos_of_mem hmem ?_
    intro x hx hxe
    obtain ⟨k, hk, hne, rfl⟩ := mem_nzT.1 hx
    simp only at hxe
    rw [hxe]

theorem ofDense_ok {T : TCoo α} (hT : T.val.length = T.alloc ∧ T.nnz ≤ T.alloc) {D : TDense α}
    (hD : D.WF) (h0 : D.first = 0) (hf : D.Reads f) :
    ∃ A, T.ofDense D = .ok A ∧ A.WF ∧ A.shape = D.shape ∧
      A.entries = nzT D.shape f (volume D.shape) := by
  have hnnz := hD.nnz_eq
  unfold TCoo.ofDense TCoo.resize
  simp only [if_true]
  rw [reallocCopy_ok (by omega), Res.ok_bind, Res.ok_bind]
  simp only
  have hlen0 : (T.val.take (min T.nnz D.nnz) ++ List.replicate (D.nnz - min T.nnz D.nnz) (0 : α)).length
      = D.nnz := by simp; omega
  generalize T.val.take (min T.nnz D.nnz) ++ List.replicate (D.nnz - min T.nnz D.nnz) (0 : α) = b0 at hlen0
  obtain ⟨⟨ix, b, nz⟩, hl, hP⟩ := forN_sat (n := D.nnz) (body := TCoo.denseStep D) (s := ([], b0, 0))
    (fun i s => s.1 = (nzT D.shape f i).map (·.1) ∧ s.2.1.length = D.nnz ∧
      s.2.1.take (nzT D.shape f i).length = (nzT D.shape f i).map (·.2) ∧
      s.2.2 = (nzT D.shape f i).length)
    ⟨rfl, hlen0, by simp [nzT], rfl⟩
    (by
      rintro i ⟨ix, b, nz⟩ hi ⟨h1, h2, h3, h4⟩
      simp only at h1 h2 h3 h4
      have hi' : i < volume D.shape := by omega
      obtain ⟨hp, hp'⟩ := TDense.posOf_ok hi'
      have hv : D.val[i]? = some (f (TDense.posOf D.shape i)) := by
        have := hf.getElem? hD hp
        rwa [hp', h0, Nat.zero_add] at this
      unfold TCoo.denseStep
      simp only
      rw [rd_of_getElem? hv, Res.ok_bind, nzT_succ]
      by_cases hz : f (TDense.posOf D.shape i) = 0
      · simp only [hz, ne_eq, not_true, if_false, if_true, List.append_nil]
        exact Res.Sat.ok ⟨h1, h2, h3, h4⟩
      · simp only [ne_eq, hz, not_false_eq_true, if_true, if_false]
        have hu : unindex D.shape i = .ok (TDense.posOf D.shape i) := by
          rw [← hp', unindex_rowMajor hp, hp']
        have hll := nzT_length (shape := D.shape) (f := f) i
        rw [hu, Res.ok_bind, h0, Nat.zero_add, rd_of_getElem? hv, Res.ok_bind, wr_ok (by omega), Res.ok_bind]
        refine Res.Sat.ok ⟨?_, by simpa using h2, ?_, ?_⟩
        · simp [h1]
        · simp only
          rw [List.length_append, List.length_singleton,
            List.take_succ_eq_append_getElem (by simp; omega), h4, List.take_set_of_le (Nat.le_refl _), h3]
          simp
        · simp [h4])
  simp only at hP
  obtain ⟨h1, h2, h3, h4⟩ := hP
  rw [hl, Res.ok_bind]
  simp only
  have hll := nzT_length (shape := D.shape) (f := f) D.nnz
  rw [reallocCopy_ok (by omega), Res.ok_bind]
  refine ⟨_, rfl, ⟨rfl, by simp, by simp; omega, Nat.le_refl _⟩, rfl, ?_⟩
  unfold TCoo.entries
  simp only
  rw [Nat.min_eq_right (by omega), h4, h3, h1, ← hnnz]
  simp only [Nat.sub_self, List.replicate_zero, List.append_nil]
  have e1 : stdResize ((nzT D.shape f D.nnz).map (·.1)) (nzT D.shape f D.nnz).length [] =
      (nzT D.shape f D.nnz).map (·.1) := by
    simp [stdResize]
  rw [e1, TCoo.zip_proj, List.take_length]

end

namespace TDense

theorem ofCoo_ok [Zero α] {T : TDense α} (hT : T.Own) {A : TCoo α} (hA : A.WF)
    (hg : InsideT A.shape A.entries) :
    ∃ D, T.ofCoo A = .ok D ∧ D.WF ∧ D.shape = A.shape ∧ D.first = 0 ∧
      D.Reads (lastAtPos A.entries) := by
  unfold ofCoo resizeShape
  have hT' : ({ T with shape := A.shape, created := true } : TDense α).Own := ⟨hT.lenV, hT.nnz_le, hT.first0⟩
  obtain ⟨T1, t1, t2, t3, t4, t5⟩ := resize_own hT' rfl (extent A.shape) 0
  rw [t1, Res.ok_bind, Res.ok_bind, forN_eq_forList]
  simp only
  have u1 := t2.lenV; have u2 := t2.nnz_le; have u3 := t2.first0
  obtain ⟨b, b1, b2, b3⟩ := forList_write (fun _ => (0 : α)) 0 (List.range T1.nnz) T1.val
    (body := fun i b => wr b i 0) (fun i _ t _ => by rw [Nat.zero_add])
    (fun i hi => by rw [List.mem_range] at hi; omega)
  rw [b1, Res.ok_bind]
  rw [extent_eq] at t3
  have hbase : ({ T1 with shape := A.shape, val := b } : TDense α).WF :=
    ⟨by simp only; omega, t3, by simp only; omega⟩
  obtain ⟨D, d1, d2, d3, d4, d5⟩ := forN_sat (n := A.nnz)
    (body := fun i (D : TDense α) => do
      let pos ← rd A.index i
      let v ← rd A.val i
      D.insert pos v)
    (s := ({ T1 with shape := A.shape, val := b } : TDense α))
    (fun i D => D.WF ∧ D.shape = A.shape ∧ D.first = 0 ∧ D.Reads (lastAtPos (A.entries.take i)))
    ⟨hbase, rfl, u3, by
      intro pos hp
      have hlt := rowMajor_lt hp
      rw [at_ok hbase hp]
      apply rd_of_getElem?
      simp only at hlt ⊢
      rw [b3, u3, if_pos ⟨by omega, by rw [List.mem_range]; omega⟩]
      rfl⟩
    (by
      rintro i D hi ⟨w1, w2, w3, w4⟩
      have hlen := hA.length_entries
      have hz := hA.length_zip2
      have hle := hA.nnz_le
      have g1 := hA.lenI; have g2 := hA.lenV
      have hie : i < A.entries.length := by omega
      have hent : A.entries[i] = (A.index[i]'(by omega), A.val[i]'(by omega)) := by
        simp [TCoo.entries]
      have hpos : InShape A.shape (A.index[i]'(by omega)) := by
        have := hg _ (List.getElem_mem hie)
        rwa [hent] at this
      rw [rd_ok (by omega), Res.ok_bind, rd_ok (by omega), Res.ok_bind]
      have hpos' : InShape D.shape (A.index[i]'(by omega)) := by rw [w2]; exact hpos
      have hlt := w1.lt hpos'
      have hwin := w1.window
      have hlv := w1.lenV
      unfold TDense.insert TDense.insert1
      rw [getIndex_ok hpos'.length, Res.ok_bind, cassert_decide hlt.1, Res.ok_bind,
        cassert_decide (by omega), Res.ok_bind, wr_ok hlt.2, Res.ok_bind]
      have hw' : (TDense.mk D.shape (D.val.set (D.first + rowMajor D.shape (A.index[i]'(by omega)))
            (A.val[i]'(by omega))) D.nnz D.alloc D.first D.created).WF := ⟨by simpa using hlv, w1.nnz_eq, hwin⟩
      refine Res.Sat.ok ⟨hw', w2, w3, ?_⟩
      intro pos hp
      have hp' : InShape D.shape pos := hp
      rw [at_ok hw' hp]
      apply rd_of_getElem?
      rw [List.take_succ_eq_append_getElem hie, TCoo.lastAtPos_append_singleton, hent]
      simp only
      by_cases hq : A.index[i]'(by omega) = pos
      · subst hq
        rw [if_pos rfl, List.getElem?_set_self hlt.2]
      · rw [if_neg hq, List.getElem?_set_ne, w4.getElem? w1 hp']
        intro he
        exact hq (rowMajor_inj hpos' hp' (by omega)))
  refine ⟨D, d1, d2, d3, d4, ?_⟩
  rwa [List.take_of_length_le (by rw [hA.length_entries])] at d5

end TDense
end Verif
