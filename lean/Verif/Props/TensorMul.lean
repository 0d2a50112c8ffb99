import Verif.Lemmas.Tensor
import Verif.Props.Matvec
import Verif.Props.Matmul

/-!
C39: contractions of dense tensors (`tensvec`, `tensmat`, `mattens`, `tensmul`).
The statements speak about positions `is ++ js` of tensors of any rank.
-/

namespace Verif

open Spec

variable {α : Type}

namespace TDense

/-- the matrix that shares the storage of `T` -/
def asDense (T : TDense α) (r c : Nat) : Dense α :=
  { rowN := r, colN := c, val := T.val, nnz := T.nnz, alloc := T.alloc, first := T.first,
    created := false }

theorem asDense_wf {T : TDense α} (h : T.WF) {r c : Nat} (hrc : r * c = T.nnz) :
    (T.asDense r c).WF := ⟨h.lenV, hrc.symm, h.window⟩

theorem asDense_reads {T : TDense α} (h : T.WF) {p q : List Nat} (hs : T.shape = p ++ q)
    {f : List Nat → α} (hf : T.Reads f) :
    (T.asDense (volume p) (volume q)).Reads (fun i j => f (posOf p i ++ posOf q j)) := by
  intro i j hi hj
  have hw : (T.asDense (volume p) (volume q)).WF :=
    asDense_wf h (by rw [h.nnz_eq, hs, volume_append])
  obtain ⟨hp, hp'⟩ := posOf_ok (show i < volume p from hi)
  obtain ⟨hq, hq'⟩ := posOf_ok (show j < volume q from hj)
  apply Dense.at_of_getElem? hw hi hj
  have := hf.getElem? h (pos := posOf p i ++ posOf q j) (by rw [hs]; exact hp.append hq)
  rw [hs, rowMajor_append hp, hp', hq', Nat.mul_comm] at this
  exact this

theorem toDense_row {T : TDense α} (h : T.WF) {p : List Nat} {n : Nat} (hs : T.shape = p ++ [n])
    (hn : 0 < n) : T.toDense (-1) n = .ok (T.asDense (volume p) n) := by
  have hv : T.nnz = volume p * n := by rw [h.nnz_eq, hs, volume_append]; simp [volume]
  have hd : T.nnz / n = volume p := by rw [hv, Nat.mul_div_cancel _ hn]
  unfold toDense
  rw [if_neg (by omega), if_pos (by omega), if_neg (by omega)]
  simp only [Int.toNat_natCast, Res.ok_bind, hd]
  rw [if_neg (by omega), Res.ok_bind, if_neg (by omega)]
  rfl

theorem toDense_col {T : TDense α} (h : T.WF) {q : List Nat} {n : Nat} (hs : T.shape = n :: q)
    (hn : 0 < n) : T.toDense n (-1) = .ok (T.asDense n (volume q)) := by
  have hv : T.nnz = n * volume q := by rw [h.nnz_eq, hs, volume_cons]
  have hd : T.nnz / n = volume q := by rw [hv, Nat.mul_div_cancel_left _ hn]
  unfold toDense
  rw [if_neg (by omega), if_neg (by omega), Res.ok_bind, if_pos (by omega)]
  simp only [Int.toNat_natCast]
  rw [if_neg (by omega), Res.ok_bind, if_neg (by rw [hd, hv]; simp), hd]
  rfl

theorem toDense_both {T : TDense α} {r c : Nat} (h : r * c = T.nnz) :
    T.toDense r c = .ok (T.asDense r c) := by
  unfold toDense
  rw [if_neg (by omega), if_neg (by omega), Res.ok_bind, if_neg (by omega), Res.ok_bind]
  simp only [Int.toNat_natCast]
  rw [if_neg (by omega)]
  rfl

theorem toDense_both_throw {T : TDense α} {r c : Nat} (h : r * c ≠ T.nnz) :
    ∃ m, T.toDense r c = .throw m := by
  refine ⟨"error cannot move tensor_Dense->Dense when rowN * colN != get_nnz()", ?_⟩
  unfold toDense
  rw [if_neg (by omega), if_neg (by omega), Res.ok_bind, if_neg (by omega), Res.ok_bind]
  simp only [Int.toNat_natCast]
  rw [if_pos h]

theorem lastExtent_append (p : List Nat) (n : Nat) : lastExtent (p ++ [n]) = .ok n := by
  unfold lastExtent
  apply rd_of_getElem?
  simp

/-- reading back a tensor whose storage was written as a matrix -/
theorem reads_of_dense {C : TDense α} (h : C.WF) {p q : List Nat} (hs : C.shape = p ++ q)
    {D : Dense α} (hw : D.WF) (hr : D.rowN = volume p) (hc : D.colN = volume q)
    (hf : D.first = C.first) (hl : D.val.length = C.val.length) {g : Nat → Nat → α} (hg : D.Reads g) :
    ({ C with val := D.val } : TDense α).WF ∧
    ∀ is js, InShape p is → InShape q js →
      ({ C with val := D.val } : TDense α).at_ (is ++ js) = .ok (g (rowMajor p is) (rowMajor q js)) := by
  have hw' : ({ C with val := D.val } : TDense α).WF := ⟨by rw [hl]; exact h.lenV, h.nnz_eq, h.window⟩
  refine ⟨hw', fun is js hi hj => ?_⟩
  rw [at_ok hw' (by rw [hs]; exact hi.append hj)]
  simp only [hs]
  rw [rowMajor_append hi]
  have := hg _ _ (by rw [hr]; exact rowMajor_lt hi) (by rw [hc]; exact rowMajor_lt hj)
  rw [Dense.at_eq_rd hw (by rw [hr]; exact rowMajor_lt hi) (by rw [hc]; exact rowMajor_lt hj)] at this
  rw [hf, hc, Nat.mul_comm] at this
  exact this

end TDense

open TDense

/-- what a contraction may change: only the elements of the result -/
structure SameObject (C C' : TDense α) : Prop where
  wf : C'.WF
  shape : C'.shape = C.shape
  rest : C' = { C with val := C'.val }
  frame : ∀ k, k < C.first ∨ C.first + C.nnz ≤ k → C'.val[k]? = C.val[k]?

/-- common part of the three matrix products -/
theorem contract_core [Semiring α] (a b : α) {Am Bm : Dense α} {C : TDense α} (hA : Am.WF) (hB : Bm.WF)
    (hC : C.WF) {p q : List Nat} (hs : C.shape = p ++ q) {n : Nat} (ha : Am.rowN = volume p)
    (hn : Am.colN = n) (hn' : Bm.rowN = n) (hb : Bm.colN = volume q)
    {e f : Nat → Nat → α} {c : List Nat → α} (he : Am.Reads e) (hf : Bm.Reads f) (hc : C.Reads c) :
    ∃ C', (do
        let Cm ← C.toDense Am.rowN Bm.colN
        let r ← Dense.matmulCore a Am Bm b Cm
        .ok { C with val := r.val }) = Res.ok C' ∧ SameObject C C' ∧
      ∀ is js, InShape p is → InShape q js → C'.at_ (is ++ js) =
        .ok (a * (∑ k ∈ Finset.range n, e (rowMajor p is) k * f k (rowMajor q js)) + b * c (is ++ js)) := by
  have hv : Am.rowN * Bm.colN = C.nnz := by rw [hC.nnz_eq, hs, volume_append, ha, hb]
  rw [toDense_both hv, Res.ok_bind]
  obtain ⟨D, h1, h2, ⟨h3, h4, h5⟩, h6, h7⟩ := C18_dense a b Am Bm (C.asDense Am.rowN Bm.colN) hA hB
    (asDense_wf hC hv) (by rw [hn, hn']) rfl rfl e f _ he hf
    (by rw [ha, hb]; exact asDense_reads hC hs hc)
  have hlen : D.val.length = C.val.length := by
    have key : ∀ k, C.first + C.nnz ≤ k → D.val[k]? = C.val[k]? := fun k hk => h7 k (Or.inr hk)
    have w1 := h2.window; have w2 := h2.lenV; have w3 := h2.nnz_eq
    have w4 := hC.window; have w5 := hC.lenV
    rw [h3, h4] at w3
    change D.nnz = Am.rowN * Bm.colN at w3
    change D.first = C.first at h5
    rw [hv] at w3
    by_contra hne
    rcases Nat.lt_or_gt_of_ne hne with hlt | hlt
    · have := key D.val.length (by omega)
      rw [List.getElem?_eq_none (by omega), List.getElem?_eq_getElem hlt] at this
      cases this
    · have := key C.val.length (by omega)
      rw [List.getElem?_eq_none (l := C.val) (by omega), List.getElem?_eq_getElem hlt] at this
      cases this
  obtain ⟨g1, g2⟩ := reads_of_dense hC hs h2 (by rw [h3]; exact ha) (by rw [h4]; exact hb) h5 hlen h6
  refine ⟨{ C with val := D.val }, by rw [h1]; rfl, ⟨g1, rfl, rfl, h7⟩, ?_⟩
  intro is js hi hj
  rw [g2 is js hi hj]
  simp only [mulMat, posOf_rowMajor hi, posOf_rowMajor hj, hn]

/-- **C39 (tensor × tensor).** `C(is, js) = a Σ_k A(is, k) B(k, js) + b C(is, js)` for tensors of every
rank; nothing but the elements of `C` changes. -/
theorem C39_tensmul [Semiring α] (a b : α) {A B C : TDense α} (hA : A.WF) (hB : B.WF) (hC : C.WF)
    {p q : List Nat} {n : Nat} (sA : A.shape = p ++ [n]) (sB : B.shape = n :: q) (sC : C.shape = p ++ q)
    (hn : 0 < n) {e f c : List Nat → α} (he : A.Reads e) (hf : B.Reads f) (hc : C.Reads c) :
    ∃ C', TDense.tensmul a A B b C = .ok C' ∧ SameObject C C' ∧
      ∀ is js, InShape p is → InShape q js → C'.at_ (is ++ js) =
        .ok (a * (∑ k ∈ Finset.range n, e (is ++ [k]) * f (k :: js)) + b * c (is ++ js)) := by
  have vA : volume p * n = A.nnz := by rw [hA.nnz_eq, sA, volume_append]; simp [volume]
  have vB : n * volume q = B.nnz := by rw [hB.nnz_eq, sB, volume_cons]
  have rA := asDense_reads hA sA he
  have rB := asDense_reads hB (p := [n]) (q := q) sB hf
  have v1 : volume [n] = n := by simp [volume]
  rw [v1] at rA rB
  obtain ⟨C', h1, h2, h3⟩ := contract_core a b (asDense_wf hA vA) (asDense_wf hB vB) hC sC rfl rfl rfl rfl
    rA rB hc
  refine ⟨C', ?_, h2, ?_⟩
  · unfold TDense.tensmul
    rw [sA, lastExtent_append, Res.ok_bind, toDense_row hA sA hn, Res.ok_bind, sB,
      show rd (n :: q) 0 = .ok n from rfl, Res.ok_bind, toDense_col hB sB hn, Res.ok_bind]
    exact h1
  · intro is js hi hj
    rw [h3 is js hi hj]
    congr 3
    apply Finset.sum_congr rfl
    intro k hk
    have hk' : InShape [n] [k] := by unfold InShape; simpa [asDense] using hk
    have e1 : posOf [n] k = [k] := by
      have := posOf_rowMajor hk'
      simpa [rowMajor, volume] using this
    rw [posOf_rowMajor hi, posOf_rowMajor hj, e1]; rfl

/-- **C39 (tensor × matrix).** `C(is, j) = a Σ_k A(is, k) B(k, j) + b C(is, j)`. -/
theorem C39_tensmat [Semiring α] (a b : α) {A C : TDense α} {B : Dense α} (hA : A.WF) (hB : B.WF)
    (hC : C.WF) {p : List Nat} (sA : A.shape = p ++ [B.rowN]) (sC : C.shape = p ++ [B.colN])
    (hn : 0 < B.rowN) {e c : List Nat → α} {f : Nat → Nat → α} (he : A.Reads e) (hf : B.Reads f)
    (hc : C.Reads c) :
    ∃ C', TDense.tensmat a A B b C = .ok C' ∧ SameObject C C' ∧
      ∀ is j, InShape p is → j < B.colN → C'.at_ (is ++ [j]) =
        .ok (a * (∑ k ∈ Finset.range B.rowN, e (is ++ [k]) * f k j) + b * c (is ++ [j])) := by
  have vA : volume p * B.rowN = A.nnz := by rw [hA.nnz_eq, sA, volume_append]; simp [volume]
  have rA := asDense_reads hA sA he
  have v1 : ∀ n, volume [n] = n := by simp [volume]
  rw [v1] at rA
  obtain ⟨C', h1, h2, h3⟩ := contract_core a b (asDense_wf hA vA) hB hC sC rfl rfl rfl (v1 _).symm
    rA hf hc
  refine ⟨C', ?_, h2, ?_⟩
  · unfold TDense.tensmat
    rw [sA, lastExtent_append, Res.ok_bind, toDense_row hA sA hn, Res.ok_bind]
    exact h1
  · intro is j hi hj
    have hj' : InShape [B.colN] [j] := by unfold InShape; simpa using hj
    rw [h3 is [j] hi hj']
    congr 3
    apply Finset.sum_congr rfl
    intro k hk
    have hk' : InShape [B.rowN] [k] := by unfold InShape; simpa [asDense] using hk
    have e1 : posOf [B.rowN] k = [k] := by
      have := posOf_rowMajor hk'
      simpa [rowMajor, volume] using this
    rw [posOf_rowMajor hi, e1]; simp [rowMajor, volume]

/-- **C39 (matrix × tensor).** `C(i, js) = a Σ_k A(i, k) B(k, js) + b C(i, js)`. -/
theorem C39_mattens [Semiring α] (a b : α) {A : Dense α} {B C : TDense α} (hA : A.WF) (hB : B.WF)
    (hC : C.WF) {q : List Nat} (sB : B.shape = A.colN :: q) (sC : C.shape = A.rowN :: q)
    (hn : 0 < A.colN) {e : Nat → Nat → α} {f c : List Nat → α} (he : A.Reads e) (hf : B.Reads f)
    (hc : C.Reads c) :
    ∃ C', TDense.mattens a A B b C = .ok C' ∧ SameObject C C' ∧
      ∀ i js, i < A.rowN → InShape q js → C'.at_ (i :: js) =
        .ok (a * (∑ k ∈ Finset.range A.colN, e i k * f (k :: js)) + b * c (i :: js)) := by
  have vB : A.colN * volume q = B.nnz := by rw [hB.nnz_eq, sB, volume_cons]
  have rB := asDense_reads hB (p := [A.colN]) (q := q) sB hf
  have v1 : ∀ n, volume [n] = n := by simp [volume]
  rw [v1] at rB
  obtain ⟨C', h1, h2, h3⟩ := contract_core a b hA (asDense_wf hB vB) hC (p := [A.rowN]) (q := q) sC
    (v1 _).symm rfl rfl rfl he rB hc
  refine ⟨C', ?_, h2, ?_⟩
  · unfold TDense.mattens
    rw [sB, show rd (A.colN :: q) 0 = .ok A.colN from rfl, Res.ok_bind, toDense_col hB sB hn, Res.ok_bind]
    exact h1
  · intro i js hi hj
    have hi' : InShape [A.rowN] [i] := by unfold InShape; simpa using hi
    have := h3 [i] js hi' hj
    rw [List.singleton_append] at this
    rw [this]
    congr 3
    apply Finset.sum_congr rfl
    intro k hk
    have hk' : InShape [A.colN] [k] := by unfold InShape; simpa using hk
    have e1 : posOf [A.colN] k = [k] := by
      have := posOf_rowMajor hk'
      simpa [rowMajor, volume] using this
    rw [posOf_rowMajor hj, e1]; simp [rowMajor, volume]

/-- **C39 (tensor × vector).** `y(is) = a Σ_k A(is, k) x(k) + b y(is)`. -/
theorem C39_tensvec [Semiring α] (a b : α) {A y : TDense α} {x : Win α} (hA : A.WF) (hy : y.WF)
    {p : List Nat} (sA : A.shape = p ++ [x.size]) (sy : y.shape = p) (hn : 0 < x.size)
    {e c : List Nat → α} {xs : Nat → α} (he : A.Reads e) (hx : ∀ k, k < x.size → x.get k = .ok (xs k))
    (hc : y.Reads c) :
    ∃ y', TDense.tensvec a A x b y = .ok y' ∧ SameObject y y' ∧
      ∀ is, InShape p is → y'.at_ is =
        .ok (a * (∑ k ∈ Finset.range x.size, e (is ++ [k]) * xs k) + b * c is) := by
  subst sy
  have vA : volume y.shape * x.size = A.nnz := by rw [hA.nnz_eq, sA, volume_append]; simp [volume]
  have rA := asDense_reads hA sA he
  have v1 : ∀ n, volume [n] = n := by simp [volume]
  rw [v1] at rA
  have hw := hy.window; have hl := hy.lenV
  obtain ⟨w, h1, h2, h3⟩ := (C17_dense (A.asDense (volume y.shape) x.size) (asDense_wf hA vA) x
    ⟨y.val, y.first, y.nnz⟩ a b _ rA (by unfold Win.Ok; simp only; omega) xs hx).1 rfl hy.nnz_eq
  have hw' : ({ y with val := w.buf } : TDense α).WF :=
    ⟨by rw [← hl]; exact h2.len, hy.nnz_eq, hy.window⟩
  refine ⟨{ y with val := w.buf }, ?_, ⟨hw', rfl, rfl, h2.frame⟩, ?_⟩
  · unfold TDense.tensvec
    rw [sA, lastExtent_append, Res.ok_bind, toDense_row hA sA hn, Res.ok_bind, h1]; rfl
  · intro is hi
    have hu := hc is hi
    rw [at_ok hy hi] at hu
    have := h3 (rowMajor y.shape is) (c is) (rowMajor_lt hi) hu
    unfold Win.get at this
    rw [h2.off] at this
    rw [at_ok hw' hi]
    refine this.trans ?_
    unfold mulVec
    congr 3
    apply Finset.sum_congr rfl
    intro k hk
    have hk' : InShape [x.size] [k] := by unfold InShape; simpa [asDense] using hk
    have e1 : posOf [x.size] k = [k] := by
      have := posOf_rowMajor hk'
      simpa [rowMajor, volume] using this
    simp only [posOf_rowMajor hi, e1]

/-- **C39 (different contracted extents).** No product is computed when the contracted extents differ or
when the result has the wrong number of elements. -/
theorem C39_sizes [Semiring α] (a b : α) {A B C : TDense α} (hA : A.WF) (hB : B.WF) {p q : List Nat}
    {n n' : Nat} (sA : A.shape = p ++ [n]) (sB : B.shape = n' :: q)
    (hn : 0 < n) (hn' : 0 < n') (hbad : n ≠ n' ∨ C.nnz ≠ volume (p ++ q)) :
    (∃ m, TDense.tensmul a A B b C = .throw m) ∨
      ∃ m, TDense.tensmul a A B b C = .abort m := by
  unfold TDense.tensmul
  rw [sA, lastExtent_append, Res.ok_bind, toDense_row hA sA hn, Res.ok_bind, sB,
      show rd (n' :: q) 0 = .ok n' from rfl, Res.ok_bind, toDense_col hB sB hn', Res.ok_bind]
  by_cases hc : (A.asDense (volume p) n).rowN * (B.asDense n' (volume q)).colN = C.nnz
  · right
    refine ⟨"assert", ?_⟩
    rw [toDense_both hc, Res.ok_bind]
    have : n ≠ n' := by
      rcases hbad with h | h
      · exact h
      · exact absurd (by rw [volume_append]; exact hc.symm) h
    unfold Dense.matmulCore
    rw [show cassert (decide ((A.asDense (volume p) n).colN = (B.asDense n' (volume q)).rowN)) = .abort "assert" by
      unfold cassert; rw [if_neg (by simp only [decide_eq_true_eq]; exact this)]]
    rfl
  · left
    obtain ⟨m, hm⟩ := toDense_both_throw hc
    exact ⟨m, by rw [hm]; rfl⟩

/-- **C39 violated (empty contraction).** When the contracted extent is 0 the sums are empty, so the result
should be `b C`; the code divides by zero instead. -/
theorem C39_empty_violated [Semiring α] (a b : α) {A B C : TDense α} {p : List Nat}
    (sA : A.shape = p ++ [0]) : ∃ m, TDense.tensmul a A B b C = .ub m := by
  refine ⟨"division by zero", ?_⟩
  unfold TDense.tensmul
  rw [sA, lastExtent_append, Res.ok_bind]
  rfl

/-- **C39 violated (shape of the result).** The shape of `C` is not checked: a 1 × 4 tensor is accepted as
the product of a 2 × 1 and a 1 × 2 tensor. -/
theorem C39_shape_violated : ∃ A B C C' : TDense Int, A.WF ∧ B.WF ∧ C.WF ∧ A.shape = [2, 1] ∧
    B.shape = [1, 2] ∧ C.shape = [1, 4] ∧ TDense.tensmul 1 A B 0 C = .ok C' ∧
    C'.at_ [0, 3] = .ok 15 ∧ (∃ m, C'.at_ [1, 1] = .abort m) :=
  ⟨⟨[2, 1], [2, 3], 2, 2, 0, true⟩, ⟨[1, 2], [4, 5], 2, 2, 0, true⟩, ⟨[1, 4], [0, 0, 0, 0], 4, 4, 0, true⟩,
    ⟨[1, 4], [8, 10, 12, 15], 4, 4, 0, true⟩, ⟨rfl, by decide, by decide⟩, ⟨rfl, by decide, by decide⟩,
    ⟨rfl, by decide, by decide⟩, rfl, rfl, rfl, by decide, by decide, ⟨_, rfl⟩⟩

/-- the hypotheses of the theorems above are met: a 2 × 1 × 2 tensor times a 2 × 2 tensor -/
example : TDense.tensmul (2 : Int) ⟨[2, 1, 2], [1, 2, 3, 4], 4, 4, 0, true⟩
    ⟨[2, 2], [5, 6, 7, 8], 4, 4, 0, true⟩ 1 ⟨[2, 1, 2], [1, 1, 1, 1], 4, 4, 0, true⟩ =
    .ok ⟨[2, 1, 2], [39, 45, 87, 101], 4, 4, 0, true⟩ := by decide

end Verif
