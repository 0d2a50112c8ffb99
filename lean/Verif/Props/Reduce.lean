import Verif.Model.Reduce
import Verif.Lemmas.CrsRows
import Verif.Lemmas.RowLoop
import Verif.Lemmas.DenseBasic
import Verif.Spec.LinAlg
import Mathlib.Algebra.Order.Ring.Int

/-!
C25: reductions do not depend on the partition of the iterations or the order of combination.
C43: maximum and minimum of a matrix.
-/

namespace Verif

open Spec

variable {α : Type}

/-! ### sums -/

theorem forList_sum [AddCommMonoid α] {f : Nat → α} {body : Nat → α → Res α} (l : List Nat)
    (hb : ∀ i ∈ l, ∀ acc, body i acc = .ok (acc + f i)) (z : α) :
    forList l body z = .ok (z + (l.map f).sum) := by
  induction l generalizing z with
  | nil => simp [forList]
  | cons i l ih =>
    unfold forList
    rw [hb i List.mem_cons_self, Res.ok_bind, ih (fun j hj => hb j (List.mem_cons_of_mem _ hj))]
    rw [List.map_cons, List.sum_cons, add_assoc]

theorem RTree.eval_sum [AddCommMonoid α] {f : Nat → α} {body : Nat → α → Res α} (t : RTree)
    (hb : ∀ i ∈ t.iters, ∀ acc, body i acc = .ok (acc + f i)) :
    t.eval 0 (· + ·) body = .ok ((t.iters.map f).sum) := by
  induction t with
  | thread l =>
    unfold RTree.eval
    rw [forList_sum l hb, zero_add]; rfl
  | node l r ihl ihr =>
    unfold RTree.eval
    rw [ihl (fun i hi => hb i (List.mem_append_left _ hi)), Res.ok_bind,
      ihr (fun i hi => hb i (List.mem_append_right _ hi)), Res.ok_bind]
    simp [RTree.iters]

theorem reduction_sum [AddCommMonoid α] {f : Nat → α} {body : Nat → α → Res α} {t : RTree} {N : Nat}
    (ht : t.Legal N) (hb : ∀ i, i < N → ∀ acc, body i acc = .ok (acc + f i)) :
    reduction t 0 0 (· + ·) body = .ok (∑ i ∈ Finset.range N, f i) := by
  unfold reduction
  rw [RTree.eval_sum t (fun i hi => hb i (by simpa using ht.mem_iff.mp hi)), Res.ok_bind]
  simp only
  rw [zero_add, (ht.map f).sum_eq]
  rfl

/-- **C25 (sum).** Over any commutative monoid, for every number of threads, every distribution of the
iterations and every order of combination, `sum` returns the sum of all elements. -/
theorem C25_sum [AddCommMonoid α] (t : RTree) (N : Nat) (ht : t.Legal N) (x : List α) (off : Nat)
    (f : Nat → α) (hf : ∀ i, i < N → x[off + i]? = some (f i)) :
    sumCore t x off = .ok (∑ i ∈ Finset.range N, f i) :=
  reduction_sum ht (fun i hi acc => by rw [rd_of_getElem? (hf i hi), Res.ok_bind])

/-- **C25 (nrm1, asum).** -/
theorem C25_nrm1 [AddCommMonoid α] (absf : α → α) (t : RTree) (N : Nat) (ht : t.Legal N) (x : List α)
    (off : Nat) (f : Nat → α) (hf : ∀ i, i < N → x[off + i]? = some (f i)) :
    nrm1Core absf t x off = .ok (∑ i ∈ Finset.range N, absf (f i)) :=
  reduction_sum ht (fun i hi acc => by rw [rd_of_getElem? (hf i hi), Res.ok_bind])

/-- **C25 (dot).** -/
theorem C25_dot [NonUnitalNonAssocSemiring α] (t : RTree) (N : Nat) (ht : t.Legal N) (x y : List α)
    (ox oy : Nat) (f g : Nat → α) (hf : ∀ i, i < N → x[ox + i]? = some (f i))
    (hg : ∀ i, i < N → y[oy + i]? = some (g i)) :
    dotCore t x ox N y oy N = .ok (∑ i ∈ Finset.range N, f i * g i) := by
  unfold dotCore
  rw [cassert_decide rfl, Res.ok_bind]
  exact reduction_sum ht (fun i hi acc => by
    rw [rd_of_getElem? (hf i hi), Res.ok_bind, rd_of_getElem? (hg i hi), Res.ok_bind])

/-- **C25 (dot, rejection).** Vectors of different length are rejected. -/
theorem C25_dot_sizes [Zero α] [Add α] [Mul α] (t : RTree) (x y : List α) (ox nx oy ny : Nat)
    (h : nx ≠ ny) : dotCore t x ox nx y oy ny = .abort "assert" := by
  unfold dotCore cassert
  rw [if_neg (by simpa using h)]; rfl

/-- **C25 (nrm2).** -/
theorem C25_nrm2 [NonUnitalNonAssocSemiring α] (sqrtf : α → α) (t : RTree) (N : Nat) (ht : t.Legal N)
    (x : List α) (ox : Nat) (f : Nat → α) (hf : ∀ i, i < N → x[ox + i]? = some (f i)) :
    nrm2Core sqrtf t x ox N = .ok (sqrtf (∑ i ∈ Finset.range N, f i * f i)) := by
  unfold nrm2Core
  rw [C25_dot t N ht x x ox ox f f hf hf, Res.ok_bind]

/-- three threads with 2, 0 and 3 iterations, out of order -/
example : (RTree.node (.thread [1, 4]) (.node (.thread []) (.thread [0, 2, 3]))).Legal 5 := by
  unfold RTree.Legal; decide

example : sumCore (RTree.node (.thread [1, 4]) (.node (.thread []) (.thread [0, 2, 3])))
    [9, 1, 2, 3, 4, (5 : Int)] 1 = .ok 15 := rfl

/-! ### maximum -/

section MaxMin
variable [LinearOrder α]

theorem stdMax_eq (a b : α) : stdMax a b = max a b := by
  unfold stdMax; split
  · rename_i h; rw [max_eq_right h.le]
  · rename_i h; rw [max_eq_left (not_lt.mp h)]

theorem stdMin_eq (a b : α) : stdMin a b = min a b := by
  unfold stdMin; split
  · rename_i h; rw [min_eq_right h.le]
  · rename_i h; rw [min_eq_left (not_lt.mp h)]

/-- `m` is an upper bound of `f` on `S` that is attained on `S` or equal to `z` -/
def MaxOf (f : Nat → α) (S : List Nat) (z m : α) : Prop :=
  z ≤ m ∧ (∀ i ∈ S, f i ≤ m) ∧ (m = z ∨ ∃ i ∈ S, m = f i)

theorem MaxOf.append {f : Nat → α} {S T : List Nat} {z m n : α} (h1 : MaxOf f S z m)
    (h2 : MaxOf f T z n) : MaxOf f (S ++ T) z (max m n) := by
  obtain ⟨a1, a2, a3⟩ := h1
  obtain ⟨b1, b2, b3⟩ := h2
  refine ⟨le_max_of_le_left a1, ?_, ?_⟩
  · intro i hi
    rcases List.mem_append.mp hi with hi | hi
    · exact le_max_of_le_left (a2 i hi)
    · exact le_max_of_le_right (b2 i hi)
  · rcases le_total m n with h | h
    · rw [max_eq_right h]
      rcases b3 with h | ⟨i, hi, h⟩
      · exact Or.inl h
      · exact Or.inr ⟨i, List.mem_append_right _ hi, h⟩
    · rw [max_eq_left h]
      rcases a3 with h | ⟨i, hi, h⟩
      · exact Or.inl h
      · exact Or.inr ⟨i, List.mem_append_left _ hi, h⟩

theorem RTree.eval_max {f : Nat → α} {body : Nat → α → Res α} {lo : α} (t : RTree)
    (hb : ∀ i ∈ t.iters, ∀ acc, body i acc = .ok (max acc (f i))) :
    ∃ m, t.eval lo stdMax body = .ok m ∧ MaxOf f t.iters lo m := by
  induction t with
  | thread l =>
    unfold RTree.eval
    have : ∀ (l : List Nat) z, (∀ i ∈ l, ∀ acc, body i acc = .ok (max acc (f i))) →
        ∃ m, forList l body z = .ok m ∧ MaxOf f l z m := by
      intro l
      induction l with
      | nil => intro z _; exact ⟨z, rfl, le_refl _, by simp, Or.inl rfl⟩
      | cons i l ih =>
        intro z hb
        obtain ⟨m, hm, h1, h2, h3⟩ := ih (max z (f i)) (fun j hj => hb j (List.mem_cons_of_mem _ hj))
        refine ⟨m, ?_, le_trans (le_max_left _ _) h1, ?_, ?_⟩
        · unfold forList; rw [hb i List.mem_cons_self, Res.ok_bind, hm]
        · intro j hj
          rcases List.mem_cons.mp hj with hj | hj
          · subst hj; exact le_trans (le_max_right _ _) h1
          · exact h2 j hj
        · rcases h3 with h3 | ⟨j, hj, h3⟩
          · rcases max_choice z (f i) with hc | hc
            · rw [hc] at h3; exact Or.inl h3
            · rw [hc] at h3; exact Or.inr ⟨i, List.mem_cons_self, h3⟩
          · exact Or.inr ⟨j, List.mem_cons_of_mem _ hj, h3⟩
    exact this l lo hb
  | node l r ihl ihr =>
    obtain ⟨m, hm, h1⟩ := ihl (fun i hi => hb i (List.mem_append_left _ hi))
    obtain ⟨n, hn, h2⟩ := ihr (fun i hi => hb i (List.mem_append_right _ hi))
    refine ⟨max m n, ?_, h1.append h2⟩
    unfold RTree.eval
    rw [hm, Res.ok_bind, hn, Res.ok_bind, stdMax_eq]

/-- **C25 (max).** For every legal execution of the reduction over a non-empty array, `vmax` returns the
greatest element. -/
theorem C25_max (lo : α) (t : RTree) (N : Nat) (hN : 0 < N) (ht : t.Legal N) (y : List α) (off : Nat)
    (f : Nat → α) (hf : ∀ i, i < N → y[off + i]? = some (f i)) (hlo : ∀ i, i < N → lo ≤ f i) :
    ∃ m, vmaxRed lo t y off = .ok m ∧ (∃ i, i < N ∧ m = f i) ∧ ∀ i, i < N → f i ≤ m := by
  have hmem : ∀ i, i ∈ t.iters ↔ i < N := fun i => by
    rw [ht.mem_iff, List.mem_range]
  obtain ⟨m, hm, h1, h2, h3⟩ := RTree.eval_max (f := f) (lo := lo)
    (body := fun i mx => do
      let u ← rd y (off + i)
      .ok (if u > mx then u else mx)) t (by
      intro i hi acc
      rw [rd_of_getElem? (hf i ((hmem i).mp hi)), Res.ok_bind]
      congr 1
      exact stdMax_eq acc (f i))
  unfold vmaxRed reduction
  rw [rd_of_getElem? (hf 0 hN), Res.ok_bind, hm, Res.ok_bind, stdMax_eq]
  refine ⟨_, rfl, ?_, ?_⟩
  · rcases max_choice (f 0) m with hc | hc
    · exact ⟨0, hN, hc⟩
    · rw [hc]
      rcases h3 with h3 | ⟨i, hi, h3⟩
      · refine ⟨0, hN, ?_⟩
        rw [← hc, h3]
        exact max_eq_left (hlo 0 hN)
      · exact ⟨i, (hmem i).mp hi, h3⟩
  · intro i hi
    exact le_max_of_le_right (h2 i ((hmem i).mpr hi))

example : vmaxRed (-1000) (RTree.node (.thread [1, 2]) (.node (.thread []) (.thread [0])))
    [0, -7, -3, (-5 : Int)] 1 = .ok (-3) := rfl

/-- minimum as a maximum in the reversed order -/
theorem RTree.eval_dual (hi : α) (body : Nat → α → Res α) (t : RTree) :
    t.eval hi stdMin body =
      (RTree.eval (α := αᵒᵈ) hi (stdMax (α := αᵒᵈ)) body t : Res αᵒᵈ) := by
  induction t with
  | thread l => rfl
  | node l r ihl ihr =>
    unfold RTree.eval
    rw [ihl, ihr]
    rfl

/-- **C25 (min).** -/
theorem C25_min (hi : α) (t : RTree) (N : Nat) (hN : 0 < N) (ht : t.Legal N) (y : List α) (off : Nat)
    (f : Nat → α) (hf : ∀ i, i < N → y[off + i]? = some (f i)) (hhi : ∀ i, i < N → f i ≤ hi) :
    ∃ m, vminRed hi t y off = .ok m ∧ (∃ i, i < N ∧ m = f i) ∧ ∀ i, i < N → m ≤ f i := by
  have := C25_max (α := αᵒᵈ) hi t N hN ht y off f hf hhi
  obtain ⟨m, hm, h1, h2⟩ := this
  have e : vminRed hi t y off = (vmaxRed (α := αᵒᵈ) hi t y off : Res αᵒᵈ) := by
    unfold vminRed vmaxRed reduction
    simp only [RTree.eval_dual]
    rfl
  exact ⟨m, e.trans hm, h1, h2⟩

/-- **C25 (negation for empty input).** `max` of an empty vector reads past its storage, whatever the
schedule. -/
theorem C25_max_empty_violated (lo : α) (t : RTree) : ∃ msg, vmaxRed lo t [] 0 = .ub msg :=
  ⟨_, rfl⟩

theorem C25_min_empty_violated (hi : α) (t : RTree) : ∃ msg, vminRed hi t [] 0 = .ub msg :=
  ⟨_, rfl⟩

/-! ### C43 -/

theorem Dense.flat {C : Dense α} (hC : C.WF) [Inhabited α] : ∃ f : Nat → α,
    (∀ k, k < C.nnz → C.val[C.first + k]? = some (f k)) ∧
    (∀ i j, i < C.rowN → j < C.colN → C.colN * i + j < C.nnz ∧ C.at_ i j = .ok (f (C.colN * i + j))) ∧
    (∀ k, k < C.nnz → ∃ i j, i < C.rowN ∧ j < C.colN ∧ C.at_ i j = .ok (f k)) := by
  have c1 := hC.lenV; have c2 := hC.window; have c3 := hC.nnz_eq
  have hf : ∀ k, k < C.nnz → C.val[C.first + k]? = some (C.val.getD (C.first + k) default) := by
    intro k hk
    rw [List.getD_eq_getElem?_getD, List.getElem?_eq_getElem (by omega)]; rfl
  refine ⟨fun k => C.val.getD (C.first + k) default, hf, ?_, ?_⟩
  · intro i j hi hj
    have hlt : C.colN * i + j < C.nnz := by rw [c3]; exact idx_lt hi hj
    exact ⟨hlt, Dense.at_of_getElem? hC hi hj (hf _ hlt)⟩
  · intro k hk
    obtain ⟨d1, d2, d3⟩ := idx_decomp (n := k) (M := C.rowN) (N := C.colN) (by omega)
    refine ⟨_, _, d1, d2, Dense.at_of_getElem? hC d1 d2 ?_⟩
    rw [d3]; exact hf k hk

/-- **C43 (Dense, max).** `vml::max` of a non-empty dense matrix (also an alias at an offset) is an
element of it, and no element is greater, for every execution of the parallel reduction. -/
theorem C43_dense_max [Zero α] (lo : α) (t : RTree) (C : Dense α) (hC : C.WF) (h0 : 0 < C.nnz)
    (ht : t.Legal C.nnz) (hlo : ∀ i j v, i < C.rowN → j < C.colN → C.at_ i j = .ok v → lo ≤ v) :
    ∃ m, C.maxEl lo t = .ok m ∧ (∃ i j, i < C.rowN ∧ j < C.colN ∧ C.at_ i j = .ok m) ∧
      ∀ i j v, i < C.rowN → j < C.colN → C.at_ i j = .ok v → v ≤ m := by
  have : Inhabited α := ⟨0⟩
  obtain ⟨f, q1, q2, q3⟩ := Dense.flat hC
  obtain ⟨m, hm, ⟨k, hk, hmk⟩, h2⟩ := C25_max lo t C.nnz h0 ht C.val C.first f q1
    (fun k hk => by obtain ⟨i, j, a, b, c⟩ := q3 k hk; exact hlo i j _ a b c)
  refine ⟨m, ?_, ?_, ?_⟩
  · unfold Dense.maxEl mmaxCore; rw [hm]; rfl
  · rw [hmk]; exact q3 k hk
  · intro i j v hi hj hv
    obtain ⟨r1, r2⟩ := q2 i j hi hj
    rw [r2] at hv; injection hv with hv
    rw [← hv]; exact h2 _ r1

/-- **C43 (Dense, min).** -/
theorem C43_dense_min [Zero α] (hi : α) (t : RTree) (C : Dense α) (hC : C.WF) (h0 : 0 < C.nnz)
    (ht : t.Legal C.nnz) (hhi : ∀ i j v, i < C.rowN → j < C.colN → C.at_ i j = .ok v → v ≤ hi) :
    ∃ m, C.minEl hi t = .ok m ∧ (∃ i j, i < C.rowN ∧ j < C.colN ∧ C.at_ i j = .ok m) ∧
      ∀ i j v, i < C.rowN → j < C.colN → C.at_ i j = .ok v → m ≤ v := by
  have : Inhabited α := ⟨0⟩
  obtain ⟨f, q1, q2, q3⟩ := Dense.flat hC
  obtain ⟨m, hm, ⟨k, hk, hmk⟩, h2⟩ := C25_min hi t C.nnz h0 ht C.val C.first f q1
    (fun k hk => by obtain ⟨i, j, a, b, c⟩ := q3 k hk; exact hhi i j _ a b c)
  refine ⟨m, ?_, ?_, ?_⟩
  · unfold Dense.minEl mminCore; rw [hm]; rfl
  · rw [hmk]; exact q3 k hk
  · intro i j v hi' hj hv
    obtain ⟨r1, r2⟩ := q2 i j hi' hj
    rw [r2] at hv; injection hv with hv
    rw [← hv]; exact h2 _ r1

/-- **C43 (view, what holds).** For a dense view of `N > 0` elements the result is the greatest element
if some element is not negative. -/
theorem C43_view_partial [Zero α] (lo : α) (t : RTree) (N : Nat) (hN : 0 < N) (ht : t.Legal N)
    (y : List α) (first : Nat) (f : Nat → α) (hf : ∀ i, i < N → y[first + i]? = some (f i))
    (hlo : ∀ i, i < N → lo ≤ f i) (h0 : ∃ i, i < N ∧ 0 ≤ f i) :
    ∃ m, viewMaxEl lo t y first = .ok m ∧ (∃ i, i < N ∧ m = f i) ∧ ∀ i, i < N → f i ≤ m := by
  obtain ⟨m, hm, h1, h2⟩ := C25_max lo t N hN ht y first f hf hlo
  refine ⟨m, ?_, h1, h2⟩
  obtain ⟨i, hi, hz⟩ := h0
  unfold viewMaxEl mmaxCore
  rw [hm, Res.ok_bind, stdMax_eq, max_eq_left (le_trans hz (h2 i hi))]
  rfl

theorem sumAt_distinct [AddMonoid α] {L : List (Entry α)} (hd : DistinctPos L) {e : Entry α}
    (he : e ∈ L) : sumAt L e.1 e.2.1 = e.2.2 := by
  induction L with
  | nil => cases he
  | cons a L ih =>
    rw [DistinctPos, List.pairwise_cons] at hd
    obtain ⟨h1, h2⟩ := hd
    unfold sumAt
    rcases List.mem_cons.mp he with he | he
    · subst he
      have hnil : L.filter (fun x => x.1 == e.1 && x.2.1 == e.2.1) = [] := by
        rw [List.filter_eq_nil_iff]
        intro x hx hc
        simp only [Bool.and_eq_true, beq_iff_eq] at hc
        exact h1 x hx ⟨hc.1.symm, hc.2.symm⟩
      rw [List.filter_cons_of_pos (by simp), hnil]
      simp
    · rw [List.filter_cons_of_neg]
      · exact ih h2 he
      · simp only [Bool.and_eq_true, beq_iff_eq]
        exact h1 e he

theorem sumAt_absent [AddMonoid α] {L : List (Entry α)} {i j : Nat}
    (h : ∀ e ∈ L, ¬ (e.1 = i ∧ e.2.1 = j)) : sumAt L i j = 0 := by
  unfold sumAt
  have : L.filter (fun x => x.1 == i && x.2.1 == j) = [] := by
    rw [List.filter_eq_nil_iff]
    intro x hx hc
    simp only [Bool.and_eq_true, beq_iff_eq] at hc
    exact h x hx hc
  rw [this]; rfl

/-- **C43 (CRS, what holds).** For a CRS matrix with at least one stored entry, no position stored twice
and at least one position not stored, `vml::max` is the greatest element of the represented matrix. -/
theorem C43_crs_max_partial [AddMonoid α] (lo : α) (t : RTree) (A : Crs α) (hA : A.Tiled)
    (h0 : 0 < A.nnz) (ht : t.Legal A.nnz) (hd : DistinctPos A.entries)
    (hlo : ∀ e ∈ A.entries, lo ≤ e.2.2)
    (i0 j0 : Nat) (hi0 : i0 < A.rowN) (hj0 : j0 < A.colN)
    (hfree : ∀ e ∈ A.entries, ¬ (e.1 = i0 ∧ e.2.1 = j0)) :
    ∃ m, A.maxEl lo t = .ok m ∧ (∃ i j, i < A.rowN ∧ j < A.colN ∧ m = crsAt A i j) ∧
      ∀ i j, i < A.rowN → j < A.colN → crsAt A i j ≤ m := by
  have hv := hA.lenV; have hle := hA.nnz_le
  have hlen := hA.length_entries
  have hpairs := hA.entries_pairs
  -- stored value `k` is entry `k`
  have hval : ∀ k (hk : k < A.nnz), A.val[k]? = some (A.entries[k]'(by omega)).2.2 := by
    intro k hk
    have : A.pairs[k]? = some (A.entries[k]'(by omega)).2 := by
      rw [← hpairs, List.getElem?_map, List.getElem?_eq_getElem (by omega)]; rfl
    have h2 := (Crs.rd_col_of_pair this).2
    rwa [rd_eq_ok] at h2
  have hrow : ∀ e ∈ A.entries, e.1 < A.rowN ∧ e.2.1 < A.colN := by
    exact fun e he => hA.toSafe.col_lt_of_mem he
  let f : Nat → α := fun k => (A.entries[k]?.map (·.2.2)).getD 0
  have hf : ∀ k, (hk : k < A.nnz) → f k = (A.entries[k]'(by omega)).2.2 := by
    intro k hk
    simp only [f]
    rw [List.getElem?_eq_getElem (by omega)]; rfl
  obtain ⟨m, hm, ⟨k, hk, hmk⟩, h2⟩ := C25_max lo t A.nnz h0 ht A.val 0 f
    (fun i hi => by rw [Nat.zero_add, hval i hi, hf i hi])
    (fun i hi => by rw [hf i hi]; exact hlo _ (List.getElem_mem _))
  refine ⟨max m 0, ?_, ?_, ?_⟩
  · unfold Crs.maxEl mmaxCore; rw [hm, Res.ok_bind, stdMax_eq]; rfl
  · rcases max_choice m 0 with hc | hc
    · rw [hc, hmk, hf k hk]
      have he := List.getElem_mem (l := A.entries) (n := k) (by omega)
      exact ⟨_, _, (hrow _ he).1, (hrow _ he).2, (sumAt_distinct hd he).symm⟩
    · rw [hc]
      exact ⟨i0, j0, hi0, hj0, (sumAt_absent hfree).symm⟩
  · intro i j hi hj
    by_cases hs : ∃ e ∈ A.entries, e.1 = i ∧ e.2.1 = j
    · obtain ⟨e, he, h1, h3⟩ := hs
      subst h1; subst h3
      unfold crsAt
      rw [sumAt_distinct hd he]
      obtain ⟨n, hn, hen⟩ := List.getElem_of_mem he
      have := h2 n (by omega)
      rw [hf n (by omega), hen] at this
      exact le_max_of_le_left this
    · have : crsAt A i j = 0 := sumAt_absent (fun e he hc => hs ⟨e, he, hc⟩)
      rw [this]
      exact le_max_right _ _

/-- a 2 x 2 CRS matrix with two stored negative entries: the maximum is the absent 0 -/
example : Crs.maxEl (-1000) (.node (.thread [1]) (.thread [0]))
    (⟨2, 2, [0, 1, 2], [1, 0], [-3, -5], 2, 2, true⟩ : Crs Int) = .ok 0 := rfl

example : let A : Crs Int := ⟨2, 2, [0, 1, 2], [1, 0], [-3, -5], 2, 2, true⟩
    A.Tiled ∧ 0 < A.nnz ∧ (RTree.node (.thread [1]) (.thread [0])).Legal A.nnz ∧ DistinctPos A.entries ∧
      (∀ e ∈ A.entries, -1000 ≤ e.2.2) ∧ ∀ e ∈ A.entries, ¬ (e.1 = 0 ∧ e.2.1 = 0) := by
  refine ⟨?_, by decide, by unfold RTree.Legal; decide, by decide, by decide, by decide⟩
  apply Crs.WF.tiled
  exact { created := rfl, lenV := rfl, nnz_le := by decide, lenP := rfl, ptr_le := by decide,
          lenC := by decide, col_lt := by decide, ptr_zero := rfl, ptr_last := rfl,
          ptr_mono := by decide }

/-- **C43 (negation for views).** A view of the single element -1: `max` returns 0. -/
theorem C43_view_violated : ∃ (t : RTree) (y : List Int),
    t.Legal 1 ∧ y = [-1] ∧ viewMaxEl (-1000) t y 0 = .ok 0 :=
  ⟨.thread [0], [-1], List.Perm.refl _, rfl, rfl⟩

/-- **C43 (negation for CRS).** A full 1 x 1 CRS matrix holding -1: `max` returns 0; and a CRS matrix
without stored entries (representing a zero matrix, with maximum 0): `max` reads out of bounds. -/
theorem C43_crs_violated : ∃ (A B : Crs Int) (t : RTree), A.WF ∧ B.WF ∧ t.Legal A.nnz ∧
    crsAt A 0 0 = -1 ∧ A.rowN = 1 ∧ A.colN = 1 ∧ A.maxEl (-1000) t = .ok 0 ∧
    B.rowN = 1 ∧ B.colN = 1 ∧ crsAt B 0 0 = 0 ∧
    ∃ msg, B.maxEl (-1000) (.thread []) = .ub msg := by
  refine ⟨⟨1, 1, [0, 1], [0], [-1], 1, 1, true⟩, ⟨1, 1, [0, 0], [], [], 0, 0, true⟩, .thread [0],
    ?_, ?_, List.Perm.refl _, rfl, rfl, rfl, rfl, rfl, rfl, rfl, _, rfl⟩
  all_goals
    exact { created := rfl, lenV := rfl, nnz_le := by decide, lenP := rfl, ptr_le := by decide,
            lenC := by decide, col_lt := by decide, ptr_zero := rfl, ptr_last := rfl,
            ptr_mono := by decide }

end MaxMin
end Verif
