import Verif.Model.Hash
import Verif.Lemmas.CrsRows
import Verif.Lemmas.DenseBasic
import Mathlib.Algebra.Group.Basic
import Mathlib.Algebra.Group.Int.Defs

/-!
C14: the structure hash.  C15: `matadd` / `matsub`.
-/

namespace Verif

open Spec

variable {α : Type}

/-! ### C14 -/

/-- **C14 (violated: separation).** The hash of *every* CRS matrix depends only on the number of rows
and the lengths of the two structure arrays: any two matrices for which these agree get the same
hash, whatever their structure, for every schedule. -/
theorem C14_ignores_contents (sch : Nat → Sched) (A B : Crs α) (hr : A.rowN = B.rowN)
    (hp : A.rowPtr.length = B.rowPtr.length) (hc : A.colInd.length = B.colInd.length) :
    A.computeHash sch = B.computeHash sch := by
  unfold Crs.computeHash
  rw [hr, hp, hc]
  rfl

/-- two different well-formed structures with the same hash, for every schedule -/
theorem C14_separates_violated :
    ∃ A B : Crs Int, A.WF ∧ B.WF ∧ A.rowN = B.rowN ∧ A.colN = B.colN ∧
      A.entries.map (fun e => (e.1, e.2.1)) ≠ B.entries.map (fun e => (e.1, e.2.1)) ∧
      ∀ sch, A.computeHash sch = B.computeHash sch := by
  refine ⟨⟨2, 2, [0, 1, 2], [0, 1], [1, 1], 2, 2, true⟩, ⟨2, 2, [0, 0, 2], [0, 1], [1, 1], 2, 2, true⟩,
    ?_, ?_, rfl, rfl, by decide, fun sch => C14_ignores_contents sch _ _ rfl rfl rfl⟩
  all_goals
    exact { created := rfl, lenV := rfl, nnz_le := by decide, lenP := rfl, ptr_le := by decide,
            lenC := by decide, col_lt := by decide, ptr_zero := rfl, ptr_last := rfl,
            ptr_mono := by decide }

/-- all iterations on one thread -/
def oneThread (N : Nat) : Sched := [List.range N]

/-- the static schedule with two threads: the first half and the second half -/
def twoThreads (N : Nat) : Sched := [List.range (N / 2), List.range' (N / 2) (N - N / 2)]

theorem oneThread_legal (N : Nat) : (oneThread N).Legal N :=
  ⟨by simp [oneThread], by simp [oneThread, List.pairwise_lt_range]⟩

theorem twoThreads_legal (N : Nat) : (twoThreads N).Legal N := by
  constructor
  · have : (twoThreads N).flatten = List.range N := by
      simp only [twoThreads, List.flatten_cons, List.flatten_nil, List.append_nil, List.range_eq_range']
      have h := List.range'_append (s := 0) (m := N / 2) (n := N - N / 2) (step := 1)
      simp only [Nat.one_mul, Nat.zero_add] at h
      rw [h]; congr 1; omega
    rw [this]
  · intro t ht
    simp only [twoThreads, List.mem_cons, List.not_mem_nil, or_false] at ht
    rcases ht with rfl | rfl
    · exact List.pairwise_lt_range
    · exact List.pairwise_lt_range'

/-- **C14 (violated: reproducibility).** The hash of the same matrix differs between one thread and
two threads, both with contiguous (static) schedules. -/
theorem C14_schedule_violated :
    ∃ A : Crs Int, A.WF ∧ A.computeHash oneThread ≠ A.computeHash twoThreads := by
  refine ⟨⟨1, 1, [0, 1], [0], [1], 1, 1, true⟩, ?_, by decide⟩
  exact { created := rfl, lenV := rfl, nnz_le := by decide, lenP := rfl, ptr_le := by decide,
          lenC := by decide, col_lt := by decide, ptr_zero := rfl, ptr_last := rfl,
          ptr_mono := by decide }

/-- **C14 (same schedule).** Equal structure arrays give equal hashes as long as the runtime uses the
same schedule for equal trip counts. Missing from the full property: independence of the schedule
(fails, `C14_schedule_violated`) and separation of structures (fails, `C14_ignores_contents`). -/
theorem C14_same_structure_partial (sch : Nat → Sched) (A B : Crs α) (hr : A.rowN = B.rowN)
    (hp : A.rowPtr = B.rowPtr) (hc : A.colInd = B.colInd) : A.computeHash sch = B.computeHash sch :=
  C14_ignores_contents sch A B hr (by rw [hp]) (by rw [hc])

example : (⟨1, 1, [0, 1], [0], [1], 1, 1, true⟩ : Crs Int).computeHash oneThread =
    (⟨1, 1, [0, 1], [0], [7], 1, 1, true⟩ : Crs Int).computeHash oneThread :=
  C14_same_structure_partial _ _ _ rfl rfl rfl

/-- **C14 (combination order).** For a fixed assignment of iterations to threads, the order in which
the threads' private results are combined does not matter. -/
theorem C14_combine_order (s t : Sched) (y : List Nat) (seed : BitVec 64) (h : s.Perm t) :
    vhash s y seed = vhash t y seed := by
  unfold vhash
  apply List.Perm.foldl_eq' h
  intro a _ b _ z
  rw [BitVec.xor_assoc, BitVec.xor_assoc, BitVec.xor_comm (List.foldl _ _ a)]

/-! ### C15 -/

theorem vbin_ok (op : α → α → α) {N oa ob oy : Nat} {a b y : List α} (ha : oa + N ≤ a.length)
    (hb : ob + N ≤ b.length) (hy : oy + N ≤ y.length) :
    ∃ y', vbin op N a oa b ob y oy = .ok y' ∧ y'.length = y.length ∧
      (∀ k u v, k < N → a[oa + k]? = some u → b[ob + k]? = some v → y'[oy + k]? = some (op u v)) ∧
      (∀ k, k < oy ∨ oy + N ≤ k → y'[k]? = y[k]?) := by
  have := forN_sat (n := N) (s := y)
    (body := fun i y => do
      let u ← rd a (oa + i)
      let v ← rd b (ob + i)
      wr y (oy + i) (op u v))
    (fun i y' => y'.length = y.length ∧
      (∀ k u v, k < i → a[oa + k]? = some u → b[ob + k]? = some v → y'[oy + k]? = some (op u v)) ∧
      (∀ k, k < oy ∨ oy + i ≤ k → y'[k]? = y[k]?)) ⟨rfl, by intros; omega, by intros; rfl⟩
    (by
      rintro i y' hi ⟨h1, h2, h3⟩
      simp only [rd_ok (show oa + i < a.length by omega), rd_ok (show ob + i < b.length by omega),
        Res.ok_bind, wr_ok (show oy + i < y'.length by omega), Res.sat_ok]
      refine ⟨by simp [h1], ?_, ?_⟩
      · intro k u v hk hu hv
        rw [List.getElem?_set]
        by_cases hki : k = i
        · subst hki
          rw [if_pos rfl, if_pos (by omega)]
          rw [List.getElem?_eq_getElem (by omega)] at hu hv
          cases hu; cases hv; rfl
        · rw [if_neg (by omega)]
          exact h2 k u v (by omega) hu hv
      · intro k hk
        rw [List.getElem?_set, if_neg (by omega)]
        exact h3 k (by omega))
  obtain ⟨y', h, h'⟩ := this
  exact ⟨y', h, h'⟩

/-- `A` and `B` have the same dimensions and the same stored positions, array by array -/
structure SameStructure (A B : Crs α) : Prop where
  row : A.rowN = B.rowN
  col : A.colN = B.colN
  nnz : A.nnz = B.nnz
  ptr : A.rowPtr = B.rowPtr
  ind : A.colInd.take A.nnz = B.colInd.take A.nnz

theorem entries_pos_eq {A B : Crs α} (hA : A.Safe) (hB : B.Safe) (h : SameStructure A B) :
    A.entries.map (fun e => (e.1, e.2.1)) = B.entries.map (fun e => (e.1, e.2.1)) := by
  have key : ∀ {A : Crs α} (_ : A.Safe) {i : Nat} (_ : i < A.rowN),
      (A.rowEntries i).map (fun e => (e.1, e.2.1)) =
        (((A.colInd.take A.nnz).take (A.ptr (i + 1))).drop (A.ptr i)).map (fun c => (i, c)) := by
    intro A hA i hi
    have h1 := hA.ptr_le (i + 1) (by omega)
    have a1 := hA.lenV; have a2 := hA.nnz_le; have a3 := hA.lenC
    unfold Crs.rowEntries
    rw [List.map_map]
    have : (fun e : Entry α => (e.1, e.2.1)) ∘ (fun p : Nat × α => ((i, p.1, p.2) : Entry α)) =
        (fun c => (i, c)) ∘ Prod.fst := rfl
    rw [this, ← List.map_map]
    congr 1
    rw [List.map_drop, take_zip, List.map_fst_zip (by simp; omega), List.take_take,
      Nat.min_eq_left h1]
  unfold Crs.entries
  rw [List.map_flatMap, List.map_flatMap, h.row]
  rw [List.flatMap_def, List.flatMap_def]
  congr 1
  apply List.map_congr_left
  intro i hi
  simp only [List.mem_range] at hi
  have hp : A.ptr = B.ptr := by funext k; simp [Crs.ptr, h.ptr]
  rw [key hA (by rw [h.row]; exact hi), key hB hi, hp, h.ind, h.nnz]

/-- entry-wise combination of two lists of entries with the same positions -/
def combine (op : α → α → α) (L L' : List (Entry α)) : List (Entry α) :=
  List.zipWith (fun a b => (a.1, a.2.1, op a.2.2 b.2.2)) L L'

theorem sumAt_combine [AddCommMonoid α] (op : α → α → α)
    (h0 : op 0 0 = 0) (hadd : ∀ a b c d, op (a + b) (c + d) = op a c + op b d)
    (L L' : List (Entry α)) (h : L.map (fun e => (e.1, e.2.1)) = L'.map (fun e => (e.1, e.2.1)))
    (i j : Nat) : sumAt (combine op L L') i j = op (sumAt L i j) (sumAt L' i j) := by
  induction L generalizing L' with
  | nil =>
    cases L' with
    | nil => simp [combine, sumAt, h0]
    | cons b L' => simp at h
  | cons a L ih =>
    cases L' with
    | nil => simp at h
    | cons b L' =>
      simp only [List.map_cons, List.cons.injEq, Prod.mk.injEq] at h
      have := ih L' h.2
      simp only [combine, List.zipWith_cons_cons, sumAt, List.filter_cons] at this ⊢
      rw [← h.1.1, ← h.1.2]
      split
      · simp only [List.map_cons, List.foldr_cons, this, hadd]
      · exact this

/-- The result of `matOp` on three matrices of the same structure. -/
theorem matOp_entries (op : α → α → α) (A B C : HCrs α) (hA : A.mat.Tiled) (hB : B.mat.Tiled)
    (hC : C.mat.Tiled) (hAB : SameStructure A.mat B.mat) (hAC : SameStructure A.mat C.mat)
    (h1 : A.hash = B.hash) (h2 : A.hash = C.hash) :
    ∃ C', HCrs.matOp op A B C = .ok C' ∧ C'.mat.Tiled ∧ SameStructure A.mat C'.mat ∧
      C'.hash = C.hash ∧ C'.mat.entries = combine op A.mat.entries B.mat.entries := by
  have a1 := hA.lenV; have a2 := hA.nnz_le
  have b1 := hB.lenV; have b2 := hB.nnz_le
  have c1 := hC.lenV; have c2 := hC.nnz_le
  have eB := hAB.nnz; have eC := hAC.nnz
  obtain ⟨V, hV, hl, hval, _⟩ := vbin_ok op (N := A.mat.nnz) (oa := 0) (ob := 0) (oy := 0)
    (a := A.mat.val) (b := B.mat.val) (y := C.mat.val) (by omega) (by omega) (by omega)
  unfold HCrs.matOp
  rw [cassert_decide ⟨hAB.row, hAB.col⟩, Res.ok_bind, cassert_decide ⟨hAC.row, hAC.col⟩, Res.ok_bind,
    cassert_of (by simp [HCrs.isSameStructure, h1, hAB.row, hAB.col]), Res.ok_bind,
    cassert_of (by simp [HCrs.isSameStructure, h2, hAC.row, hAC.col]), Res.ok_bind, hV, Res.ok_bind]
  have hT : ({ C.mat with val := V } : Crs α).Tiled :=
    { created := hC.created, lenV := by simp only; omega, nnz_le := hC.nnz_le, lenP := hC.lenP,
      ptr_le := hC.ptr_le, lenC := hC.lenC, col_lt := hC.col_lt, tile := hC.tile }
  have hS : SameStructure A.mat ({ C.mat with val := V } : Crs α) :=
    ⟨hAC.row, hAC.col, hAC.nnz, hAC.ptr, hAC.ind⟩
  refine ⟨_, rfl, hT, hS, rfl, ?_⟩
  have hpB := entries_pos_eq hA.toSafe hB.toSafe hAB
  have hpC := entries_pos_eq hA.toSafe hT.toSafe hS
  have pA := hA.entries_pairs; have pB := hB.entries_pairs; have pC := hT.entries_pairs
  have lA := hA.length_entries; have lB := hB.length_entries; have lC := hT.length_entries
  simp only at lC
  dsimp only
  apply List.ext_getElem
  · simp only [combine, List.length_zipWith, lA, lB, lC]; omega
  · intro k hk hk'
    simp only [combine, List.getElem_zipWith]
    have q1 : k < A.mat.entries.length := by omega
    have q2 : k < B.mat.entries.length := by omega
    have e1 := congrArg (·[k]?) hpC
    simp only [List.getElem?_map, List.getElem?_eq_getElem q1, List.getElem?_eq_getElem hk,
      Option.map_some] at e1
    have f1 := congrArg (·[k]?) pA
    have f2 := congrArg (·[k]?) pB
    have f3 := congrArg (·[k]?) pC
    simp only [List.getElem?_map, List.getElem?_eq_getElem q1, List.getElem?_eq_getElem q2,
      List.getElem?_eq_getElem hk, Option.map_some] at f1 f2 f3
    have g1 := (Crs.rd_col_of_pair f1.symm).2
    have g2 := (Crs.rd_col_of_pair f2.symm).2
    have g3 := (Crs.rd_col_of_pair f3.symm).2
    rw [rd_eq_ok] at g1 g2 g3
    have := hval k _ _ (by omega) (by rw [Nat.zero_add]; exact g1) (by rw [Nat.zero_add]; exact g2)
    rw [Nat.zero_add] at this
    simp only at g3
    rw [this] at g3
    injection g3 with g3
    injection e1 with e1
    simp only [Prod.mk.injEq] at e1
    rw [g3, e1.1, e1.2]

/-- **C15 (matadd).** For all CRS matrices `A`, `B`, `C` of the same structure (with hashes computed
under the same schedule), `matadd(A, B, C)` completes, keeps `C`'s structure, and `C` then represents
`A + B`: at every position, the stored value of `C` is the sum of the stored values. -/
theorem C15_matadd_partial [AddCommMonoid α] (sch : Nat → Sched) (A B C : Crs α) (hA : A.Tiled)
    (hB : B.Tiled) (hC : C.Tiled) (hAB : SameStructure A B) (hAC : SameStructure A C)
    (hlB : A.colInd.length = B.colInd.length) (hlC : A.colInd.length = C.colInd.length) :
    ∃ C', HCrs.matOp (· + ·) (.make sch A) (.make sch B) (.make sch C) = .ok C' ∧
      SameStructure A C'.mat ∧
      ∀ i j, sumAt C'.mat.entries i j = sumAt A.entries i j + sumAt B.entries i j := by
  obtain ⟨C', h, _, hS, _, he⟩ := matOp_entries (· + ·) (.make sch A) (.make sch B) (.make sch C)
    hA hB hC hAB hAC
    (C14_ignores_contents sch _ _ hAB.row (by rw [hAB.ptr]) hlB)
    (C14_ignores_contents sch _ _ hAC.row (by rw [hAC.ptr]) hlC)
  refine ⟨C', h, hS, fun i j => ?_⟩
  rw [he]
  exact sumAt_combine (· + ·) (add_zero 0) (fun a b c d => add_add_add_comm a b c d) _ _
    (entries_pos_eq hA.toSafe hB.toSafe hAB) i j

/-- **C15 (matsub).** Likewise for `matsub` and `A - B`. -/
theorem C15_matsub_partial [AddCommGroup α] (sch : Nat → Sched) (A B C : Crs α) (hA : A.Tiled)
    (hB : B.Tiled) (hC : C.Tiled) (hAB : SameStructure A B) (hAC : SameStructure A C)
    (hlB : A.colInd.length = B.colInd.length) (hlC : A.colInd.length = C.colInd.length) :
    ∃ C', HCrs.matOp (· - ·) (.make sch A) (.make sch B) (.make sch C) = .ok C' ∧
      SameStructure A C'.mat ∧
      ∀ i j, sumAt C'.mat.entries i j = sumAt A.entries i j - sumAt B.entries i j := by
  obtain ⟨C', h, _, hS, _, he⟩ := matOp_entries (· - ·) (.make sch A) (.make sch B) (.make sch C)
    hA hB hC hAB hAC
    (C14_ignores_contents sch _ _ hAB.row (by rw [hAB.ptr]) hlB)
    (C14_ignores_contents sch _ _ hAC.row (by rw [hAC.ptr]) hlC)
  refine ⟨C', h, hS, fun i j => ?_⟩
  rw [he]
  exact sumAt_combine (· - ·) (sub_zero 0) (fun a b c d => add_sub_add_comm a b c d) _ _
    (entries_pos_eq hA.toSafe hB.toSafe hAB) i j

/-- a concrete instance: `[[1,2],[0,3]] + [[4,5],[0,6]]` -/
example : (HCrs.matOp (· + ·)
    (.make oneThread (⟨2, 2, [0, 2, 3], [0, 1, 1], [1, 2, 3], 3, 3, true⟩ : Crs Int))
    (.make oneThread ⟨2, 2, [0, 2, 3], [0, 1, 1], [4, 5, 6], 3, 3, true⟩)
    (.make oneThread ⟨2, 2, [0, 2, 3], [0, 1, 1], [0, 0, 0], 3, 3, true⟩)).Sat
    (fun C => C.mat.val = [5, 7, 9]) := ⟨_, rfl, rfl⟩

/-- **C15 (violated: rejection).** Matrices of different structure pass the structure check and
`matadd` completes with a result that is not the sum. -/
theorem C15_rejection_violated :
    ∃ A B C : Crs Int, A.WF ∧ B.WF ∧ C.WF ∧ A.rowN = B.rowN ∧ A.colN = B.colN ∧
      A.rowN = C.rowN ∧ A.colN = C.colN ∧ ¬ SameStructure A B ∧ ∀ sch, ∃ C',
      HCrs.matOp (· + ·) (.make sch A) (.make sch B) (.make sch C) = .ok C' ∧
      sumAt C'.mat.entries 0 0 ≠ sumAt A.entries 0 0 + sumAt B.entries 0 0 := by
  refine ⟨⟨1, 2, [0, 1], [0], [1], 1, 1, true⟩, ⟨1, 2, [0, 1], [1], [1], 1, 1, true⟩,
    ⟨1, 2, [0, 1], [0], [0], 1, 1, true⟩, ?_, ?_, ?_, rfl, rfl, rfl, rfl, ?_, ?_⟩
  · exact { created := rfl, lenV := rfl, nnz_le := by decide, lenP := rfl, ptr_le := by decide,
            lenC := by decide, col_lt := by decide, ptr_zero := rfl, ptr_last := rfl,
            ptr_mono := by decide }
  · exact { created := rfl, lenV := rfl, nnz_le := by decide, lenP := rfl, ptr_le := by decide,
            lenC := by decide, col_lt := by decide, ptr_zero := rfl, ptr_last := rfl,
            ptr_mono := by decide }
  · exact { created := rfl, lenV := rfl, nnz_le := by decide, lenP := rfl, ptr_le := by decide,
            lenC := by decide, col_lt := by decide, ptr_zero := rfl, ptr_last := rfl,
            ptr_mono := by decide }
  · intro h; exact absurd h.ind (by decide)
  · intro sch
    refine ⟨⟨⟨1, 2, [0, 1], [0], [2], 1, 1, true⟩,
      (⟨1, 2, [0, 1], [0], [0], 1, 1, true⟩ : Crs Int).computeHash sch⟩, ?_, by simp only; decide⟩
    · unfold HCrs.matOp
      rw [cassert_decide ⟨rfl, rfl⟩, Res.ok_bind, cassert_decide ⟨rfl, rfl⟩, Res.ok_bind,
        cassert_of, Res.ok_bind, cassert_of, Res.ok_bind]
      · rfl
      · simp [HCrs.isSameStructure, HCrs.make]
        exact C14_ignores_contents sch _ _ rfl rfl rfl
      · simp [HCrs.isSameStructure, HCrs.make]
        exact C14_ignores_contents sch _ _ rfl rfl rfl

/-- **C15 (violated: acceptance).** Matrices of the same structure are rejected (assertion failure)
when their hashes were computed with different numbers of threads. -/
theorem C15_threads_violated :
    ∃ A C : Crs Int, A.WF ∧ C.WF ∧ SameStructure A C ∧ ∃ m,
      HCrs.matOp (· + ·) (.make oneThread A) (.make oneThread A) (.make twoThreads C) = .abort m := by
  refine ⟨⟨1, 1, [0, 1], [0], [1], 1, 1, true⟩, ⟨1, 1, [0, 1], [0], [0], 1, 1, true⟩, ?_, ?_,
    ⟨rfl, rfl, rfl, rfl, rfl⟩, "assert", by decide⟩
  all_goals
    exact { created := rfl, lenV := rfl, nnz_le := by decide, lenP := rfl, ptr_le := by decide,
            lenC := by decide, col_lt := by decide, ptr_zero := rfl, ptr_last := rfl,
            ptr_mono := by decide }

/-- **C15 (Dense).** `matadd`/`matsub` of dense matrices of the same dimensions (also aliases at an
offset) set every element of `C` to `A(i,j) op B(i,j)`, and touch nothing outside `C`'s window. -/
theorem C15_dense (op : α → α → α) (A B C : Dense α) (hA : A.WF) (hB : B.WF) (hC : C.WF)
    (h1 : A.rowN = B.rowN) (h2 : A.colN = B.colN) (h3 : A.rowN = C.rowN) (h4 : A.colN = C.colN) :
    ∃ C', Dense.matOp op A B C = .ok C' ∧ C'.WF ∧ C'.rowN = A.rowN ∧ C'.colN = A.colN ∧
      (∀ i j, i < A.rowN → j < A.colN → ∃ u v, A.at_ i j = .ok u ∧ B.at_ i j = .ok v ∧
        C'.at_ i j = .ok (op u v)) ∧
      (∀ k, k < C.first ∨ C.first + C.nnz ≤ k → C'.val[k]? = C.val[k]?) := by
  have a1 := hA.lenV; have a2 := hA.window
  have b1 := hB.lenV; have b2 := hB.window
  have c1 := hC.lenV; have c2 := hC.window
  have eB : B.nnz = A.nnz := by rw [hA.nnz_eq, hB.nnz_eq, h1, h2]
  have eC : C.nnz = A.nnz := by rw [hA.nnz_eq, hC.nnz_eq, h3, h4]
  obtain ⟨V, hV, hl, hval, hfr⟩ := vbin_ok op (N := A.nnz) (oa := A.first) (ob := B.first)
    (oy := C.first) (a := A.val) (b := B.val) (y := C.val) (by omega) (by omega) (by omega)
  unfold Dense.matOp
  rw [cassert_decide ⟨h1, h2⟩, Res.ok_bind, cassert_decide ⟨h3, h4⟩, Res.ok_bind, hV, Res.ok_bind]
  have hW : ({ C with val := V } : Dense α).WF := ⟨by simp only; omega, hC.nnz_eq, hC.window⟩
  refine ⟨_, rfl, hW, h3.symm, h4.symm, ?_, ?_⟩
  · intro i j hi hj
    obtain ⟨u, hu, hu'⟩ := Dense.at_exists hA hi hj
    obtain ⟨v, hv, hv'⟩ := Dense.at_exists hB (by omega : i < B.rowN) (by omega : j < B.colN)
    refine ⟨u, v, hu, hv, ?_⟩
    apply Dense.at_of_getElem? hW (by simp only; omega) (by simp only; omega)
    simp only
    rw [← h4]
    exact hval _ u v (Dense.WF.idx_lt hA hi hj) hu' (by rw [h2]; exact hv')
  · intro k hk
    exact hfr k (by omega)

example : (Dense.matOp (· - ·) (⟨1, 2, [5, 6], 2, 2, 0, true⟩ : Dense Int) ⟨1, 2, [1, 1], 2, 2, 0, true⟩
    ⟨1, 2, [0, 0, 9], 2, 3, 0, true⟩).Sat (fun C => C.val = [4, 5, 9]) := ⟨_, rfl, rfl⟩

end Verif
