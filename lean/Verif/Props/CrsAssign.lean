import Verif.Model.CrsAssign
import Verif.Props.CooCopy
import Verif.Props.CrsCopy
import Verif.Props.Hash
import Verif.Spec.TensorCooSpec

/-!
C79: building a CRS matrix from arrays and assigning to it; C80: building, copying and comparing
coordinate tensors.
-/

namespace Verif

open Spec

variable {α : Type}

/-! ### C79 -/

/-- the arrays describe a CRS matrix with `M` rows and `N` columns: one row pointer per row plus one, going
up from 0 to the number of elements, and column numbers below `N` -/
structure CrsArrays (M N : Nat) (rowptr colind : List Nat) (value : List α) : Prop where
  lenP : rowptr.length = M + 1
  lenC : colind.length = value.length
  zero : rowptr.getD 0 0 = 0
  last : rowptr.getD M 0 = value.length
  mono : ∀ i, i < M → rowptr.getD i 0 ≤ rowptr.getD (i + 1) 0
  col : ∀ c ∈ colind, c < N

/-- row `i` as the arrays describe it: the elements at positions `rowptr[i] .. rowptr[i + 1]` -/
def rowOfArrays (rowptr colind : List Nat) (value : List α) (i : Nat) : List (Entry α) :=
  (((colind.zip value).take (rowptr.getD (i + 1) 0)).drop (rowptr.getD i 0)).map (fun p => (i, p.1, p.2))

theorem CrsArrays.le {M N : Nat} {rowptr colind : List Nat} {value : List α}
    (h : CrsArrays M N rowptr colind value) {i : Nat} (hi : i ≤ M) : rowptr.getD i 0 ≤ value.length := by
  have : ∀ k, k ≤ M → rowptr.getD (M - k) 0 ≤ rowptr.getD M 0 := by
    intro k
    induction k with
    | zero => intro _; exact Nat.le_refl _
    | succ k ih =>
      intro hk
      have h1 := ih (by omega)
      have h2 := h.mono (M - (k + 1)) (by omega)
      rw [show M - (k + 1) + 1 = M - k by omega] at h2
      omega
  have h1 := this (M - i) (by omega)
  rw [show M - (M - i) = i by omega] at h1
  have := h.last
  omega

/-- a CRS object with these arrays is well formed and has the described rows -/
theorem CrsArrays.wf {M N : Nat} {rowptr colind : List Nat} {value : List α}
    (h : CrsArrays M N rowptr colind value) {A : Crs α} (hA : A.BufOk) (e1 : A.rowN = M) (e2 : A.colN = N)
    (e3 : A.rowPtr = rowptr) (e4 : A.colInd = colind) (e5 : A.nnz = value.length)
    (e6 : A.val.take value.length = value) :
    A.WF ∧ ∀ i, i < M → A.rowEntries i = rowOfArrays rowptr colind value i := by
  have hp : ∀ i, A.ptr i = rowptr.getD i 0 := fun i => by unfold Crs.ptr; rw [e3]
  refine ⟨{ toBufOk := hA, lenP := ?_, ptr_le := ?_, lenC := ?_, col_lt := ?_, ptr_zero := ?_,
            ptr_last := ?_, ptr_mono := ?_ }, ?_⟩
  · rw [e3, e1]; exact h.lenP
  · intro i hi; rw [hp, e5]; exact h.le (by omega)
  · rw [e4, e5, h.lenC]
  · intro k hk _
    rw [e2]
    exact h.col _ (by rw [← e4]; exact List.getElem_mem hk)
  · rw [hp]; exact h.zero
  · rw [hp, e1, e5]; exact h.last
  · intro i hi; rw [hp, hp]; exact h.mono i (by omega)
  · intro i hi
    unfold Crs.rowEntries rowOfArrays
    rw [hp, hp, e4]
    congr 2
    have hle : rowptr.getD (i + 1) 0 ≤ value.length := h.le (by omega)
    have : ∀ V : List α, (colind.zip V).take (rowptr.getD (i + 1) 0) =
        (colind.zip (V.take value.length)).take (rowptr.getD (i + 1) 0) := by
      intro V
      rw [take_zip, take_zip, List.take_take, Nat.min_eq_left hle]
    rw [this, e6]

theorem crs_new [Zero α] (M N NNZ : Nat) :
    (Crs.new M N NNZ : Res (Crs α)) =
      .ok { rowN := M, colN := N, rowPtr := stdResize [] (M + 1) 0, colInd := stdResize [] NNZ 0,
            val := List.replicate NNZ 0, nnz := NNZ, alloc := NNZ, created := true } := by
  unfold Crs.new Crs.resize
  simp [Crs.empty, reallocCopy, readN]

theorem crs_ofArrays [Zero α] (M N : Nat) (rowptr colind : List Nat) (value : List α)
    (h1 : rowptr.length = M + 1) (h2 : colind.length = value.length) :
    Crs.ofArrays M N value.length rowptr colind value =
      .ok { rowN := M, colN := N, rowPtr := rowptr, colInd := colind, val := value,
            nnz := value.length, alloc := value.length, created := true } := by
  unfold Crs.ofArrays
  rw [crs_new, Res.ok_bind]
  dsimp only
  rw [vcopy_all (by omega) (by simp), Res.ok_bind, vcopy_all (by omega) (by simp), Res.ok_bind,
    vcopy_all (Nat.le_refl _) (by simp), Res.ok_bind, List.take_of_length_le (by omega),
    List.take_of_length_le (by omega), List.take_of_length_le (Nat.le_refl _)]

/-- **C79 (constructors from arrays).** Arrays that describe a CRS matrix give a well-formed matrix with
exactly those rows, from pointers and from `std::vector`s. -/
theorem C79_of_arrays [Zero α] {M N : Nat} {rowptr colind : List Nat} {value : List α}
    (h : CrsArrays M N rowptr colind value) :
    ∃ A, Crs.ofArrays M N value.length rowptr colind value = .ok A ∧
      Crs.ofVectors M N rowptr colind value = .ok A ∧ A.WF ∧ A.rowN = M ∧ A.colN = N ∧
      ∀ i, i < M → A.rowEntries i = rowOfArrays rowptr colind value i := by
  have h0 := crs_ofArrays M N rowptr colind value h.lenP h.lenC
  have hw := h.wf (A := { rowN := M, colN := N, rowPtr := rowptr, colInd := colind, val := value,
                          nnz := value.length, alloc := value.length, created := true })
    ⟨rfl, rfl, Nat.le_refl _⟩ rfl rfl rfl rfl rfl (List.take_of_length_le (Nat.le_refl _))
  exact ⟨_, h0, h0, hw.1, rfl, rfl, hw.2⟩

/-- **C79 (constructor with an origin).** Column numbers that count from `origin` (row pointers from 0, as
documented) give the matrix with columns counted from 0. -/
theorem C79_of_arrays_origin [Zero α] {M N : Nat} {rowptr colind : List Nat} {value : List α} {origin : Nat}
    (h : CrsArrays M N rowptr (colind.map (· - origin)) value) (ho : ∀ c ∈ colind, origin ≤ c) :
    ∃ A, Crs.ofArraysOrigin M N value.length rowptr colind value origin = .ok A ∧ A.WF ∧ A.rowN = M ∧
      A.colN = N ∧
      ∀ i, i < M → A.rowEntries i = rowOfArrays rowptr (colind.map (· - origin)) value i := by
  have hl : colind.length = value.length := by simpa using h.lenC
  have hw := h.wf (A := { rowN := M, colN := N, rowPtr := rowptr, colInd := colind.map (· - origin),
                          val := value, nnz := value.length, alloc := value.length, created := true })
    ⟨rfl, rfl, Nat.le_refl _⟩ rfl rfl rfl rfl rfl (List.take_of_length_le (Nat.le_refl _))
  refine ⟨_, ?_, hw.1, rfl, rfl, hw.2⟩
  unfold Crs.ofArraysOrigin
  rw [crs_ofArrays M N rowptr colind value h.lenP hl, Res.ok_bind]
  dsimp only
  rw [← hl, shiftDown_ok ho, Res.ok_bind]

/-- **C79 (`set_ptr`).** On any CRS object, arrays that describe a CRS matrix replace the old contents. -/
theorem C79_set_ptr [Zero α] (A : Crs α) (hA : A.BufOk) {M N : Nat} {rowptr colind : List Nat}
    {value : List α} (h : CrsArrays M N rowptr colind value) :
    ∃ B, A.setPtr M N rowptr colind value.length value = .ok B ∧ B.WF ∧ B.rowN = M ∧ B.colN = N ∧
      ∀ i, i < M → B.rowEntries i = rowOfArrays rowptr colind value i := by
  obtain ⟨V, a, hr, hV, ha⟩ := Crs.resize_ok
    (A := { A with colInd := colind, rowPtr := rowptr, created := true }) ⟨rfl, hA.lenV, hA.nnz_le⟩
    value.length (0 : α)
  unfold Crs.setPtr
  rw [hr, Res.ok_bind]
  dsimp only
  rw [vcopy_ok (Nat.le_refl _) (by omega), Res.ok_bind]
  have hw := h.wf (A := { rowN := M, colN := N, rowPtr := rowptr, colInd := colind,
                          val := value.take value.length ++ V.drop value.length, nnz := value.length,
                          alloc := a, created := true })
    ⟨rfl, by simp; omega, ha⟩ rfl rfl rfl rfl rfl (by simp)
  exact ⟨_, rfl, hw.1, rfl, rfl, hw.2⟩

/-- what `A = B` does when the stored hashes agree and `B` has at least as many elements -/
theorem hcrs_assign (A B : HCrs α) (hA : A.mat.BufOk) (hB : B.mat.BufOk) (hn : A.mat.nnz ≤ B.mat.nnz)
    (hr : A.mat.rowN = B.mat.rowN) (hc : A.mat.colN = B.mat.colN) (hh : A.hash = B.hash) :
    A.assign B = .ok { A with mat :=
      { A.mat with
        val := B.mat.val.take A.mat.nnz ++ A.mat.val.drop A.mat.nnz
        created := true } } := by
  have a1 := hA.lenV; have a2 := hA.nnz_le; have b1 := hB.lenV; have b2 := hB.nnz_le
  unfold HCrs.assign
  have h1 : isSameSize A.mat.rowN A.mat.colN B.mat.rowN B.mat.colN = true := by
    simp [isSameSize, hr, hc]
  have h2 : A.isSameStructure B = true := by simp [HCrs.isSameStructure, hr, hc, hh]
  rw [h1, h2, cassert_true, Res.ok_bind, Res.ok_bind, vcopy_ok (by omega) (by omega), Res.ok_bind]

/-- **C79 (`A = B`)**, the part that holds: between matrices with the same size, row pointers and columns,
whose hashes were computed with the same schedules, `A = B` gives `A` the rows of `B` and leaves its
structure as it is. -/
theorem C79_assign_partial (sch : Nat → Sched) (A B : Crs α) (hA : A.Safe) (hB : B.Safe)
    (hr : A.rowN = B.rowN) (hc : A.colN = B.colN) (hp : A.rowPtr = B.rowPtr) (hi : A.colInd = B.colInd)
    (hn : A.nnz = B.nnz) :
    ∃ C, (HCrs.make sch A).assign (HCrs.make sch B) = .ok C ∧ C.mat.Safe ∧ C.mat.rowN = B.rowN ∧
      C.mat.colN = B.colN ∧ C.hash = A.computeHash sch ∧
      ∀ i, i < B.rowN → C.mat.rowEntries i = B.rowEntries i := by
  have hh : (HCrs.make sch A).hash = (HCrs.make sch B).hash :=
    C14_ignores_contents sch A B hr (by rw [hp]) (by rw [hi])
  refine ⟨_, hcrs_assign (HCrs.make sch A) (HCrs.make sch B) hA.toBufOk hB.toBufOk (Nat.le_of_eq hn) hr hc hh,
    ?_, hr, hc, rfl, ?_⟩
  · exact { created := rfl, lenV := by
              have := hA.lenV; have := hA.nnz_le; have := hB.lenV; have := hB.nnz_le
              simp [HCrs.make]; omega
            nnz_le := hA.nnz_le, lenP := hA.lenP, ptr_le := hA.ptr_le, lenC := hA.lenC,
            col_lt := hA.col_lt }
  · intro i hi'
    have := hB.lenV; have := hB.nnz_le
    refine @rowEntries_congr α (Crs.mk A.rowN A.colN A.rowPtr A.colInd
      (B.val.take A.nnz ++ A.val.drop A.nnz) A.nnz A.alloc true) B hp hi B.nnz ?_ i
      (hB.ptr_le (i + 1) (by omega))
    simp only
    rw [hn, List.take_append_of_le_length (by simp; omega), List.take_take, Nat.min_self]

/-- Matrices of different size are rejected. -/
theorem C79_assign_sizes (A B : HCrs α) (h : A.mat.rowN ≠ B.mat.rowN ∨ A.mat.colN ≠ B.mat.colN) :
    ∃ m, A.assign B = .abort m := by
  refine ⟨"assert", ?_⟩
  unfold HCrs.assign
  have : isSameSize A.mat.rowN A.mat.colN B.mat.rowN B.mat.colN = false := by
    unfold isSameSize; rw [if_pos h]
  rw [this]; rfl

/-- **C79, violated**: `A = B` is accepted although the structures differ, whatever the schedules of the
hash computation, and `A` ends up with the values of `B` at other positions. -/
theorem C79_assign_violated :
    ∃ A B : Crs Int, A.WF ∧ B.WF ∧ A.rowN = B.rowN ∧ A.colN = B.colN ∧ ∀ sch, ∃ C,
      (HCrs.make sch A).assign (HCrs.make sch B) = .ok C ∧
      C.mat.entries = [(0, 0, 7), (1, 1, 8)] ∧ B.entries = [(0, 1, 7), (1, 0, 8)] := by
  have hA : (⟨2, 2, [0, 1, 2], [0, 1], [1, 1], 2, 2, true⟩ : Crs Int).WF :=
    { created := rfl, lenV := rfl, nnz_le := by decide, lenP := rfl, ptr_le := by decide,
      lenC := by decide, col_lt := by decide, ptr_zero := rfl, ptr_last := rfl, ptr_mono := by decide }
  have hB : (⟨2, 2, [0, 1, 2], [1, 0], [7, 8], 2, 2, true⟩ : Crs Int).WF :=
    { created := rfl, lenV := rfl, nnz_le := by decide, lenP := rfl, ptr_le := by decide,
      lenC := by decide, col_lt := by decide, ptr_zero := rfl, ptr_last := rfl, ptr_mono := by decide }
  refine ⟨_, _, hA, hB, rfl, rfl, fun sch => ⟨_, hcrs_assign (HCrs.make sch _) (HCrs.make sch _)
    hA.toBufOk hB.toBufOk (Nat.le_refl _) rfl rfl (C14_ignores_contents sch _ _ rfl rfl rfl), ?_, ?_⟩⟩
  · simp only [HCrs.make]; decide
  · decide

/-! non-vacuity -/

theorem exArrays : CrsArrays 2 3 [0, 1, 3] [2, 0, 1] [(5 : Int), 6, 7] :=
  ⟨rfl, rfl, rfl, rfl, by decide, by decide⟩

example : Crs.ofArraysOrigin 2 3 3 [0, 1, 3] [3, 1, 2] [(5 : Int), 6, 7] 1 =
    Crs.ofArrays 2 3 3 [0, 1, 3] [2, 0, 1] [(5 : Int), 6, 7] ∧
    (⟨2, 3, [0, 1, 3], [2, 0, 1], [5, 6, 7], 3, 3, true⟩ : Crs Int).entries =
      [(0, 2, 5), (1, 0, 6), (1, 1, 7)] := ⟨rfl, by decide⟩

/-- row pointers that count from 1 as well give wrong rows: the first is empty -/
example : ∃ A : Crs Int, Crs.ofArraysOrigin 2 3 3 [1, 2, 4] [3, 1, 2] [5, 6, 7] 1 = .ok A ∧
    A.rowEntries 0 = [(0, 0, 6)] := ⟨_, rfl, by decide⟩

/-! ### C80 -/

/-- **C80 (constructor).** Positions and at least as many values give the tensor of the given shape with
those elements, in order. -/
theorem C80_of_arrays [Zero α] (shape : List Nat) (index : List (List Nat)) (value : List α)
    (h : index.length ≤ value.length) :
    ∃ T, TCoo.ofArrays shape index value = .ok T ∧ T.WF ∧ T.shape = shape ∧
      T.entries = index.zip value := by
  unfold TCoo.ofArrays TCoo.resize
  simp only [TCoo.new, if_true]
  rw [reallocCopy_ok (by simp)]
  simp only [Res.ok_bind]
  rw [vcopy_all h (by simp), Res.ok_bind]
  refine ⟨_, rfl, ⟨rfl, by simp, by simp [h], Nat.le_refl _⟩, rfl, ?_⟩
  unfold TCoo.entries
  apply List.ext_getElem
  · simp [stdResize]
  · intro k h1 h2
    simp [stdResize]

theorem tcoo_copy_aux [Zero α] (B : TCoo α) (hB : B.WF) (w : List α) (hw : B.nnz ≤ w.length) :
    ∃ T, (do
        let T ← TCoo.resize { (TCoo.new B.shape : TCoo α) with index := B.index } B.nnz 0
        let v ← vcopy B.nnz w T.val
        .ok { T with val := v }) = .ok T ∧ T.WF ∧ T.shape = B.shape ∧ T.nnz = B.nnz ∧
      T.entries = (B.index.zip w).take B.nnz := by
  have b1 := hB.lenI; have b2 := hB.nnz_le
  unfold TCoo.resize
  simp only [TCoo.new, if_true]
  rw [reallocCopy_ok (by simp)]
  simp only [Res.ok_bind]
  rw [vcopy_all hw (by simp), Res.ok_bind]
  refine ⟨_, rfl, ⟨rfl, by simp, by simp [hw], Nat.le_refl _⟩, rfl, rfl, ?_⟩
  unfold TCoo.entries
  apply List.ext_getElem
  · simp [stdResize]; omega
  · intro k h1 h2
    simp at h1
    simp [stdResize, List.getElem_append]
    rw [dif_pos ⟨h1.1, by omega⟩]

/-- **C80 (copy constructor).** -/
theorem C80_copy [Zero α] (B : TCoo α) (hB : B.WF) :
    ∃ T, TCoo.copy B = .ok T ∧ T.WF ∧ T.shape = B.shape ∧ T.nnz = B.nnz ∧ T.entries = B.entries :=
  tcoo_copy_aux B hB B.val (by rw [hB.lenV]; exact hB.nnz_le)

/-- **C80 (`tensor_COO(coo, value)`).** -/
theorem C80_copy_with [Zero α] (B : TCoo α) (hB : B.WF) (value : α) :
    ∃ T, TCoo.copyWith B value = .ok T ∧ T.WF ∧ T.shape = B.shape ∧
      T.entries = B.entries.map (fun e => (e.1, value)) := by
  obtain ⟨T, h1, h2, h3, _, h5⟩ := tcoo_copy_aux B hB (List.replicate B.nnz value) (by simp)
  refine ⟨T, h1, h2, h3, ?_⟩
  rw [h5]
  have := hB.lenI; have := hB.lenV; have := hB.nnz_le
  apply List.ext_getElem
  · simp [TCoo.entries]; omega
  · intro k h1 h2
    simp [TCoo.entries]

/-- **C80 (`set_ptr`).** -/
theorem C80_set_ptr [Zero α] (T : TCoo α) (hT : T.WF) (shape : List Nat) (index : List (List Nat))
    (value : List α) (h : index.length = value.length) :
    ∃ B, T.setPtr shape index value.length value = .ok B ∧ B.WF ∧ B.shape = shape ∧
      B.entries = index.zip value := by
  have t1 := hT.lenV; have t2 := hT.nnz_le
  unfold TCoo.setPtr TCoo.resize
  simp only [if_true]
  rw [reallocCopy_ok (by omega)]
  simp only [Res.ok_bind]
  rw [vcopy_all (Nat.le_refl _) (by simp; omega), Res.ok_bind]
  refine ⟨_, rfl, ⟨rfl, by simp, by simp, Nat.le_refl _⟩, rfl, ?_⟩
  unfold TCoo.entries
  apply List.ext_getElem
  · simp [stdResize, h]
  · intro k h1 h2
    simp at h1
    simp [stdResize, List.getElem_append, h]

/-- the index loop of `equal` -/
theorem equalLoop {A B : TCoo α} (ha : A.nnz ≤ A.index.length) (hb : A.nnz ≤ B.index.length) :
    forN A.nnz (TCoo.equalStep A B) true = .ok (decide (A.index.take A.nnz = B.index.take A.nnz)) := by
  obtain ⟨r, h1, h2⟩ := forN_sat (n := A.nnz) (s := true) (body := TCoo.equalStep A B)
    (fun (i : Nat) (b : Bool) => b = decide (A.index.take i = B.index.take i)) (by simp) (by
      intro i b hi hb'
      subst hb'
      have e : ∀ l : List (List Nat), (h : i < l.length) → l.take (i + 1) = l.take i ++ [l[i]] := by
        intro l h; rw [List.take_add_one]; simp [h]
      unfold TCoo.equalStep
      by_cases hd : A.index.take i = B.index.take i
      · rw [decide_eq_true hd, if_pos rfl, rd_ok (by omega), Res.ok_bind, rd_ok (by omega), Res.ok_bind]
        split
        · refine Res.Sat.ok ?_
          symm
          apply decide_eq_false
          rw [e _ (by omega), e _ (by omega), hd, List.append_cancel_left_eq]
          rename_i hne
          intro h
          exact hne (congrArg List.length (List.cons.inj h).1)
        · rename_i hl
          have hl : (A.index[i]'(by omega)).length = (B.index[i]'(by omega)).length := by
            simpa using hl
          rw [vequal_ok (Nat.le_refl _) (by omega), List.take_of_length_le (Nat.le_refl _),
            List.take_of_length_le (by omega)]
          refine Res.Sat.ok ?_
          rw [e A.index (by omega), e B.index (by omega), hd]
          simp only [List.append_cancel_left_eq, List.cons.injEq, and_true]
      · rw [decide_eq_false hd]
        refine Res.Sat.ok ?_
        symm
        apply decide_eq_false
        rw [e _ (by omega), e _ (by omega)]
        intro h
        exact hd (List.append_inj_left h (by simp; omega)))
  rw [h1, h2]

/-- what `A == B` computes when both have room for `A`'s elements -/
theorem tcoo_equal [DecidableEq α] (A B : TCoo α) (hA : A.WF) (hB : B.WF) (hn : A.nnz ≤ B.nnz) :
    A.equal B = .ok (decide (A.shape = B.shape ∧ A.entries = B.entries.take A.nnz)) := by
  have a1 := hA.lenI; have a2 := hA.lenV; have a3 := hA.nnz_le
  have b1 := hB.lenI; have b2 := hB.lenV; have b3 := hB.nnz_le
  unfold TCoo.equal
  by_cases hs : A.shape = B.shape
  · rw [if_neg (by simpa using hs), vequal_ok (by omega) (by omega), equalLoop (by omega) (by omega)]
    simp only [andThen_ok, hs, true_and]
    have hz : A.entries = B.entries.take A.nnz ↔ A.index.take A.nnz = B.index.take A.nnz ∧
        A.val.take A.nnz = B.val.take A.nnz := by
      unfold TCoo.entries
      rw [List.take_take, Nat.min_eq_left hn, take_zip, take_zip]
      constructor
      · intro h
        have e1 := congrArg (List.map Prod.fst) h
        have e2 := congrArg (List.map Prod.snd) h
        rw [List.map_fst_zip (by simp; omega), List.map_fst_zip (by simp; omega)] at e1
        rw [List.map_snd_zip (by simp; omega), List.map_snd_zip (by simp; omega)] at e2
        exact ⟨e1, e2⟩
      · rintro ⟨h1, h2⟩; rw [h1, h2]
    by_cases h1 : A.index.take A.nnz = B.index.take A.nnz <;>
      by_cases h2 : A.val.take A.nnz = B.val.take A.nnz <;> simp [h1, h2, hz]
  · rw [if_pos hs]
    simp [hs]

/-- **C80 (comparison)**, the part that holds: between tensors with the same number of stored elements, `==`
is true exactly when shape and stored elements agree. -/
theorem C80_equal_partial [DecidableEq α] (A B : TCoo α) (hA : A.WF) (hB : B.WF) (hn : A.nnz = B.nnz) :
    A.equal B = .ok (decide (A.shape = B.shape ∧ A.entries = B.entries)) := by
  have h := tcoo_equal A B hA hB (by omega)
  rw [List.take_of_length_le (by simp [TCoo.entries]; omega)] at h
  exact h

/-- **C80, violated**: `A == B` holds for **every** `B` of the same shape that merely begins with the
elements of `A`. -/
theorem C80_equal_violated [DecidableEq α] (A B : TCoo α) (hA : A.WF) (hB : B.WF) (hs : A.shape = B.shape)
    (hn : A.nnz < B.nnz) (he : A.entries = B.entries.take A.nnz) :
    A.equal B = .ok true ∧ A.entries ≠ B.entries := by
  refine ⟨by rw [tcoo_equal A B hA hB (by omega), decide_eq_true ⟨hs, he⟩], ?_⟩
  intro h
  have := congrArg List.length h
  have a1 := hA.lenI; have a2 := hA.lenV; have a3 := hA.nnz_le
  have b1 := hB.lenI; have b2 := hB.lenV; have b3 := hB.nnz_le
  simp [TCoo.entries] at this
  omega

def exTCoo : TCoo Int := ⟨[2, 2, 2], [[0, 0, 1], [1, 1, 0]], [5, 6], 2, 2, true⟩

example : TCoo.ofArrays [2, 2, 2] [[0, 0, 1], [1, 1, 0]] [(5 : Int), 6] = .ok exTCoo ∧
    exTCoo.copy = .ok exTCoo ∧ exTCoo.copyWith 9 = .ok { exTCoo with val := [9, 9] } ∧
    exTCoo.equal { exTCoo with val := [5, 7] } = .ok false ∧
    exTCoo.equal ⟨[2, 2, 2], [[0, 0, 1], [1, 1, 0], [1, 1, 1]], [5, 6, 7], 3, 3, true⟩ = .ok true :=
  ⟨rfl, rfl, rfl, rfl, rfl⟩

end Verif
