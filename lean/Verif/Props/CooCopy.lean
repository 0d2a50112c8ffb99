import Verif.Model.CooCopy
import Verif.Props.Compare
import Verif.Lemmas.CooBasic

/-!
C78: building a COO matrix from arrays, copying it, assigning to it.
-/

namespace Verif

open Spec

variable {α : Type}

/-- the triples described by three arrays -/
def tripleZip (r c : List Nat) (v : List α) : List (Entry α) := r.zip (c.zip v)

theorem vcopy_all {β : Type} {n : Nat} {src dst : List β} (h : n ≤ src.length) (hd : dst.length = n) :
    vcopy n src dst = .ok (src.take n) := by
  rw [vcopy_ok h (by omega), List.drop_of_length_le (by omega), List.append_nil]

theorem take_tripleZip (r c : List Nat) (v : List α) (n : Nat) :
    (tripleZip r c v).take n = tripleZip (r.take n) (c.take n) (v.take n) := by
  simp [tripleZip, take_zip]

theorem resize_fresh [Zero α] (M N NNZ : Nat) :
    Coo.resize
      { (Coo.new M N : Coo α) with
        rowIdx := stdResize [] NNZ 0
        colIdx := stdResize [] NNZ 0 } NNZ 0 =
      .ok { rowN := M, colN := N, rowIdx := stdResize (stdResize [] NNZ 0) NNZ 0,
            colIdx := stdResize (stdResize [] NNZ 0) NNZ 0,
            val := List.replicate NNZ 0, alloc := NNZ, nnz := NNZ, created := true } := by
  unfold Coo.resize
  simp [Coo.new, reallocCopy, readN]

/-- **C78 (constructor from arrays).** With arrays of at least `NNZ` elements the constructor gives the
matrix of the given size whose entries are the first `NNZ` triples, in order. -/
theorem C78_of_arrays [Zero α] (M N NNZ : Nat) (row col : List Nat) (value : List α)
    (hr : NNZ ≤ row.length) (hc : NNZ ≤ col.length) (hv : NNZ ≤ value.length) :
    ∃ A, Coo.ofArrays M N NNZ row col value = .ok A ∧ A.WF ∧ A.rowN = M ∧ A.colN = N ∧
      A.nnz = NNZ ∧ A.entries = (tripleZip row col value).take NNZ := by
  unfold Coo.ofArrays
  rw [resize_fresh, Res.ok_bind]
  dsimp only
  rw [vcopy_all hr (by simp), Res.ok_bind, vcopy_all hc (by simp), Res.ok_bind,
    vcopy_all hv (by simp), Res.ok_bind]
  refine ⟨_, rfl, ⟨rfl, ?_, ?_, ?_, Nat.le_refl _⟩, rfl, rfl, rfl, ?_⟩
  · simp [hr]
  · simp [hc]
  · simp [hv]
  · unfold Coo.entries
    rw [take_tripleZip]
    simp only [tripleZip]
    rw [List.take_of_length_le]
    simp [hr, hc, hv]

/-- With a shorter array it reads out of bounds. -/
theorem C78_of_arrays_ub [Zero α] (M N NNZ : Nat) (row col : List Nat) (value : List α)
    (h : row.length < NNZ ∨ col.length < NNZ ∨ value.length < NNZ) :
    ∃ m, Coo.ofArrays M N NNZ row col value = .ub m := by
  refine ⟨"copy reads out of bounds", ?_⟩
  unfold Coo.ofArrays
  rw [resize_fresh, Res.ok_bind]
  dsimp only
  have key : ∀ {β : Type} (src dst : List β), dst.length = NNZ → src.length < NNZ →
      vcopy NNZ src dst = .ub "copy reads out of bounds" := by
    intro β src dst _ h2
    unfold vcopy
    rw [if_neg (by omega)]
  rcases Nat.lt_or_ge row.length NNZ with h1 | h1
  · rw [key _ _ (by simp) h1]; rfl
  · rw [vcopy_all h1 (by simp), Res.ok_bind]
    rcases Nat.lt_or_ge col.length NNZ with h2 | h2
    · rw [key _ _ (by simp) h2]; rfl
    · rw [vcopy_all h2 (by simp), Res.ok_bind, key _ _ (by simp) (by omega)]; rfl

theorem shiftDown_ok {l : List Nat} {origin : Nat} (h : ∀ x ∈ l, origin ≤ x) :
    Coo.shiftDown l l.length origin = .ok (l.map (· - origin)) := by
  unfold Coo.shiftDown
  have := forN_sat (n := l.length) (s := l) (body := fun i l => do
    let x ← rd l i
    if x < origin then .ub "negative index" else wr l i (x - origin))
    (fun (i : Nat) (m : List Nat) => m = (l.take i).map (· - origin) ++ l.drop i) (by simp) (by
      intro i m hi hm
      subst hm
      have hlen : ((l.take i).map (· - origin)).length = i := by simp; omega
      have hx : ((l.take i).map (· - origin) ++ l.drop i)[i]? = some l[i] := by
        rw [List.getElem?_append_right (by omega), hlen]
        simp [hi]
      rw [rd_of_getElem? hx, Res.ok_bind, if_neg (by have := h l[i] (List.getElem_mem hi); omega),
        wr_ok (by simp; omega)]
      refine Res.Sat.ok ?_
      rw [List.set_append_right _ _ (by omega), hlen, Nat.sub_self, List.drop_eq_getElem_cons hi,
        List.set_cons_zero, List.take_add_one, List.map_append, List.append_assoc]
      simp [hi])
  obtain ⟨m, h1, h2⟩ := this
  rw [h1, h2]
  simp

/-- **C78 (constructor with an origin).** Arrays that count from `origin` give the matrix with the indices
counted from 0. -/
theorem C78_of_arrays_origin [Zero α] (M N NNZ : Nat) (row col : List Nat) (value : List α)
    (origin : Nat) (hr : NNZ ≤ row.length) (hc : NNZ ≤ col.length) (hv : NNZ ≤ value.length)
    (h1 : ∀ x ∈ row, origin ≤ x) (h2 : ∀ x ∈ col, origin ≤ x) :
    ∃ A, Coo.ofArraysOrigin M N NNZ row col value origin = .ok A ∧ A.WF ∧ A.rowN = M ∧ A.colN = N ∧
      A.nnz = NNZ ∧ A.entries =
        ((tripleZip row col value).take NNZ).map (fun e => (e.1 - origin, e.2.1 - origin, e.2.2)) := by
  obtain ⟨A, hA, hw, e1, e2, e3, e4⟩ := C78_of_arrays M N NNZ row col value hr hc hv
  unfold Coo.ofArraysOrigin
  rw [hA, Res.ok_bind]
  -- the index arrays of `A` are the first `NNZ` indices
  have hR : A.rowIdx = row.take NNZ ∧ A.colIdx = col.take NNZ ∧ A.alloc = NNZ := by
    unfold Coo.ofArrays at hA
    obtain ⟨B, hB, hA⟩ := Res.bind_eq_ok.mp hA
    obtain ⟨r, hr', hA⟩ := Res.bind_eq_ok.mp hA
    obtain ⟨c, hc', hA⟩ := Res.bind_eq_ok.mp hA
    obtain ⟨v, hv', hA⟩ := Res.bind_eq_ok.mp hA
    have hBl : B.rowIdx.length = NNZ ∧ B.colIdx.length = NNZ ∧ B.alloc = NNZ := by
      simp [Coo.resize, Coo.new, reallocCopy, readN] at hB
      cases hB
      simp
    rw [vcopy_all hr hBl.1] at hr'
    rw [vcopy_all hc hBl.2.1] at hc'
    cases hr'; cases hc'; cases hA
    exact ⟨rfl, rfl, hBl.2.2⟩
  have l1 : A.rowIdx.length = NNZ := by rw [hR.1]; simp [hr]
  have l2 : A.colIdx.length = NNZ := by rw [hR.2.1]; simp [hc]
  have s1 : Coo.shiftDown A.rowIdx NNZ origin = .ok (A.rowIdx.map (· - origin)) := by
    have := shiftDown_ok (l := A.rowIdx) (origin := origin)
      (fun x hx => h1 x (by rw [hR.1] at hx; exact List.mem_of_mem_take hx))
    rwa [l1] at this
  have s2 : Coo.shiftDown A.colIdx NNZ origin = .ok (A.colIdx.map (· - origin)) := by
    have := shiftDown_ok (l := A.colIdx) (origin := origin)
      (fun x hx => h2 x (by rw [hR.2.1] at hx; exact List.mem_of_mem_take hx))
    rwa [l2] at this
  rw [s1, Res.ok_bind, s2, Res.ok_bind]
  refine ⟨_, rfl, ⟨hw.created, ?_, ?_, hw.lenV, hw.nnz_le⟩, e1, e2, e3, ?_⟩
  · simpa using hw.lenR
  · simpa using hw.lenC
  · rw [← e4]
    unfold Coo.entries
    simp only
    apply List.ext_getElem
    · simp
    · intro k _ _; simp

/-- **C78 (copy constructor).** A copy has the same size and the same entries, in its own storage. -/
theorem C78_copy [Zero α] (B : Coo α) (hB : B.WF) :
    ∃ A, Coo.copy B = .ok A ∧ A.WF ∧ A.rowN = B.rowN ∧ A.colN = B.colN ∧ A.nnz = B.nnz ∧
      A.entries = B.entries :=
  C78_of_arrays B.rowN B.colN B.nnz B.rowIdx B.colIdx B.val (by rw [hB.lenR]; exact hB.nnz_le)
    (by rw [hB.lenC]; exact hB.nnz_le) (by rw [hB.lenV]; exact hB.nnz_le)

/-- **C78 (`COO(coo, value)`).** The same positions, each with `value`. -/
theorem C78_copy_with [Zero α] (B : Coo α) (hB : B.WF) (value : α) :
    ∃ A, Coo.copyWith B value = .ok A ∧ A.WF ∧ A.rowN = B.rowN ∧ A.colN = B.colN ∧
      A.entries = B.entries.map (fun e => (e.1, e.2.1, value)) := by
  obtain ⟨A, h1, h2, h3, h4, _, h6⟩ := C78_of_arrays B.rowN B.colN B.nnz B.rowIdx B.colIdx
    (List.replicate B.nnz value) (by rw [hB.lenR]; exact hB.nnz_le)
    (by rw [hB.lenC]; exact hB.nnz_le) (by simp)
  refine ⟨A, h1, h2, h3, h4, ?_⟩
  rw [h6]
  have := hB.lenR; have := hB.lenC; have := hB.lenV; have := hB.nnz_le
  apply List.ext_getElem
  · simp [tripleZip, Coo.entries]; omega
  · intro k hk1 hk2
    simp [tripleZip, Coo.entries]

/-- **C78 (`set_ptr`).** On any matrix object, index and value arrays of the same length replace size and
entries. -/
theorem C78_set_ptr [Zero α] (A : Coo α) (hA : A.WF) (rN cN : Nat) (r c : List Nat) (v : List α)
    (hr : r.length = v.length) (hc : c.length = v.length) :
    ∃ B, A.setPtr rN cN r c v.length v = .ok B ∧ B.WF ∧ B.rowN = rN ∧ B.colN = cN ∧
      B.nnz = v.length ∧ B.entries = tripleZip r c v := by
  unfold Coo.setPtr Coo.resize
  simp only [hA.created, if_true]
  rw [reallocCopy_ok (by rw [hA.lenV]; have := hA.nnz_le; omega)]
  simp only [Res.ok_bind]
  rw [vcopy_all (Nat.le_refl _) (by have := hA.lenV; have := hA.nnz_le; simp; omega), Res.ok_bind]
  refine ⟨_, rfl, ⟨rfl, by simp, by simp, by simp, Nat.le_refl _⟩, rfl, rfl, rfl, ?_⟩
  unfold Coo.entries tripleZip
  have e1 : r.take v.length = r := List.take_of_length_le (by omega)
  have e2 : c.take v.length = c := List.take_of_length_le (by omega)
  simp [stdResize, hr, hc, e1, e2]
  rw [List.take_of_length_le (by simp)]

/-- **C78, violated**: `set_ptr` accepts index arrays of any length; what is missing becomes index 0. -/
theorem C78_set_ptr_violated :
    ∃ B : Coo Int, (Coo.new 2 2).setPtr 2 2 [1] [] 3 [7, 8, 9] = .ok B ∧
      B.entries = [(1, 0, 7), (0, 0, 8), (0, 0, 9)] := ⟨_, rfl, rfl⟩

/-- what `A = B` between well-formed matrices does when `B` has at least as many entries as `A` -/
theorem assign_coo [DecidableEq α] (A B : Coo α) (hA : A.WF) (hB : B.WF) (hn : A.nnz ≤ B.nnz)
    (hr : A.rowN = B.rowN) (hc : A.colN = B.colN) :
    (B.rowIdx.take A.nnz = A.rowIdx.take A.nnz ∧ B.colIdx.take A.nnz = A.colIdx.take A.nnz →
      A.assign B = .ok { A with val := B.val.take A.nnz ++ A.val.drop A.nnz }) ∧
    (¬ (B.rowIdx.take A.nnz = A.rowIdx.take A.nnz ∧ B.colIdx.take A.nnz = A.colIdx.take A.nnz) →
      ∃ m, A.assign B = .abort m) := by
  have a1 := hA.lenR; have a2 := hA.lenC; have a3 := hA.lenV; have a4 := hA.nnz_le
  have b1 := hB.lenR; have b2 := hB.lenC; have b3 := hB.lenV; have b4 := hB.nnz_le
  have hs : isSameSize A.rowN A.colN B.rowN B.colN = true := by simp [isSameSize, hr, hc]
  have hst : A.isSameStructure B =
      .ok (decide (B.rowIdx.take A.nnz = A.rowIdx.take A.nnz ∧
        B.colIdx.take A.nnz = A.colIdx.take A.nnz)) := by
    unfold Coo.isSameStructure
    rw [vequal_ok (by omega) (by omega), vequal_ok (by omega) (by omega)]
    simp only [andThen_ok, hr, hc]
    by_cases h1 : B.colIdx.take A.nnz = A.colIdx.take A.nnz <;>
      by_cases h2 : B.rowIdx.take A.nnz = A.rowIdx.take A.nnz <;>
      simp [h1, h2, Eq.comm (a := A.rowIdx.take A.nnz), Eq.comm (a := A.colIdx.take A.nnz)]
  unfold Coo.assign
  rw [hs, cassert_true, Res.ok_bind, hst, Res.ok_bind]
  constructor
  · intro h
    rw [cassert_decide h, Res.ok_bind, vcopy_ok (by omega) (by omega), Res.ok_bind]
  · intro h
    refine ⟨"assert", ?_⟩
    rw [cassert, decide_eq_false h]
    rfl

/-- **C78 (`A = B`)**, the part that holds: for matrices with the same number of entries, `A = B` gives `A`
the entries of `B` if both have the same size and the same positions in the same order, and aborts
otherwise. -/
theorem C78_assign_partial [DecidableEq α] (A B : Coo α) (hA : A.WF) (hB : B.WF) (hn : A.nnz = B.nnz) :
    (A.rowN = B.rowN ∧ A.colN = B.colN ∧
        A.entries.map (fun e => (e.1, e.2.1)) = B.entries.map (fun e => (e.1, e.2.1)) →
      ∃ A', A.assign B = .ok A' ∧ A'.WF ∧ A'.rowN = A.rowN ∧ A'.colN = A.colN ∧ A'.nnz = A.nnz ∧
        A'.entries = B.entries) ∧
    (¬ (A.rowN = B.rowN ∧ A.colN = B.colN ∧
        A.entries.map (fun e => (e.1, e.2.1)) = B.entries.map (fun e => (e.1, e.2.1))) →
      ∃ m, A.assign B = .abort m) := by
  have a1 := hA.lenR; have a2 := hA.lenC; have a3 := hA.lenV; have a4 := hA.nnz_le
  have b1 := hB.lenR; have b2 := hB.lenC; have b3 := hB.lenV; have b4 := hB.nnz_le
  have pos : ∀ (X : Coo α), X.WF → X.entries.map (fun e => (e.1, e.2.1)) =
      (X.rowIdx.take X.nnz).zip (X.colIdx.take X.nnz) := by
    intro X hX
    have := hX.lenR; have := hX.lenC; have := hX.lenV; have := hX.nnz_le
    apply List.ext_getElem
    · simp [Coo.entries]; omega
    · intro k h1 h2
      simp [Coo.entries]
  have hzip : A.entries.map (fun e => (e.1, e.2.1)) = B.entries.map (fun e => (e.1, e.2.1)) ↔
      (B.rowIdx.take A.nnz = A.rowIdx.take A.nnz ∧ B.colIdx.take A.nnz = A.colIdx.take A.nnz) := by
    rw [pos A hA, pos B hB, ← hn]
    constructor
    · intro h
      have e1 := congrArg (List.map Prod.fst) h
      have e2 := congrArg (List.map Prod.snd) h
      rw [List.map_fst_zip (by simp; omega), List.map_fst_zip (by simp; omega)] at e1
      rw [List.map_snd_zip (by simp; omega), List.map_snd_zip (by simp; omega)] at e2
      exact ⟨e1.symm, e2.symm⟩
    · rintro ⟨h1, h2⟩; rw [h1, h2]
  constructor
  · rintro ⟨hr, hc, hp⟩
    have hp' := hzip.mp hp
    refine ⟨_, (assign_coo A B hA hB (by omega) hr hc).1 hp', ⟨hA.created, hA.lenR, hA.lenC, ?_, a4⟩,
      rfl, rfl, rfl, ?_⟩
    · simp; omega
    · unfold Coo.entries
      simp only
      rw [take_zip, take_zip, take_zip, take_zip,
        List.take_append_of_le_length (by simp; omega), List.take_take, Nat.min_self, ← hn, hp'.1, hp'.2]
  · intro h
    by_cases hs : A.rowN = B.rowN ∧ A.colN = B.colN
    · exact (assign_coo A B hA hB (by omega) hs.1 hs.2).2 (fun hp => h ⟨hs.1, hs.2, hzip.mpr hp⟩)
    · refine ⟨"assert", ?_⟩
      unfold Coo.assign
      have : isSameSize A.rowN A.colN B.rowN B.colN = false := by
        unfold isSameSize
        rw [if_pos]
        rcases Decidable.not_and_iff_or_not.mp hs with h | h
        · exact Or.inl h
        · exact Or.inr h
      rw [this]; rfl

/-- **C78, violated**: for **all** matrices `B` that begin with the positions of `A` and have more entries,
`A = B` is accepted and the rest of `B` is lost. -/
theorem C78_assign_violated [DecidableEq α] (A B : Coo α) (hA : A.WF) (hB : B.WF) (hr : A.rowN = B.rowN)
    (hc : A.colN = B.colN) (hlt : A.nnz < B.nnz)
    (h1 : B.rowIdx.take A.nnz = A.rowIdx.take A.nnz) (h2 : B.colIdx.take A.nnz = A.colIdx.take A.nnz) :
    ∃ A', A.assign B = .ok A' ∧ A'.entries.length < B.entries.length := by
  have a1 := hA.lenR; have a2 := hA.lenC; have a3 := hA.lenV; have a4 := hA.nnz_le
  have b1 := hB.lenR; have b2 := hB.lenC; have b3 := hB.lenV; have b4 := hB.nnz_le
  refine ⟨_, (assign_coo A B hA hB (by omega) hr hc).1 ⟨h1, h2⟩, ?_⟩
  simp [Coo.entries]; omega

/-- and the other way round the check reads outside `B`, whenever `A` has more entries than `B` has room
for. -/
theorem C78_assign_ub (A B : Coo α) (hB : B.WF) (hr : A.rowN = B.rowN)
    (hc : A.colN = B.colN) (hlt : B.alloc < A.nnz) :
    ∃ m, A.assign B = .ub m := by
  unfold Coo.assign
  have hs : isSameSize A.rowN A.colN B.rowN B.colN = true := by simp [isSameSize, hr, hc]
  rw [hs, cassert_true, Res.ok_bind]
  obtain ⟨m, hm⟩ : ∃ m, vequal A.nnz A.colIdx B.colIdx = .ub m :=
    vequal_ub (Or.inl (by rw [hB.lenC]; exact hlt))
  refine ⟨m, ?_⟩
  unfold Coo.isSameStructure
  rw [hm]; rfl

/-! non-vacuity -/

def exCoo : Coo Int := ⟨2, 3, [0, 1], [2, 0], [5, 6], 2, 2, true⟩

theorem exCoo_wf : exCoo.WF := ⟨rfl, rfl, rfl, rfl, by decide⟩

example : Coo.ofArraysOrigin 2 3 2 [1, 2] [3, 1] [(5 : Int), 6] 1 = .ok exCoo ∧
    Coo.copy exCoo = .ok exCoo ∧
    Coo.copyWith exCoo 9 = .ok { exCoo with val := [9, 9] } ∧
    exCoo.assign { exCoo with val := [7, 8] } = .ok { exCoo with val := [7, 8] } ∧
    exCoo.entries = [(0, 2, 5), (1, 0, 6)] := ⟨rfl, rfl, rfl, rfl, rfl⟩

/-- one more entry on the right-hand side: it is lost -/
example : ∃ A', exCoo.assign ⟨2, 3, [0, 1, 1], [2, 0, 1], [7, 8, 9], 3, 3, true⟩ = .ok A' ∧
    A'.entries = [(0, 2, 7), (1, 0, 8)] := ⟨_, rfl, rfl⟩

example : ∃ m, (⟨2, 3, [0, 1, 1], [2, 0, 1], [7, 8, 9], 3, 3, true⟩ : Coo Int).assign exCoo = .ub m :=
  C78_assign_ub _ _ exCoo_wf rfl rfl (by decide)

end Verif
