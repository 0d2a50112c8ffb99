import Verif.Model.Print
import Verif.Spec.CooSpec
import Verif.Spec.VecSpec
import Verif.Lemmas.CrsToCoo
import Verif.Lemmas.DenseBasic
import Verif.Lemmas.TensorCrsToCoo

/-!
C90: `print_all` prints every element exactly once, in order, with its 1-based position.
-/

namespace Verif

open Spec

variable {α : Type}

/-! ### loops that append -/

/-- a loop that appends one line per step; `P i` says what the `i`-th line is -/
theorem forN_lines {β : Type} {n : Nat} {body : Nat → List β → Res (List β)} (P : Nat → β → Prop)
    (h : ∀ i, i < n → ∃ y, P i y ∧ ∀ out, body i out = .ok (out ++ [y])) (out : List β) :
    ∃ ys, forN n body out = .ok (out ++ ys) ∧ ys.length = n ∧ ∀ i, i < n → ∃ y, P i y ∧ ys[i]? = some y := by
  have := forN_sat (n := n) (body := body) (s := out)
    (fun i s => ∃ ys, s = out ++ ys ∧ ys.length = i ∧ ∀ k, k < i → ∃ y, P k y ∧ ys[k]? = some y)
    ⟨[], by simp, rfl, fun k hk => by omega⟩
    (by
      rintro i s hi ⟨ys, rfl, hl, hk⟩
      obtain ⟨y, hy, hb⟩ := h i hi
      rw [hb, Res.sat_ok]
      refine ⟨ys ++ [y], by simp, by simp [hl], fun k hki => ?_⟩
      by_cases e : k = i
      · exact ⟨y, e ▸ hy, by rw [e, ← hl]; simp⟩
      · obtain ⟨z, hz, hzz⟩ := hk k (by omega)
        exact ⟨z, hz, by rw [List.getElem?_append_left (by omega), hzz]⟩)
  obtain ⟨s, h1, ys, rfl, h2, h3⟩ := this
  exact ⟨ys, h1, h2, h3⟩

/-- a loop that appends `m` lines per step -/
theorem forN_blocks {β : Type} {n m : Nat} {body : Nat → List β → Res (List β)} (P : Nat → Nat → β → Prop)
    (h : ∀ i, i < n → ∀ out, ∃ ys, body i out = .ok (out ++ ys) ∧ ys.length = m ∧
      ∀ j, j < m → ∃ y, P i j y ∧ ys[j]? = some y) (out : List β) :
    ∃ ys, forN n body out = .ok (out ++ ys) ∧ ys.length = n * m ∧
      ∀ i, i < n → ∀ j, j < m → ∃ y, P i j y ∧ ys[m * i + j]? = some y := by
  have := forN_sat (n := n) (body := body) (s := out)
    (fun i s => ∃ ys, s = out ++ ys ∧ ys.length = i * m ∧
      ∀ k, k < i → ∀ j, j < m → ∃ y, P k j y ∧ ys[m * k + j]? = some y)
    ⟨[], by simp, by simp, fun k hk => by omega⟩
    (by
      rintro i s hi ⟨ys, rfl, hl, hk⟩
      obtain ⟨zs, hb, hz, hzz⟩ := h i hi (out ++ ys)
      rw [hb, Res.sat_ok]
      refine ⟨ys ++ zs, by simp, by simp [hl, hz, Nat.succ_mul], fun k hki j hj => ?_⟩
      by_cases e : k = i
      · subst e
        obtain ⟨y, hy, hyy⟩ := hzz j hj
        refine ⟨y, hy, ?_⟩
        rw [List.getElem?_append_right (by rw [hl, Nat.mul_comm]; omega), hl, Nat.mul_comm m k,
          Nat.add_sub_cancel_left, hyy]
      · obtain ⟨z, hz, hzz⟩ := hk k (by omega) j hj
        refine ⟨z, hz, ?_⟩
        have : m * k + j < i * m := by
          have : m * (k + 1) ≤ m * i := Nat.mul_le_mul_left _ (by omega)
          rw [Nat.mul_succ] at this
          rw [Nat.mul_comm i m]; omega
        rw [List.getElem?_append_left (by omega), hzz])
  obtain ⟨s, h1, ys, rfl, h2, h3⟩ := this
  exact ⟨ys, h1, h2, h3⟩

/-! ### vectors and matrices -/

/-- **C90 (vector).** A vector that owns its storage prints one line per element, in order. -/
theorem C90_vector (v : Vec α) (hv : v.WF) : ∃ out, v.print = .ok out ∧ out.length = v.nnz ∧
    ∀ i, i < v.nnz → ∃ x, v.get i = .ok x ∧ out[i]? = some ([], x) := by
  have h1 := hv.lenV; have h2 := hv.nnz_le; have h3 := hv.first0
  obtain ⟨ys, e1, e2, e3⟩ := forN_lines (n := v.nnz) (body := fun i out => do
      let x ← rd v.val i
      .ok (out ++ [(([] : List Nat), x)])) (fun i y => ∃ x, v.get i = .ok x ∧ y = ([], x))
    (by
      intro i hi
      refine ⟨([], v.val[i]'(by omega)), ⟨v.val[i]'(by omega), ?_, rfl⟩, fun out => ?_⟩
      · unfold Vec.get; rw [h3, Nat.zero_add, rd_ok (by omega)]
      · rw [rd_ok (by omega), Res.ok_bind]) []
  refine ⟨ys, e1, e2, fun i hi => ?_⟩
  obtain ⟨_, ⟨x, hx, rfl⟩, hy⟩ := e3 i hi
  exact ⟨x, hx, hy⟩

/-- **C90 (view1D).** A view prints its own elements, in order. -/
theorem C90_view1D (w : View1D) (b : List α) (hl : w.last = w.first + w.range) (hb : w.last ≤ b.length) :
    ∃ out, w.print b = .ok out ∧ out.length = w.range ∧
      ∀ i, i < w.range → ∃ x, w.get b i = .ok x ∧ out[i]? = some ([], x) := by
  have := forRange_sat (lo := w.first) (hi := w.last) (body := fun i out => do
      let x ← rd b i
      .ok (out ++ [(([] : List Nat), x)])) (s := [])
    (fun i (s : List (Line α)) => s.length = i - w.first ∧
      ∀ k, k < i - w.first → ∃ x, w.get b k = .ok x ∧ s[k]? = some ([], x)) (by omega)
    ⟨by simp, fun k hk => by omega⟩
    (by
      rintro i s h1 h2 ⟨hl, hk⟩
      rw [rd_ok (by omega), Res.ok_bind, Res.sat_ok]
      refine ⟨by simp [hl]; omega, fun k hki => ?_⟩
      by_cases e : k = i - w.first
      · refine ⟨b[i]'(by omega), ?_, ?_⟩
        · unfold View1D.get
          have : k + w.first = i := by omega
          rw [this, rd_ok (by omega)]
        · rw [e, ← hl]; simp
      · obtain ⟨x, hx, hxx⟩ := hk k (by omega)
        exact ⟨x, hx, by rw [List.getElem?_append_left (by omega), hxx]⟩)
  obtain ⟨out, h1, h2, h3⟩ := this
  have e : w.last - w.first = w.range := by omega
  rw [e] at h2 h3
  exact ⟨out, h1, h2, h3⟩

/-- **C90 (COO).** The stored elements, in storage order, with their 1-based row and column. -/
theorem C90_coo (A : Coo α) (hA : A.WF) :
    A.print = .ok (A.entries.map fun e => ([e.1 + 1, e.2.1 + 1], e.2.2)) := by
  have h1 := hA.lenR; have h2 := hA.lenC; have h3 := hA.lenV; have h4 := hA.nnz_le
  have := forN_sat (n := A.nnz) (body := fun k out => do
      let r ← rd A.rowIdx k
      let c ← rd A.colIdx k
      let x ← rd A.val k
      .ok (out ++ [([r + 1, c + 1], x)])) (s := [])
    (fun i s => s = (((A.rowIdx.zip (A.colIdx.zip A.val)).take i).map
      fun e => ([e.1 + 1, e.2.1 + 1], e.2.2)))
    (by simp)
    (by
      rintro i s hi rfl
      rw [rd_ok (by omega), Res.ok_bind, rd_ok (by omega), Res.ok_bind, rd_ok (by omega), Res.ok_bind, Res.sat_ok,
        List.take_succ_eq_append_getElem (by simp; omega)]
      simp)
  obtain ⟨s, e1, e2⟩ := this
  unfold Coo.print
  rw [e1, e2]; rfl

/-- **C90 (CRS).** The stored elements row by row, with their 1-based row and column. -/
theorem C90_crs (A : Crs α) (hA : A.Safe) :
    A.print = .ok (A.entries.map fun e => ([e.1 + 1, e.2.1 + 1], e.2.2)) := by
  have hlP := hA.length_pairs
  unfold Crs.print Crs.entries
  have := forN_sat (n := A.rowN) (body := fun i out => do
      let lo ← rd A.rowPtr i
      let hi ← rd A.rowPtr (i + 1)
      forRange lo hi (fun j out => do
        let c ← rd A.colInd j
        let x ← rd A.val j
        .ok (out ++ [([i + 1, c + 1], x)])) out) (s := [])
    (fun i s => s = ((List.range i).flatMap A.rowEntries).map fun e => ([e.1 + 1, e.2.1 + 1], e.2.2))
    (by simp)
    (by
      rintro i s hi rfl
      rw [rd_ptr hA.lenP (by omega), Res.ok_bind, rd_ptr hA.lenP (by omega), Res.ok_bind]
      rw [List.range_succ, List.flatMap_append, List.map_append, List.flatMap_singleton]
      by_cases hle : A.ptr i ≤ A.ptr (i + 1)
      · have hp := hA.ptr_le (i + 1) (by omega)
        refine (forRange_sat (fun j s => s = ((List.range i).flatMap A.rowEntries).map
          (fun e => ([e.1 + 1, e.2.1 + 1], e.2.2)) ++
          ((A.pairs.take j).drop (A.ptr i)).map fun p => ([i + 1, p.1 + 1], p.2)) hle ?_ ?_).mono ?_
        · rw [List.drop_eq_nil_of_le (by simp)]; simp
        · rintro j s h1 h2 rfl
          rw [hA.rd_col (by omega), Res.ok_bind, hA.rd_val (by omega), Res.ok_bind, Res.sat_ok,
            List.take_succ_eq_append_getElem (by omega), List.drop_append_of_le_length (by simp; omega)]
          simp
        · rintro s rfl
          rw [hA.rowEntries hi, List.map_map]; rfl
      · rw [forRange_empty _ _ (by omega), Res.sat_ok, row_empty (by omega)]
        simp)
  obtain ⟨s, e1, e2⟩ := this
  rw [e1, e2]

/-- **C90 (Dense).** A dense matrix that owns its storage prints every element, row by row, with its 1-based
position. -/
theorem C90_dense (D : Dense α) (hD : D.WF) (hf : D.first = 0) :
    ∃ out, D.print = .ok out ∧ out.length = D.rowN * D.colN ∧
      ∀ i, i < D.rowN → ∀ j, j < D.colN →
        ∃ x, D.at_ i j = .ok x ∧ out[D.colN * i + j]? = some ([i + 1, j + 1], x) := by
  have key := forN_blocks (n := D.rowN) (m := D.colN) (body := fun i out =>
      forN D.colN (fun j out => do
        let x ← rd D.val (i * D.colN + j)
        .ok (out ++ [([i + 1, j + 1], x)])) out)
    (fun i j (y : Line α) => ∃ x, D.at_ i j = .ok x ∧ y = ([i + 1, j + 1], x))
    (by
      intro i hi out
      refine forN_lines (fun j y => ∃ x, D.at_ i j = .ok x ∧ y = ([i + 1, j + 1], x)) ?_ out
      intro j hj
      obtain ⟨x, hx, _⟩ := Dense.at_exists hD hi hj
      refine ⟨([i + 1, j + 1], x), ⟨x, hx, rfl⟩, fun out => ?_⟩
      rw [Dense.at_eq_rd hD hi hj, hf, Nat.zero_add] at hx
      rw [Nat.mul_comm i D.colN, hx, Res.ok_bind]) []
  obtain ⟨ys, e1, e2, e3⟩ := key
  refine ⟨ys, e1, e2, fun i hi j hj => ?_⟩
  obtain ⟨_, ⟨x, hx, rfl⟩, hy⟩ := e3 i hi j hj
  exact ⟨x, hx, hy⟩

/-- **C90 (view_Dense).** A view of a dense matrix prints its own elements. -/
theorem C90_view_dense (T : Dense α) (hT : T.WF) (hf : T.first = 0) (w : ViewDense)
    (hw : w.first + w.rowN * w.colN ≤ T.nnz) :
    ∃ out, w.print T.val = .ok out ∧ out.length = w.rowN * w.colN ∧
      ∀ i, i < w.rowN → ∀ j, j < w.colN →
        ∃ x, w.at_ T i j = .ok x ∧ out[w.colN * i + j]? = some ([i + 1, j + 1], x) := by
  have h1 := hT.lenV; have h2 := hT.window
  have key := forN_blocks (n := w.rowN) (m := w.colN) (body := fun i out =>
      forN w.colN (fun j out => do
        let x ← rd T.val (w.first + i * w.colN + j)
        .ok (out ++ [([i + 1, j + 1], x)])) out)
    (fun i j (y : Line α) => ∃ x, w.at_ T i j = .ok x ∧ y = ([i + 1, j + 1], x))
    (by
      intro i hi out
      refine forN_lines (fun j y => ∃ x, w.at_ T i j = .ok x ∧ y = ([i + 1, j + 1], x)) ?_ out
      intro j hj
      have : (i + 1) * w.colN ≤ w.rowN * w.colN := Nat.mul_le_mul_right _ hi
      rw [Nat.succ_mul] at this
      have hlt : w.first + i * w.colN + j < T.nnz := by omega
      refine ⟨([i + 1, j + 1], T.val[w.first + i * w.colN + j]'(by omega)), ⟨_, ?_, rfl⟩, fun out => ?_⟩
      · unfold ViewDense.at_ Dense.at1
        rw [cassert_decide hlt, Res.ok_bind, cassert_decide (by omega), Res.ok_bind, hf, Nat.zero_add,
          rd_ok (by omega)]
      · rw [rd_ok (by omega), Res.ok_bind]) []
  obtain ⟨ys, e1, e2, e3⟩ := key
  refine ⟨ys, e1, e2, fun i hi j hj => ?_⟩
  obtain ⟨_, ⟨x, hx, rfl⟩, hy⟩ := e3 i hi j hj
  exact ⟨x, hx, hy⟩

/-! ### tensors -/

theorem printShape_ok (shape : List Nat) (n : Nat) (b : List α) (off : Nat) (hn : n = volume shape)
    (hb : off + n ≤ b.length) :
    ∃ out, printShape shape n b off = .ok out ∧ out.length = n ∧
      ∀ pos, InShape shape pos → ∃ x, rd b (off + rowMajor shape pos) = .ok x ∧
        out[rowMajor shape pos]? = some (pos.map (· + 1), x) := by
  have key := forN_lines (n := n) (body := fun i out => do
      let pos ← unindex shape i
      let x ← rd b (off + i)
      .ok (out ++ [(pos.map (· + 1), x)]))
    (fun i (y : Line α) => ∃ pos x, unindex shape i = .ok pos ∧ rd b (off + i) = .ok x ∧ y = (pos.map (· + 1), x))
    (by
      intro i hi
      obtain ⟨pos, hp, _, _⟩ := unindex_ok (shape := shape) (k := i) (by omega)
      refine ⟨_, ⟨pos, b[off + i]'(by omega), hp, rd_ok (by omega), rfl⟩, fun out => ?_⟩
      rw [hp, Res.ok_bind, rd_ok (by omega), Res.ok_bind]) []
  obtain ⟨ys, e1, e2, e3⟩ := key
  refine ⟨ys, by simpa [printShape] using e1, e2, fun pos hp => ?_⟩
  obtain ⟨_, ⟨p, x, hp1, hx, rfl⟩, hy⟩ := e3 (rowMajor shape pos) (by rw [hn]; exact rowMajor_lt hp)
  rw [unindex_rowMajor hp] at hp1
  cases hp1
  exact ⟨x, hx, hy⟩

/-- **C90 (tensor_Dense).** Every element once, in row-major order, with its 1-based position. -/
theorem C90_tensor (T : TDense α) (hT : T.WF) (hf : T.first = 0) :
    ∃ out, T.print = .ok out ∧ out.length = T.nnz ∧
      ∀ pos, InShape T.shape pos →
        ∃ x, T.at_ pos = .ok x ∧ out[rowMajor T.shape pos]? = some (pos.map (· + 1), x) := by
  have h1 := hT.lenV; have h2 := hT.window
  obtain ⟨out, e1, e2, e3⟩ := printShape_ok T.shape T.nnz T.val 0 hT.nnz_eq (by omega)
  refine ⟨out, e1, e2, fun pos hp => ?_⟩
  obtain ⟨x, hx, hy⟩ := e3 pos hp
  exact ⟨x, by rw [TDense.at_ok hT hp, hf]; exact hx, hy⟩

/-- **C90 (view_tensor_Dense).** A view of shape `shape` at offset `first` of the buffer `b`. -/
theorem C90_view_tensor (shape : List Nat) (first : Nat) (b : List α) (hb : first + volume shape ≤ b.length) :
    ∃ out, viewTensorPrint shape first (volume shape) b = .ok out ∧ out.length = volume shape ∧
      ∀ pos, InShape shape pos → ∃ x, b[first + rowMajor shape pos]? = some x ∧
        out[rowMajor shape pos]? = some (pos.map (· + 1), x) := by
  obtain ⟨out, e1, e2, e3⟩ := printShape_ok shape (volume shape) b first rfl hb
  refine ⟨out, e1, e2, fun pos hp => ?_⟩
  obtain ⟨x, hx, hy⟩ := e3 pos hp
  exact ⟨x, rd_eq_ok.mp hx, hy⟩

/-- **C90 (tensor_COO).** The stored elements, in storage order, with their 1-based position. -/
theorem C90_tcoo (A : TCoo α) (hA : A.WF) :
    A.print = .ok (A.entries.map fun e => (e.1.map (· + 1), e.2)) := by
  have h1 := hA.lenI; have h3 := hA.lenV; have h4 := hA.nnz_le
  have := forN_sat (n := A.nnz) (body := fun k out => do
      let pos ← rd A.index k
      let x ← rd A.val k
      .ok (out ++ [(pos.map (· + 1), x)])) (s := [])
    (fun i s => s = (((A.index.zip A.val).take i).map fun e => (e.1.map (· + 1), e.2)))
    (by simp)
    (by
      rintro i s hi rfl
      rw [rd_ok (by omega), Res.ok_bind, rd_ok (by omega), Res.ok_bind, Res.sat_ok,
        List.take_succ_eq_append_getElem (by simp; omega)]
      simp)
  obtain ⟨s, e1, e2⟩ := this
  unfold TCoo.print
  rw [e1, e2]; rfl

namespace TCrs

/-- what is printed so far: positions `ix`, the first `nz` values -/
def Printed (W : List α) (ix : List (List Nat)) (nz : Nat) (s : List (Line α) × Nat) : Prop :=
  s.1.map (·.1) = ix.map (fun p => p.map (· + 1)) ∧ s.1.map (·.2) = W.take nz ∧ s.2 = nz

theorem printElems {A : TCrs α} {W : List α} (hW : ∀ k, k < W.length → rd A.val (A.first + k) = rd W k)
    {B : Crs α} (hB : B.Safe) {up : List Nat} {i lo hi nz : Nat} {ix : List (List Nat)}
    (hlh : lo ≤ hi) (hhi : hi ≤ B.nnz) (hnz : nz + (hi - lo) ≤ W.length)
    {s : List (Line α) × Nat} (hs : Printed W ix nz s) :
    (forRange lo hi (printElem A up i B.colInd) s).Sat
      (Printed W (ix ++ ((B.pairs.take hi).drop lo).map (fun p => up ++ [i, p.1])) (nz + (hi - lo))) := by
  have hlP := hB.length_pairs
  refine forRange_sat (fun j s => Printed W (ix ++ ((B.pairs.take j).drop lo).map
    (fun p => up ++ [i, p.1])) (nz + (j - lo)) s) hlh ?_ ?_
  · rw [List.drop_eq_nil_of_le (by simp)]
    simpa using hs
  · rintro j s h1 h2 ⟨e1, e2, e3⟩
    unfold printElem
    rw [hB.rd_col (by omega), Res.ok_bind, hW _ (by omega), rd_ok (by omega), Res.ok_bind, Res.sat_ok]
    refine ⟨?_, ?_, ?_⟩
    · dsimp only
      rw [List.map_append, e1, List.take_succ_eq_append_getElem (by omega),
        List.drop_append_of_le_length (by simp; omega)]
      simp
    · dsimp only
      have e5 : nz + (j + 1 - lo) = s.2 + 1 := by omega
      rw [List.map_append, e2, e5, ← e3, List.take_succ_eq_append_getElem (by omega)]
      simp
    · dsimp only; omega

theorem printRows {A : TCrs α} {W : List α} (hW : ∀ k, k < W.length → rd A.val (A.first + k) = rd W k)
    {B : Crs α} (hB : B.Tiled) {up : List Nat} {nz : Nat} {ix : List (List Nat)}
    (hnz : nz + B.nnz ≤ W.length) {s : List (Line α) × Nat} (hs : Printed W ix nz s) :
    (forN (B.rowPtr.length - 1) (fun i s => do
        let lo ← rd B.rowPtr i
        let hi ← rd B.rowPtr (i + 1)
        forRange lo hi (printElem A up i B.colInd) s) s).Sat
      (Printed W (ix ++ B.entries.map (fun e => up ++ [e.1, e.2.1])) (nz + B.nnz)) := by
  obtain ⟨m, hm, h0, hmn, hmono, htail⟩ := hB.tile
  have hl := hB.lenP
  have e0 : B.rowPtr.length - 1 = B.rowN := by omega
  rw [e0]
  refine (forN_sat (fun i s => Printed W (ix ++ ((List.range i).flatMap B.rowEntries).map
    (fun e => up ++ [e.1, e.2.1])) (nz + (if i ≤ m then B.ptr i else B.nnz)) s) ?_ ?_).mono ?_
  · simpa [h0] using hs
  · intro i s hi hI
    rw [rd_ptr hB.lenP (by omega), Res.ok_bind, rd_ptr hB.lenP (by omega), Res.ok_bind]
    by_cases him : i < m
    · rw [if_pos (by omega)] at hI
      have hp := hB.ptr_le (i + 1) (by omega)
      have hmo := hmono i him
      refine (printElems hW hB.toSafe hmo hp (by omega) hI).mono ?_
      intro s' hs'
      rw [if_pos (by omega), List.range_succ, List.flatMap_append, List.map_append,
        List.flatMap_singleton, hB.toSafe.rowEntries hi, List.map_map]
      have e1 : nz + B.ptr i + (B.ptr (i + 1) - B.ptr i) = nz + B.ptr (i + 1) := by omega
      rw [e1, List.append_assoc] at hs'
      exact hs'
    · rw [forRange_empty _ _ (htail i (by omega) hi), Res.sat_ok]
      rw [List.range_succ, List.flatMap_append, List.map_append,
        List.flatMap_singleton, row_empty (htail i (by omega) hi), List.map_nil, List.append_nil,
        if_neg (by omega)]
      split at hI
      · have : i = m := by omega
        rw [this, hmn] at hI
        rw [this]; exact hI
      · exact hI
  · intro s' hs'
    have : (if B.rowN ≤ m then B.ptr B.rowN else B.nnz) = B.nnz := by
      split
      · have : B.rowN = m := by omega
        rw [this, hmn]
      · rfl
    rw [this] at hs'
    exact hs'

end TCrs

theorem lines_ext {l : List (Line α)} {m : List (Line α)} (h1 : l.map (·.1) = m.map (·.1))
    (h2 : l.map (·.2) = m.map (·.2)) : l = m := by
  induction l generalizing m with
  | nil => cases m with
    | nil => rfl
    | cons y m => simp at h1
  | cons x l ih => cases m with
    | nil => simp at h1
    | cons y m =>
      simp only [List.map_cons, List.cons.injEq] at h1 h2
      rw [ih h1.2 h2.2, Prod.ext h1.1 h2.1]

/-- **C90 (tensor_CRS).** What a tensor_CRS prints is what its conversion to tensor_COO prints. -/
theorem C90_tcrs [Zero α] {us : List Nat} {R C : Nat} (A : TCrs α) (hA : A.Tiled us R C) (T : TCoo α) (hT : T.WF) :
    ∃ B, TCoo.convertCrs T A = .ok B ∧ B.WF ∧ A.print = B.print := by
  obtain ⟨B, hB, hW, _, _, hE⟩ := TCoo.convertCrs_ok hA hT
  refine ⟨B, hB, hW, ?_⟩
  rw [C90_tcoo B hW, hE]
  have hw := hA.window
  have hlv := hA.lenV
  have hsl : 2 ≤ A.shape.length := by rw [hA.shape]; simp
  set W : List α := (A.val.drop A.first).take A.nnz with hWd
  have hWl : W.length = A.nnz := by simp [hWd]; omega
  have hWr : ∀ k, k < W.length → rd A.val (A.first + k) = rd W k := by
    intro k hk
    unfold rd
    rw [hWd, List.getElem?_take_of_lt (by omega), List.getElem?_drop]
  have hloop := forN_sat (n := A.rowPtrs.length) (body := TCrs.printSlice A) (s := ([], 0))
    (fun d s => TCrs.Printed W ((TCrs.elems us R C A d).map (·.1)) (A.offset d) s)
    ⟨by simp [TCrs.elems], by simp [TCrs.offset], by simp [TCrs.offset]⟩ (by
    intro d s hd hs
    have hdU : d < volume us := by rw [← hA.lenP]; exact hd
    have hdC : d < A.colInds.length := by rw [hA.lenC]; exact hdU
    have ht := hA.tiled d hdU
    obtain ⟨p, hp1, _, _⟩ := unindex_ok hdU
    have hpp : TDense.posOf us d = p := by unfold TDense.posOf; rw [hp1]
    unfold TCrs.printSlice TCoo.slicePos
    have t : A.shape.take (A.shape.length - 2) = us := by rw [hA.shape]; simp
    rw [t, hp1, Res.ok_bind, TCrs.getD_rd (by rw [hA.lenP]; exact hdU) [], Res.ok_bind,
      TCrs.getD_rd hdC [], Res.ok_bind]
    have hot := TCrs.offset_le (T := A) (n := volume us) (by rw [hA.lenC]) (d + 1) hdU
    rw [hA.total, TCrs.offset_succ hdC] at hot
    have := TCrs.printRows (A := A) (W := W) hWr (B := A.slice R C d) ht (up := p)
      (nz := A.offset d) (ix := (TCrs.elems us R C A d).map (·.1))
      (by rw [hWl]; exact hot) hs
    refine this.mono ?_
    intro s' hs'
    rw [TCrs.elems_succ, List.map_append, List.map_map, TCrs.offset_succ hdC, hpp]
    exact hs')
  obtain ⟨s, h1, e1, e2, e3⟩ := hloop
  rw [hA.lenP] at e1 e2
  rw [hA.total] at e2
  unfold TCrs.print
  rw [if_neg (by omega), h1, Res.ok_bind]
  congr 1
  apply lines_ext
  · rw [e1, List.map_map, List.map_map]; rfl
  · have := hA.elems_vals (volume us) (Nat.le_refl _)
    rw [hA.total, ← hWd] at this
    rw [e2, List.map_map, List.take_of_length_le (by omega), ← this]; rfl

/-! ### where the property fails -/

/-- **C90 (violated).** After a `move` from a view with a positive offset (`first > 0`, C85) `print_all` of vector,
Dense and tensor_Dense prints the elements of the buffer from its start, not the object's own. -/
theorem C90_offset_violated :
    (∃ v : Vec Nat, v.get 0 = .ok 2 ∧ v.print = .ok [([], 1), ([], 2)]) ∧
    (∃ D : Dense Nat, D.WF ∧ D.at_ 0 0 = .ok 2 ∧ D.print = .ok [([1, 1], 1), ([1, 2], 2)]) ∧
    (∃ T : TDense Nat, T.WF ∧ T.at_ [0] = .ok 2 ∧ T.print = .ok [([1], 1), ([2], 2)]) := by
  refine ⟨⟨⟨[1, 2, 3], 2, 3, 1, false⟩, by decide, by decide⟩,
    ⟨⟨1, 2, [1, 2, 3], 2, 3, 1, false⟩, ⟨by decide, by decide, by decide⟩, by decide, by decide⟩,
    ⟨⟨[2], [1, 2, 3], 2, 3, 1, false⟩, ⟨by decide, by decide, by decide⟩, by decide, by decide⟩⟩

/-- **C90 (violated).** Printing a tensor_CRS of rank below 2 is undefined behaviour (a vector of size
`shape.size() - 2`, wrapped around). -/
theorem C90_rank_violated : ∃ w, (TCrs.print (⟨[], [], [], [], 0, 0, 0, true⟩ : TCrs Nat)) = .ub w := ⟨_, rfl⟩

example : (Crs.print ⟨2, 3, [0, 2, 3], [0, 2, 1], [7, 8, 9], 3, 3, true⟩ : Res (List (Line Nat))) =
    .ok [([1, 1], 7), ([1, 3], 8), ([2, 2], 9)] := by decide
example : (⟨2, 3, [0, 2, 3], [0, 2, 1], [7, 8, 9], 3, 3, true⟩ : Crs Nat).Safe :=
  ⟨⟨rfl, rfl, by decide⟩, rfl, by decide, by decide, by decide⟩
example : (View1D.print ⟨1, 3, 2⟩ [5, 6, 7, 8] : Res (List (Line Nat))) = .ok [([], 6), ([], 7)] := by decide
example : (ViewDense.print ⟨1, 1, 2⟩ [5, 6, 7, 8] : Res (List (Line Nat))) =
    .ok [([1, 1], 6), ([1, 2], 7)] := by decide
example : (viewTensorPrint [2, 1] 1 2 [5, 6, 7, 8] : Res (List (Line Nat))) =
    .ok [([1, 1], 6), ([2, 1], 7)] := by decide

end Verif
