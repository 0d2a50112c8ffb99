import Verif.Model.TensorScale
import Verif.Props.TensorMul
import Verif.Props.Scale

/-!
C86: a dense tensor times (plus) a vector along its lines. Positions of a tensor of shape `p ++ [n]` are `is ++ [j]`,
those of a tensor of shape `m :: q` are `i :: js`.
-/

namespace Verif

open Spec

variable {α : Type}

namespace TDense

/-- what a change of the shared matrix means for the tensor -/
theorem of_scaled {C : TDense α} (hC : C.WF) {p q : List Nat} (hs : C.shape = p ++ q) {D : Dense α}
    {g : Nat → Nat → α} (hD : (C.asDense (volume p) (volume q)).Scaled D g) :
    SameObject C { C with val := D.val } ∧
      ∀ is js, InShape p is → InShape q js →
        ({ C with val := D.val } : TDense α).at_ (is ++ js) = .ok (g (rowMajor p is) (rowMajor q js)) := by
  obtain ⟨h1, h2, h3, h4, h5, h6⟩ := hD
  have hlen : D.val.length = C.val.length := by
    have hv : volume p * volume q = C.nnz := by rw [hC.nnz_eq, hs, volume_append]
    have w1 := h1.window; have w2 := h1.lenV; have w3 := h1.nnz_eq
    have w4 := hC.window; have w5 := hC.lenV
    rw [h2, h3] at w3
    change D.nnz = volume p * volume q at w3
    change D.first = C.first at h4
    by_contra hne
    rcases Nat.lt_or_gt_of_ne hne with hlt | hlt
    · have := h6 D.val.length (Or.inr (by show C.first + C.nnz ≤ _; omega))
      change D.val[D.val.length]? = C.val[D.val.length]? at this
      rw [List.getElem?_eq_none (by omega), List.getElem?_eq_getElem hlt] at this
      cases this
    · have := h6 C.val.length (Or.inr (by show C.first + C.nnz ≤ _; omega))
      change D.val[C.val.length]? = C.val[C.val.length]? at this
      rw [List.getElem?_eq_none (l := C.val) (by omega), List.getElem?_eq_getElem hlt] at this
      cases this
  obtain ⟨g1, g2⟩ := reads_of_dense hC hs h1 h2 h3 h4 hlen h5
  exact ⟨⟨g1, rfl, rfl, h6⟩, g2⟩

theorem asDense_same {A C : TDense α} {same : Bool} (hsame : same = true → C = A) (r c : Nat) :
    same = true → C.asDense r c = A.asDense r c := fun h => by rw [hsame h]

theorem shape_of_same {A C : TDense α} (hA : A.WF) (hC : C.WF) (h : A.shape = C.shape) : A.nnz = C.nnz := by
  rw [hA.nnz_eq, hC.nnz_eq, h]

end TDense

open TDense

/-- **C86 (by rows).** `times_row(A, x, C)`, `adds_row(A, x, C)`: `C(is, j) = A(is, j) op x(j)`, for tensors of every
rank, `A` and `C` distinct or the same, every schedule; nothing but the elements of `C` changes. -/
theorem C86_rows {A C : TDense α} (hA : A.WF) (hC : C.WF) (same : Bool) (hsame : same = true → C = A)
    {p : List Nat} {n : Nat} (sA : A.shape = p ++ [n]) (sC : C.shape = p ++ [n]) (hn : 0 < n)
    {e c : List Nat → α} (he : A.Reads e) (hc : C.Reads c) (op : α → α → α)
    {x : Win α} {y : Nat → α} (hy : ∀ i, i < x.size → x.get i = .ok (y i)) (hx : x.size = n)
    {order : List Nat} (ho : Order order (volume p)) :
    ∃ C', TDense.scaleRows op same order A x C = .ok C' ∧ SameObject C C' ∧
      ∀ is j, InShape p is → j < n → C'.at_ (is ++ [j]) = .ok (op (e (is ++ [j])) (y j)) := by
  have vA : volume p * n = A.nnz := by rw [hA.nnz_eq, sA, volume_append]; simp [volume]
  have vC : volume p * n = C.nnz := by rw [hC.nnz_eq, sC, volume_append]; simp [volume]
  have v1 : volume [n] = n := by simp [volume]
  have rA := asDense_reads hA sA he
  have rC := asDense_reads hC sC hc
  rw [v1] at rA rC
  obtain ⟨D, h1, h2⟩ := ((C45_dense (asDense_wf hA vA) (asDense_wf hC vC) same (asDense_same hsame _ _) rfl rfl
    rA rC op).2 x y hy).1 hx order ho
  obtain ⟨g1, g2⟩ := of_scaled hC sC (by rw [v1]; exact h2)
  refine ⟨_, ?_, g1, ?_⟩
  · unfold TDense.scaleRows
    rw [cassert_decide (by rw [sA, sC]), Res.ok_bind, sA, lastExtent_append, Res.ok_bind, toDense_row hA sA hn,
      Res.ok_bind, cassert_decide (show (A.asDense (volume p) n).colN = x.size from hx.symm), Res.ok_bind,
      toDense_both (r := (A.asDense (volume p) n).rowN) (c := (A.asDense (volume p) n).colN) vC, Res.ok_bind]
    show ((Dense.scaleRows op same order (A.asDense (volume p) n) x (C.asDense (volume p) n)).bind _ : Res _) = _
    rw [h1]
    rfl
  · intro is j hi hj
    have hj' : InShape [n] [j] := by unfold InShape; simpa using hj
    rw [g2 is [j] hi hj']
    have e1 : rowMajor [n] [j] = j := by simp [rowMajor, volume]
    have e2 : posOf [n] j = [j] := by
      have := posOf_rowMajor hj'
      rw [e1] at this; exact this
    simp only [posOf_rowMajor hi, e1, e2]

/-- **C86 (by columns).** `times_col(A, x, C)`, `adds_col(A, x, C)`: `C(i, js) = A(i, js) op x(i)`. -/
theorem C86_cols {A C : TDense α} (hA : A.WF) (hC : C.WF) (same : Bool) (hsame : same = true → C = A)
    {q : List Nat} {m : Nat} (sA : A.shape = m :: q) (sC : C.shape = m :: q) (hm : 0 < m)
    {e c : List Nat → α} (he : A.Reads e) (hc : C.Reads c) (op : α → α → α)
    {x : Win α} {y : Nat → α} (hy : ∀ i, i < x.size → x.get i = .ok (y i)) (hx : x.size = m)
    {order : List Nat} (ho : Order order m) :
    ∃ C', TDense.scaleCols op same order A x C = .ok C' ∧ SameObject C C' ∧
      ∀ i js, i < m → InShape q js → C'.at_ (i :: js) = .ok (op (e (i :: js)) (y i)) := by
  have vA : m * volume q = A.nnz := by rw [hA.nnz_eq, sA, volume_cons]
  have vC : m * volume q = C.nnz := by rw [hC.nnz_eq, sC, volume_cons]
  have v1 : volume [m] = m := by simp [volume]
  have rA := asDense_reads hA (p := [m]) (q := q) sA he
  have rC := asDense_reads hC (p := [m]) (q := q) sC hc
  rw [v1] at rA rC
  obtain ⟨D, h1, h2⟩ := ((C45_dense (asDense_wf hA vA) (asDense_wf hC vC) same (asDense_same hsame _ _) rfl rfl
    rA rC op).2 x y hy).2.1 hx order ho
  obtain ⟨g1, g2⟩ := of_scaled hC (p := [m]) (q := q) sC (by rw [v1]; exact h2)
  refine ⟨_, ?_, g1, ?_⟩
  · unfold TDense.scaleCols
    rw [cassert_decide (by rw [sA, sC]), Res.ok_bind, sA, show rd (m :: q) 0 = .ok m from rfl, Res.ok_bind,
      toDense_col hA sA hm,
      Res.ok_bind, cassert_decide (show (A.asDense m (volume q)).rowN = x.size from hx.symm), Res.ok_bind,
      toDense_both (r := (A.asDense m (volume q)).rowN) (c := (A.asDense m (volume q)).colN) vC, Res.ok_bind]
    show ((Dense.scaleCols op same order (A.asDense m (volume q)) x (C.asDense m (volume q))).bind _ : Res _) = _
    rw [h1]
    rfl
  · intro i js hi hj
    have hi' : InShape [m] [i] := by unfold InShape; simpa using hi
    have := g2 [i] js hi' hj
    rw [show [i] ++ js = i :: js from rfl] at this
    rw [this]
    have e1 : rowMajor [m] [i] = i := by simp [rowMajor, volume]
    have e2 : posOf [m] i = [i] := by
      have := posOf_rowMajor hi'
      rw [e1] at this; exact this
    simp only [posOf_rowMajor hj, e1, e2]
    rfl

/-- **C86 (one row).** `times_row(A, num, x, C)`, `adds_row(A, num, x, C)` change the line of `C` whose leading
indices are the `num`-th position (in row-major order) and no other element. -/
theorem C86_row {A C : TDense α} (hA : A.WF) (hC : C.WF) (same : Bool) (hsame : same = true → C = A)
    {p : List Nat} {n : Nat} (sA : A.shape = p ++ [n]) (sC : C.shape = p ++ [n]) (hn : 0 < n)
    {e c : List Nat → α} (he : A.Reads e) (hc : C.Reads c) (op : α → α → α)
    {x : Win α} {y : Nat → α} (hy : ∀ i, i < x.size → x.get i = .ok (y i)) (hx : x.size = n)
    {order : List Nat} (ho : Order order n) {num : Nat} (hnum : num < volume p) :
    ∃ C', TDense.scaleRow op same order A num x C = .ok C' ∧ SameObject C C' ∧
      ∀ is j, InShape p is → j < n → C'.at_ (is ++ [j]) =
        .ok (if rowMajor p is = num then op (e (is ++ [j])) (y j) else c (is ++ [j])) := by
  have vA : volume p * n = A.nnz := by rw [hA.nnz_eq, sA, volume_append]; simp [volume]
  have vC : volume p * n = C.nnz := by rw [hC.nnz_eq, sC, volume_append]; simp [volume]
  have v1 : volume [n] = n := by simp [volume]
  have rA := asDense_reads hA sA he
  have rC := asDense_reads hC sC hc
  rw [v1] at rA rC
  obtain ⟨D, h1, h2⟩ := ((C45_dense (asDense_wf hA vA) (asDense_wf hC vC) same (asDense_same hsame _ _) rfl rfl
    rA rC op).2 x y hy).2.2.1 hx order ho num hnum
  obtain ⟨g1, g2⟩ := of_scaled hC sC (by rw [v1]; exact h2)
  refine ⟨_, ?_, g1, ?_⟩
  · unfold TDense.scaleRow
    rw [cassert_decide (by rw [sA, sC]), Res.ok_bind, sA, lastExtent_append, Res.ok_bind, toDense_row hA sA hn,
      Res.ok_bind, cassert_decide (show (A.asDense (volume p) n).colN = x.size from hx.symm), Res.ok_bind,
      cassert_decide (show (A.asDense (volume p) n).rowN ≥ num from Nat.le_of_lt hnum), Res.ok_bind,
      toDense_both (r := (A.asDense (volume p) n).rowN) (c := (A.asDense (volume p) n).colN) vC, Res.ok_bind]
    show ((Dense.scaleRow op same order (A.asDense (volume p) n) num x (C.asDense (volume p) n)).bind _ : Res _) = _
    rw [h1]
    rfl
  · intro is j hi hj
    have hj' : InShape [n] [j] := by unfold InShape; simpa using hj
    rw [g2 is [j] hi hj']
    have e1 : rowMajor [n] [j] = j := by simp [rowMajor, volume]
    have e2 : posOf [n] j = [j] := by
      have := posOf_rowMajor hj'
      rw [e1] at this; exact this
    simp only [posOf_rowMajor hi, e1, e2]

/-- **C86 (one column).** `times_col(A, num, x, C)`, `adds_col(A, num, x, C)`. -/
theorem C86_col {A C : TDense α} (hA : A.WF) (hC : C.WF) (same : Bool) (hsame : same = true → C = A)
    {q : List Nat} {m : Nat} (sA : A.shape = m :: q) (sC : C.shape = m :: q) (hm : 0 < m)
    {e c : List Nat → α} (he : A.Reads e) (hc : C.Reads c) (op : α → α → α)
    {x : Win α} {y : Nat → α} (hy : ∀ i, i < x.size → x.get i = .ok (y i)) (hx : x.size = m)
    {order : List Nat} (ho : Order order m) {num : Nat} (hnum : num < volume q) :
    ∃ C', TDense.scaleCol op same order A num x C = .ok C' ∧ SameObject C C' ∧
      ∀ i js, i < m → InShape q js → C'.at_ (i :: js) =
        .ok (if rowMajor q js = num then op (e (i :: js)) (y i) else c (i :: js)) := by
  have vA : m * volume q = A.nnz := by rw [hA.nnz_eq, sA, volume_cons]
  have vC : m * volume q = C.nnz := by rw [hC.nnz_eq, sC, volume_cons]
  have v1 : volume [m] = m := by simp [volume]
  have rA := asDense_reads hA (p := [m]) (q := q) sA he
  have rC := asDense_reads hC (p := [m]) (q := q) sC hc
  rw [v1] at rA rC
  obtain ⟨D, h1, h2⟩ := ((C45_dense (asDense_wf hA vA) (asDense_wf hC vC) same (asDense_same hsame _ _) rfl rfl
    rA rC op).2 x y hy).2.2.2 hx order ho num hnum
  obtain ⟨g1, g2⟩ := of_scaled hC (p := [m]) (q := q) sC (by rw [v1]; exact h2)
  refine ⟨_, ?_, g1, ?_⟩
  · unfold TDense.scaleCol
    rw [cassert_decide (by rw [sA, sC]), Res.ok_bind, sA, show rd (m :: q) 0 = .ok m from rfl, Res.ok_bind,
      toDense_col hA sA hm,
      Res.ok_bind, cassert_decide (show (A.asDense m (volume q)).rowN = x.size from hx.symm), Res.ok_bind,
      cassert_decide (show (A.asDense m (volume q)).colN ≥ num from Nat.le_of_lt hnum), Res.ok_bind,
      toDense_both (r := (A.asDense m (volume q)).rowN) (c := (A.asDense m (volume q)).colN) vC, Res.ok_bind]
    show ((Dense.scaleCol op same order (A.asDense m (volume q)) num x (C.asDense m (volume q))).bind _ : Res _) = _
    rw [h1]
    rfl
  · intro i js hi hj
    have hi' : InShape [m] [i] := by unfold InShape; simpa using hi
    have := g2 [i] js hi' hj
    rw [show [i] ++ js = i :: js from rfl] at this
    rw [this]
    have e1 : rowMajor [m] [i] = i := by simp [rowMajor, volume]
    have e2 : posOf [m] i = [i] := by
      have := posOf_rowMajor hi'
      rw [e1] at this; exact this
    simp only [posOf_rowMajor hj, e1, e2]
    rfl

/-- **C86 (sizes).** Tensors of different shapes abort, for all four functions. -/
theorem C86_sizes (op : α → α → α) (same : Bool) (order : List Nat) (A C : TDense α) (x : Win α) (num : Nat)
    (h : A.shape ≠ C.shape) :
    (∃ m, TDense.scaleRows op same order A x C = .abort m) ∧ (∃ m, TDense.scaleCols op same order A x C = .abort m) ∧
    (∃ m, TDense.scaleRow op same order A num x C = .abort m) ∧
    (∃ m, TDense.scaleCol op same order A num x C = .abort m) := by
  have key : ∀ {β : Type} (f : Unit → Res β), (cassert (decide (A.shape = C.shape)) >>= f) = .abort "assert" := by
    intro β f
    rw [decide_eq_false h]
    rfl
  exact ⟨⟨_, key _⟩, ⟨_, key _⟩, ⟨_, key _⟩, ⟨_, key _⟩⟩

/-- **C86, violated**: a line number one past the last passes the assertions, and elements outside the tensor are
accessed; -/
theorem C86_line_bound_violated :
    ∃ (A : TDense Int) (x : Win Int), A.WF ∧ A.shape = [2, 1, 2] ∧ x.size = 2 ∧
      (∃ m, TDense.scaleRow (· * ·) true [0, 1] A 2 x A = .ub m) ∧
      ∃ m, TDense.scaleCol (· * ·) true [0, 1] A 2 x A = .ub m :=
  ⟨⟨[2, 1, 2], [1, 2, 3, 4], 4, 4, 0, true⟩, ⟨[5, 7], 0, 2⟩, ⟨rfl, rfl, by decide⟩, rfl, rfl, ⟨_, rfl⟩, ⟨_, rfl⟩⟩

/-- and a tensor whose last (first) extent is 0 makes them divide by zero, for all leading extents. -/
theorem C86_empty_violated (op : α → α → α) (same : Bool) (order : List Nat) {A : TDense α} {x : Win α} :
    (∀ p, A.shape = p ++ [0] → ∃ m, TDense.scaleRows op same order A x A = .ub m) ∧
    (∀ q, A.shape = 0 :: q → ∃ m, TDense.scaleCols op same order A x A = .ub m) := by
  constructor
  · intro p hp
    refine ⟨"division by zero", ?_⟩
    unfold TDense.scaleRows
    rw [cassert_decide rfl, Res.ok_bind, hp, lastExtent_append, Res.ok_bind]
    rfl
  · intro q hq
    refine ⟨"division by zero", ?_⟩
    unfold TDense.scaleCols
    rw [cassert_decide rfl, Res.ok_bind, hq, show rd (0 :: q) 0 = .ok 0 from rfl, Res.ok_bind]
    rfl

/-- a 2x1x2 tensor with an offset into its storage, times a vector along the last index, in place -/
example : ∃ C', TDense.scaleRows (· * ·) true [1, 0] (⟨[2, 1, 2], [9, 1, 2, 3, 4], 4, 5, 1, false⟩ : TDense Int)
    ⟨[10, 100], 0, 2⟩ ⟨[2, 1, 2], [9, 1, 2, 3, 4], 4, 5, 1, false⟩ = .ok C' ∧ C'.val = [9, 10, 200, 30, 400] :=
  ⟨_, rfl, rfl⟩

/-- its hypotheses: that tensor is well formed and readable -/
example : (⟨[2, 1, 2], [9, 1, 2, 3, 4], 4, 5, 1, false⟩ : TDense Int).WF := ⟨rfl, rfl, by decide⟩

/-- adding along the first index to another tensor, one line only: the second column -/
example : ∃ C', TDense.scaleCol (· + ·) false [0, 1] (⟨[2, 1, 2], [1, 2, 3, 4], 4, 4, 0, true⟩ : TDense Int)
    1 ⟨[10, 20], 0, 2⟩ ⟨[2, 1, 2], [0, 0, 0, 0], 4, 4, 0, true⟩ = .ok C' ∧ C'.val = [0, 12, 0, 24] :=
  ⟨_, rfl, rfl⟩

end Verif
