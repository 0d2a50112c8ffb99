import Verif.Spec.VecSpec
import Verif.Lemmas.DenseBasic

/-!
C22: `vector::push_back` / `resize`.  C23: views.
-/

namespace Verif

open Spec

variable {α : Type}

theorem Vec.resize_ok {v : Vec α} (h : v.WF) (N : Nat) (x : α) :
    (v.resize N x).Sat (fun w => w.WF ∧ w.contents = listOp v.contents (.resize N x)) := by
  obtain ⟨hc, hl, hn, hf⟩ := h
  unfold Vec.resize
  rw [hc, if_pos rfl, reallocCopy_ok (by omega), Res.ok_bind, Res.sat_ok]
  refine ⟨⟨rfl, ?_, Nat.le_refl _, hf⟩, ?_⟩
  · simp; omega
  · simp only [Vec.contents, hf, List.drop_zero, listOp]
    rw [List.take_of_length_le (by simp; omega), List.length_take]
    split
    · rw [List.take_take, show N - min v.nnz N = 0 by omega, Nat.min_comm]; simp
    · rw [Nat.min_eq_left (by omega), Nat.min_eq_left (by omega)]

theorem Vec.pushBack_ok [Zero α] {v : Vec α} (h : v.WF) (x : α) :
    (v.pushBack x).Sat (fun w => w.WF ∧ w.contents = v.contents ++ [x]) := by
  obtain ⟨hc, hl, hn, hf⟩ := h
  unfold Vec.pushBack
  rw [hc, if_pos rfl]
  by_cases hg : v.nnz ≥ v.alloc
  · rw [if_pos hg]
    unfold Vec.resize
    simp only [if_true]
    rw [reallocCopy_ok (by simp; omega)]
    simp only [Res.ok_bind, Res.pure_eq]
    rw [wr_ok (by simp; omega), Res.ok_bind, Res.sat_ok]
    refine ⟨⟨rfl, ?_, by simp only; omega, hf⟩, ?_⟩
    · simp; omega
    · simp only [Vec.contents, hf, List.drop_zero]
      rw [Nat.min_eq_left (by omega), List.take_set, List.take_append, List.set_append_right]
      · simp [Nat.min_eq_left (show v.nnz ≤ v.val.length by omega),
          show min 1 (2 * v.alloc + 1 - v.nnz) = 1 by omega, List.take_take]
      · simp
  · rw [if_neg hg]
    simp only [Res.ok_bind, Res.pure_eq]
    rw [wr_ok (by omega), Res.ok_bind, Res.sat_ok]
    refine ⟨⟨hc, by simp; omega, by simp only; omega, hf⟩, ?_⟩
    simp only [Vec.contents, hf, List.drop_zero]
    rw [List.take_add_one, List.take_set, List.set_eq_of_length_le (by simp)]
    simp [show v.nnz < v.val.length by omega]

/-- **C23 (vectors).** `v[i]` of any vector whose window lies in its buffer (also an alias at an offset,
as `move` creates) reads element `i` of the window; assigning `v[i]` changes exactly that element and
nothing outside the window. -/
theorem C23_vector_access (v : Vec α) (h : v.first + v.nnz ≤ v.val.length) (i : Nat) (x : α)
    (hi : i < v.contents.length) :
    v.get i = .ok v.contents[i] ∧
      ∃ w, v.set i x = .ok w ∧ w.contents = v.contents.set i x ∧
        ∀ k, k < v.first ∨ v.first + v.nnz ≤ k → w.val[k]? = v.val[k]? := by
  have hi' : i < v.nnz := by
    simp only [Vec.contents, List.length_take] at hi; omega
  refine ⟨?_, ?_⟩
  · unfold Vec.get
    apply rd_of_getElem?
    simp only [Vec.contents, List.getElem_take, List.getElem_drop]
    exact List.getElem?_eq_getElem (by omega)
  · unfold Vec.set
    rw [wr_ok (by omega), Res.ok_bind]
    refine ⟨_, rfl, ?_, ?_⟩
    · simp only [Vec.contents]
      apply List.ext_getElem?
      intro k
      rw [List.getElem?_set]
      simp only [List.getElem?_take, List.getElem?_drop, List.getElem?_set, List.length_take,
        List.length_drop]
      by_cases hk : i = k
      · subst hk
        have q1 : v.first + i < v.val.length := by omega
        have q2 : i < min v.nnz (v.val.length - v.first) := by omega
        simp [hi', q1, q2]
      · have : v.first + i ≠ v.first + k := by omega
        simp [hk]
    · intro k hk
      simp only
      rw [List.getElem?_set, if_neg (by omega)]

example : (⟨[9, 1, 2, 3], 2, 4, 1, false⟩ : Vec Int).get 1 = .ok 2 := rfl

/-- **C22.** Every program of `push_back` and `resize` calls on a vector that owns its storage runs
without out-of-bounds access or exception; afterwards the vector holds exactly the list that the
same program produces on the list of its former elements, `size()` is its length and `v[i]` its
elements. -/
theorem C22_run [Zero α] (ops : List (Vec.Op α)) (v : Vec α) (h : v.WF) :
    ∃ w, Vec.run ops v = .ok w ∧ w.WF ∧ w.contents = listRun ops v.contents ∧
      w.nnz = (listRun ops v.contents).length ∧
      ∀ i (hi : i < (listRun ops v.contents).length),
        w.get i = .ok ((listRun ops v.contents)[i]) := by
  have key : (Vec.run ops v).Sat (fun w => w.WF ∧ w.contents = listRun ops v.contents) := by
    induction ops generalizing v with
    | nil => exact ⟨v, rfl, h, rfl⟩
    | cons o os ih =>
      have h1 : (Vec.run1 v o).Sat (fun w => w.WF ∧ w.contents = listOp v.contents o) := by
        cases o with
        | push x => exact Vec.pushBack_ok h x
        | resize N x => exact Vec.resize_ok h N x
      unfold Vec.run
      refine h1.bind ?_
      rintro w ⟨hw, hcw⟩
      refine (ih w hw).mono ?_
      rintro u ⟨hu, hcu⟩
      refine ⟨hu, ?_⟩
      rw [hcu, hcw]; rfl
  obtain ⟨w, hw, hwf, hcw⟩ := key
  have hlen : w.nnz = (listRun ops v.contents).length := by
    rw [← hcw]; simp [Vec.contents, hwf.first0, hwf.lenV, hwf.nnz_le]
  refine ⟨w, hw, hwf, hcw, hlen, ?_⟩
  intro i hi
  unfold Vec.get
  apply rd_of_getElem?
  have h2 : w.contents[i]? = some ((listRun ops v.contents)[i]) := by
    rw [hcw]; simp
  rw [← h2]
  simp [Vec.contents, hwf.first0, show i < w.nnz by omega]

/-- the default-constructed vector and `vector(N)` meet the hypothesis -/
theorem Vec.empty_wf : (Vec.empty : Vec α).WF := ⟨rfl, rfl, Nat.le_refl _, rfl⟩

example : ∃ w, Vec.run [.push 1, .push 2, .resize 4 9, .push 3, .resize 2 0, .push 5]
    (Vec.empty : Vec Int) = .ok w ∧ w.contents = [1, 2, 5] := ⟨_, rfl, rfl⟩

/-- **C22 (constructors).** `vector(N, value)` holds `N` copies of `value`. -/
theorem C22_newWith [Zero α] (N : Nat) (x : α) :
    ∃ w, Vec.newWith N x = .ok w ∧ w.WF ∧ w.contents = List.replicate N x := by
  obtain ⟨v, hv, hwf, hc⟩ := Vec.resize_ok (Vec.empty_wf (α := α)) N 0
  unfold Vec.newWith
  rw [hv, Res.ok_bind]
  have e : v.val.length = N ∧ v.nnz = N ∧ v.alloc = N := by
    unfold Vec.resize Vec.empty at hv
    simp only [if_true] at hv
    rw [reallocCopy_ok (by simp), Res.ok_bind] at hv
    cases hv
    simp
  rw [forN_write (fun _ => x) (by omega) (by intros; rfl), Res.ok_bind]
  refine ⟨_, rfl, ⟨hwf.created, by simp [e], by simp [e], hwf.first0⟩, ?_⟩
  simp [Vec.contents, hwf.first0, e.2.1]
  rw [List.map_const', List.length_range]

/-! ### C23: views -/

/-- **C23 (element access, 1-D).** A view at offset `s` reads element `s + i` of its target and
writes that element only. -/
theorem C23_access (b : List α) (s n i : Nat) (hi : i < n) (hb : s + n ≤ b.length) :
    ∃ x, (View1D.ofTarget s n).get b i = .ok x ∧ b[s + i]? = some x ∧
      ∀ y, ∃ b', (View1D.ofTarget s n).set b i y = .ok b' ∧ b'.length = b.length ∧
        ∀ k, b'[k]? = if k = s + i then some y else b[k]? := by
  refine ⟨b[s + i], ?_, by simp, ?_⟩
  · simp only [View1D.get, View1D.ofTarget]
    rw [rd_of_getElem?]
    rw [Nat.add_comm]; simp
  · intro y
    simp only [View1D.set, View1D.ofTarget]
    rw [wr_ok (by omega)]
    refine ⟨_, rfl, by simp, ?_⟩
    intro k
    rw [List.getElem?_set]
    by_cases h : k = s + i
    · simp [h, Nat.add_comm]; omega
    · rw [if_neg (by omega), if_neg h]

example : (View1D.ofTarget 1 2).get [10, 20, 30] 1 = .ok 30 ∧
    (View1D.ofTarget 1 2).set [10, 20, 30] 0 7 = .ok [10, 7, 30] := ⟨rfl, rfl⟩

/-- the view obtained from a target by taking sub-views at the offsets `os` (innermost last), with
any lengths -/
def View1D.nest : View1D → List (Nat × Nat) → View1D
  | w, [] => w
  | w, (s, n) :: rest => nest (w.ofView s n) rest

/-- **C23 (nesting).** A view of a view of … (any depth) accesses the target at the sum of all the
offsets. -/
theorem C23_nested (b : List α) (s n : Nat) (os : List (Nat × Nat)) (i : Nat) (y : α) :
    ((View1D.ofTarget s n).nest os).get b i = rd b (s + (os.map (·.1)).sum + i) ∧
    ((View1D.ofTarget s n).nest os).set b i y = wr b (s + (os.map (·.1)).sum + i) y := by
  have : ∀ (os : List (Nat × Nat)) (w : View1D), (w.nest os).first = w.first + (os.map (·.1)).sum := by
    intro os
    induction os with
    | nil => simp [View1D.nest]
    | cons p ps ih => intro w; simp [View1D.nest, ih, View1D.ofView]; omega
  simp only [View1D.get, View1D.set, this, View1D.ofTarget]
  exact ⟨by rw [Nat.add_comm], by rw [Nat.add_comm]⟩

example : ((View1D.ofTarget 1 4).nest [(1, 3), (1, 2)]).get [10, 20, 30, 40, 50] 1 = .ok 50 := rfl

theorem View1D.walk_ok (b : List α) (p n fuel : Nat) (hf : n < fuel) (hb : p + n ≤ b.length) :
    View1D.walk b fuel p (p + n) = .ok ((b.drop p).take n) := by
  induction n generalizing p fuel with
  | zero => cases fuel with
    | zero => omega
    | succ f => simp [View1D.walk]
  | succ n ih => cases fuel with
    | zero => omega
    | succ f =>
      unfold View1D.walk
      rw [if_neg (by omega), rd_ok (by omega), Res.ok_bind,
        show p + (n + 1) = (p + 1) + n by omega, ih (p + 1) f (by omega) (by omega), Res.ok_bind,
        List.drop_eq_getElem_cons (by omega : p < b.length), List.take_succ_cons]

/-- walking to an end pointer that lies before the start leaves the buffer -/
theorem View1D.walk_past (b : List α) (fuel p e : Nat) (h : e < p) :
    ∃ m, View1D.walk b fuel p e = .ub m := by
  induction fuel generalizing p with
  | zero => exact ⟨_, rfl⟩
  | succ f ih =>
    unfold View1D.walk
    rw [if_neg (by omega)]
    unfold rd
    split
    · obtain ⟨m, hm⟩ := ih (p + 1) (by omega)
      simp only [Res.ok_bind, hm, Res.ub_bind]; exact ⟨_, rfl⟩
    · exact ⟨_, rfl⟩

/-- **C23 (iteration of a vector).** Iterating a vector from `begin()` to `end()` visits exactly its
elements in order. -/
theorem C23_vector_iterate (v : Vec α) (h : v.first + v.nnz ≤ v.val.length) :
    v.iterate = .ok v.contents := by
  unfold Vec.iterate Vec.contents
  exact View1D.walk_ok _ _ _ _ (by omega) h

/-- **C23 (iteration of a view at offset 0).** Iterating from `begin()` to `end()` visits exactly the
window; what is missing from the full property: offset `s > 0`, where it fails
(`C23_iterate_violated`). -/
theorem C23_iterate_partial (b : List α) (n : Nat) (hb : n ≤ b.length) :
    (View1D.ofTarget 0 n).iterate b = .ok ((b.drop 0).take n) := by
  have := View1D.walk_ok b 0 n (b.length + 1) (by omega) (by omega)
  simpa [View1D.iterate, View1D.beginOff, View1D.endOff, View1D.ofTarget] using this

example : (View1D.ofTarget 0 2).iterate [10, 20, 30] = .ok [10, 20] := rfl

/-- **C23 (violated).** For *every* non-empty window at an offset `s > 0`, iterating from `begin()`
to `end()` does not visit the window: the walk stops `s` elements early or, when `s > n`, runs out of
the buffer. -/
theorem C23_iterate_violated (b : List α) (s n : Nat) (hs : 0 < s) (hn : 0 < n)
    (hb : s + n ≤ b.length) :
    (View1D.ofTarget s n).iterate b ≠ .ok ((b.drop s).take n) := by
  unfold View1D.iterate View1D.beginOff View1D.endOff View1D.ofTarget
  simp only
  by_cases h : n < s
  · obtain ⟨m, hm⟩ := View1D.walk_past b (b.length + 1) s n h
    rw [hm]; simp
  · have := View1D.walk_ok b s (n - s) (b.length + 1) (by omega) (by omega)
    rw [show s + (n - s) = n by omega] at this
    rw [this]
    intro h
    injection h with h
    have := congrArg List.length h
    simp at this
    omega

example : (View1D.ofTarget 1 2).iterate [10, 20, 30] = .ok [20] := rfl

/-- **C23 (resize of a view).** `resize(N)` is accepted exactly when the window stays inside the
target and only changes the length of the window. -/
theorem C23_resize (s n N m : Nat) :
    (s + N ≤ m → (View1D.ofTarget s n).resize m N = .ok (View1D.ofTarget s N)) ∧
    (¬ s + N ≤ m → ∃ msg, (View1D.ofTarget s n).resize m N = .abort msg) := by
  refine ⟨fun h => ?_, fun h => ?_⟩
  · simp [View1D.resize, View1D.ofTarget, cassert, h]
  · simp [View1D.resize, View1D.ofTarget, cassert, h]

/-- **C23 (element access, 2-D).** A `view_Dense` of `R × C` elements at linear offset `s` of a dense
matrix reads element `(i, j)` as the target's element number `s + C*i + j` (row-major), and writes
that element only. -/
theorem C23_dense_access (T : Dense α) (h : T.WF) (s R C i j : Nat) (hi : i < R) (hj : j < C)
    (hw : s + R * C ≤ T.nnz) :
    ∃ x, (ViewDense.mk s R C).at_ T i j = .ok x ∧ T.val[T.first + (s + (C * i + j))]? = some x ∧
      ∀ y, ∃ T', (ViewDense.mk s R C).insert T i j y = .ok T' ∧
        (T'.rowN = T.rowN ∧ T'.colN = T.colN ∧ T'.first = T.first ∧ T'.nnz = T.nnz) ∧
        ∀ k, T'.val[k]? = if k = T.first + (s + (C * i + j)) then some y else T.val[k]? := by
  have h1 := Verif.idx_lt hi hj
  have h2 := h.window
  have h3 := h.lenV
  have e : s + i * C + j = s + (C * i + j) := by rw [Nat.mul_comm]; omega
  refine ⟨T.val[T.first + (s + (C * i + j))]'(by omega), ?_, by simp, ?_⟩
  · unfold ViewDense.at_ Dense.at1
    simp only [e]
    rw [cassert_decide (by omega), Res.ok_bind, cassert_decide (by omega), Res.ok_bind, rd_ok]
  · intro y
    unfold ViewDense.insert Dense.insert1
    simp only [e]
    rw [cassert_decide (by omega), Res.ok_bind, cassert_decide (by omega), Res.ok_bind,
      wr_ok (by omega), Res.ok_bind]
    refine ⟨_, rfl, ⟨rfl, rfl, rfl, rfl⟩, ?_⟩
    intro k
    simp only [List.getElem?_set]
    by_cases hk : k = T.first + (s + (C * i + j))
    · rw [if_pos hk.symm, if_pos hk, if_pos (by omega)]
    · rw [if_neg (Ne.symm hk), if_neg hk]

example : (ViewDense.mk 2 2 2).at_
    ({ rowN := 2, colN := 3, val := [1, 2, 3, 4, 5, 6], nnz := 6, alloc := 6, first := 0,
       created := true } : Dense Int) 1 0 = .ok 5 := rfl

/-- **C23 (violated, target with an offset).** The view constructors do not consult the offset of
their target: a view at 0 of a dense matrix that itself starts at offset 1 of its storage (an alias
made by `move`) does not read that matrix's element 0. -/
theorem C23_offset_target_violated :
    ¬ ∀ (T : Dense Int) (s n i : Nat), T.WF → i < n → s + n ≤ T.nnz →
        (View1D.ofTarget s n).get T.val i = T.at1 (s + i) := by
  intro h
  have := h { rowN := 1, colN := 1, val := [1, 2], nnz := 1, alloc := 2, first := 1,
              created := false } 0 1 0 ⟨rfl, rfl, by decide⟩ (by decide) (by decide)
  revert this; decide

/-- **C23 (views of a dense matrix at offset 0).** The view and the matrix agree. -/
theorem C23_target_partial (T : Dense α) (h : T.WF) (h0 : T.first = 0) (s n i : Nat) (hi : i < n)
    (hn : s + n ≤ T.nnz) : (View1D.ofTarget s n).get T.val i = T.at1 (s + i) := by
  have h2 := h.window
  unfold View1D.get View1D.ofTarget Dense.at1
  rw [cassert_decide (by omega), Res.ok_bind, cassert_decide (by omega), Res.ok_bind, h0]
  simp only [Nat.zero_add]
  rw [Nat.add_comm]

end Verif
