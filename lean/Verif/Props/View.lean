import Verif.Lemmas.View

/-!
C73-C77: `fill`, assignment, iteration, element access and `resize` of vectors, Dense matrices, dense
tensors and their views.
-/

namespace Verif.Shared

variable {α : Type}

/-- A view of `start .. start + n` made over an object that starts its storage, or over such a view, has
its elements where they should be. -/
theorem mkView_window {s : Sys α} (hs : s.WF) {i : Nat} {o : Obj} (ho : s.obj i = .ok o)
    (hf : o.first = 0) {start : Nat} {shape : List Nat} (hin : start + prod shape ≤ o.nnz) :
    ∃ t, s.mkView (.obj i) start shape = .ok t ∧ t.Fresh ∧ Window s t o.buf start (prod shape) := by
  obtain ⟨h1, _, b, hb, hbl⟩ := hs i o ho
  refine ⟨.view (.obj i) { addr := o.buf, first := start, last := start + prod shape, range := prod shape,
                           shape := shape },
    by rw [Sys.mkView, ho, Res.ok_bind], rfl, rfl, rfl, owned_of_obj ho, ?_⟩
  intro k hk
  unfold Sys.cell
  rw [hb]
  simp only [Option.bind_some]
  rw [List.getElem?_eq_getElem (by omega)]
  rfl

theorem mkView_nested {s : Sys α} {t : Tgt} {d : VData} {a o n start : Nat} {shape : List Nat}
    (hw : Window s (.view t d) a o n) (hin : start + prod shape ≤ n) :
    ∃ u, s.mkView (.view t d) start shape = .ok u ∧ u.Fresh ∧ Window s u a (o + start) (prod shape) := by
  have hb := hw.begin_eq
  simp only [Sys.beginOf, Res.ok.injEq, Prod.mk.injEq] at hb
  refine ⟨_, rfl, rfl, ?_, rfl, hw.owned, ?_⟩
  · simp only [Sys.beginOf, hb.1, hb.2]
  · intro k hk
    rw [Nat.add_assoc]
    exact hw.inside _ (by omega)

/-! ### C73: fill -/

/-- **C73**: `fill(v)` on a vector, Dense matrix, dense tensor or view gives every element the value `v`
and changes nothing else, for every schedule of the loop. -/
theorem C73_fill {s : Sys α} {t : Tgt} {a o n : Nat} (hw : Window s t a o n) (hf : t.Fresh)
    {order : List Nat} (hord : Order order n) (v : α) :
    s.fillCount t = .ok n ∧ ∃ s', s.fill order t v = .ok s' ∧ SameElsewhere s s' a o n ∧
      ∀ k, k < n → s'.cell a (o + k) = some v := by
  have key := forList_store_all (s := s) (a := a) (o := o) (n := n) (fun _ => v) hord hw.owned hw.inside
    (fun k s => s.rawWrite a (o + k) v) (fun _ _ _ _ => rfl)
  have hb := hw.begin_eq
  have hz := hw.size_eq
  cases t with
  | obj i =>
    simp only [Sys.beginOf] at hb
    obtain ⟨ob, hob, hb⟩ := Res.bind_eq_ok.mp hb
    cases hb
    simp only [Sys.nnzOf, hob, Res.ok_bind] at hz
    constructor
    · rw [Sys.fillCount, hob, Res.ok_bind]; exact hz
    · unfold Sys.fill
      simp only [hob, Res.ok_bind]
      exact key
  | view t d =>
    simp only [Sys.beginOf, Res.ok.injEq, Prod.mk.injEq] at hb
    simp only [Sys.nnzOf, Res.ok.injEq] at hz
    obtain ⟨rfl, rfl⟩ := hb
    subst hz
    constructor
    · have : d.last = d.first + d.range := hf
      simp [Sys.fillCount, this]
    · exact key

/-- `fill(v)` of the sparse classes sets the stored values -/
theorem C73_fill_sparse (val : List α) (v : α) {order : List Nat} (hord : Order order val.length) :
    fillVals order val v = .ok (List.replicate val.length v) := by
  obtain ⟨r, h1, h2, h3⟩ := forList_write (fun _ => v) 0 order (s := val)
    (body := fun i l => wr l i v)
    (fun i _ t _ => by rw [Nat.zero_add]) (fun i hi => by have := hord.mem.mp hi; omega)
  unfold fillVals
  rw [h1]
  congr 1
  apply List.ext_getElem?
  intro k
  rw [h3 k, List.getElem?_replicate]
  by_cases hk : k < val.length
  · rw [if_pos ⟨by omega, by rw [Nat.sub_zero]; exact hord.mem.mpr hk⟩, if_pos hk]
  · rw [if_neg hk, if_neg, List.getElem?_eq_none (by omega)]
    rintro ⟨_, hm⟩
    rw [Nat.sub_zero] at hm
    exact hk (hord.mem.mp hm)

/-! ### A concrete heap -/

/-- a vector with 8 elements `0 .. 7`, a vector with 3 elements -/
def exS : Sys Nat :=
  { bufs := [[0, 1, 2, 3, 4, 5, 6, 7], [10, 20, 30]]
    objs := [some ⟨.vec, 0, 0, 8, 8, true⟩, some ⟨.vec, 1, 0, 3, 3, true⟩] }

theorem exS_wf : exS.WF := by
  intro i o ho
  rw [obj_eq] at ho
  match i, ho with
  | 0, ho => cases ho; exact ⟨by decide, fun _ => rfl, _, rfl, rfl⟩
  | 1, ho => cases ho; exact ⟨by decide, fun _ => rfl, _, rfl, rfl⟩

/-- the view of the elements 2, 3, 4 -/
def exV : Tgt := .view (.obj 0) ⟨0, 2, 5, 3, [3]⟩

example : exS.mkView (.obj 0) 2 [3] = .ok exV := rfl

theorem exV_window : Window exS exV 0 2 3 := by
  obtain ⟨t, h1, _, h2⟩ := mkView_window exS_wf (i := 0) (o := ⟨.vec, 0, 0, 8, 8, true⟩) rfl rfl
    (start := 2) (shape := [3]) (by decide)
  cases h1
  exact h2

example : exS.fill [2, 0, 1] exV 9 = .ok { exS with bufs := [[0, 1, 9, 9, 9, 5, 6, 7], [10, 20, 30]] } ∧
    Order [2, 0, 1] 3 ∧ exV.Fresh := ⟨by decide, by unfold Order; decide, rfl⟩

/-- **C73, violated after `set_last`**: `last` is an absolute position for `fill` but the size does not
follow, and `set_last` checks it as if it were relative: a view of the elements 2, 3, 4 with
`set_last(6)` still has size 3 and fills the elements 2, 3, 4, 5. -/
theorem C73_set_last_violated :
    ∃ t s', exS.setLast exV 6 = .ok t ∧ exS.nnzOf t = .ok 3 ∧ exS.fillCount t = .ok 4 ∧
      exS.fill [0, 1, 2, 3] t 9 = .ok s' ∧ s'.cell 0 5 = some 9 ∧ exS.cell 0 5 = some 5 :=
  ⟨.view (.obj 0) ⟨0, 2, 6, 3, [3]⟩, { exS with bufs := [[0, 1, 9, 9, 9, 9, 6, 7], [10, 20, 30]] },
    by decide⟩

/-! ### C74: assignment -/

/-- the copy inside `operator=` when the two windows are disjoint or equal -/
theorem vcopyRaw_ok {s : Sys α} {a o b p n : Nat} (hoa : s.owned a = true) (hob : s.owned b = true)
    (hsrc : ∀ k, k < n → (s.cell a (o + k)).isSome = true)
    (hdst : ∀ k, k < n → (s.cell b (p + k)).isSome = true)
    (hdis : a ≠ b ∨ o + n ≤ p ∨ p + n ≤ o ∨ o = p) {order : List Nat} (hord : Order order n) :
    ∃ s', s.vcopyRaw order (a, o) (b, p) = .ok s' ∧ SameElsewhere s s' b p n ∧
      ∀ k, k < n → s'.cell b (p + k) = s.cell a (o + k) := by
  -- the values to be copied; there is nothing to do when there are none
  by_cases hn : n = 0
  · subst hn
    have : order = [] := List.eq_nil_iff_forall_not_mem.mpr (fun i hi => by
      have := hord.mem.mp hi; omega)
    subst this
    exact ⟨s, rfl, ⟨rfl, fun _ _ _ => rfl⟩, fun k hk => by omega⟩
  · obtain ⟨x0, hx0⟩ := Option.isSome_iff_exists.mp (hsrc 0 (by omega))
    obtain ⟨s', h1, h2, h3⟩ := forList_store_all (s := s) (a := b) (o := p) (n := n)
      (fun k => (s.cell a (o + k)).getD x0) hord hob hdst
      (fun k s => do
        let v ← s.rawRead a (o + k)
        s.rawWrite b (p + k) v)
      (by
        intro i hi t ht
        have hv : t.cell a (o + i) = some ((s.cell a (o + i)).getD x0) := by
          obtain ⟨x, hx⟩ := Option.isSome_iff_exists.mp (hsrc i hi)
          rcases ht.2 a (o + i) with h | ⟨h4, h5, h6, h7⟩
          · rw [h, hx]; rfl
          · rw [h7]
            congr 2
            have := hord.mem.mp h6
            rcases hdis with hd | hd | hd | hd
            · exact absurd h4 hd
            · omega
            · omega
            · omega
        rw [rawRead_ok ((owned_objs ht.1 a).trans hoa) hv, Res.ok_bind])
    refine ⟨s', h1, h2, ?_⟩
    intro k hk
    obtain ⟨x, hx⟩ := Option.isSome_iff_exists.mp (hsrc k hk)
    rw [h3 k hk, hx]; rfl

/-- **C74**, the part that holds: `dst = src` between vectors, Dense matrices, tensors and views of the same
size, in disjoint (or the same) memory, gives `dst` the elements of `src` and changes nothing else, except
that `src` must not be a `view1D` with an offset when `dst` is a `view1D`. -/
theorem C74_assign_partial {s : Sys α} {dst src : Tgt} {a o b p n : Nat} (hd : Window s dst b p n)
    (hs : Window s src a o n) {sh : List Nat} (h1 : s.shapeOf dst = .ok sh) (h2 : s.shapeOf src = .ok sh)
    (hdis : a ≠ b ∨ o + n ≤ p ∨ p + n ≤ o ∨ o = p) {order : List Nat} (hord : Order order n) {c : Cls}
    (hoff : c = .one → (∃ t d, dst = .view t d) → (∃ t d, src = .view t d) → o = 0) :
    ∃ s', s.assign order c dst src = .ok s' ∧ SameElsewhere s s' b p n ∧
      ∀ k, k < n → s'.cell b (p + k) = s.cell a (o + k) := by
  have key := vcopyRaw_ok hs.owned hd.owned hs.inside hd.inside hdis hord
  unfold Sys.assign
  simp only [h1, h2, Res.ok_bind, decide_true, cassert, if_true, hs.begin_eq, hd.begin_eq]
  split
  · rename_i t d
    have h0 := hoff rfl ⟨_, _, rfl⟩ ⟨_, _, rfl⟩
    have hb := hs.begin_eq
    simp only [Sys.beginOf, Res.ok.injEq, Prod.mk.injEq] at hb
    rw [hb.2, h0]
    rw [h0] at key
    exact key
  · exact key

/-- **C74, violated**: for **all** views with an offset `o`, assigning one `view1D` to another copies the
elements `2 o, 2 o + 1, ...` of the storage instead of `o, o + 1, ...`, if they exist, -/
theorem C74_view_offset_violated {s : Sys α} {t u : Tgt} {d e : VData} {a o b p n : Nat}
    (hd : Window s (.view t d) b p n) (hs : Window s (.view u e) a o n) {sh : List Nat}
    (h1 : d.shape = sh) (h2 : e.shape = sh)
    (hin : ∀ k, k < n → (s.cell a (o + o + k)).isSome = true)
    (hdis : a ≠ b) {order : List Nat} (hord : Order order n) :
    ∃ s', s.assign order .one (.view t d) (.view u e) = .ok s' ∧
      ∀ k, k < n → s'.cell b (p + k) = s.cell a (o + o + k) := by
  obtain ⟨s', k1, _, k3⟩ := vcopyRaw_ok hs.owned hd.owned hin hd.inside (Or.inl hdis) hord
  have hb := hs.begin_eq
  simp only [Sys.beginOf, Res.ok.injEq, Prod.mk.injEq] at hb
  refine ⟨s', ?_, k3⟩
  unfold Sys.assign
  simp only [Sys.shapeOf, h1, h2, Res.ok_bind, decide_true, cassert, if_true, hs.begin_eq, hd.begin_eq,
    hb.2]
  exact k1

/-- and reads outside the storage if they do not. -/
theorem C74_view_offset_ub {s : Sys α} {t u : Tgt} {d e : VData} {a o b p n : Nat}
    (hd : Window s (.view t d) b p n) (hs : Window s (.view u e) a o n) {sh : List Nat}
    (h1 : d.shape = sh) (h2 : e.shape = sh) (hn : 0 < n)
    (hout : s.cell a (o + o) = none) :
    ∃ m, s.assign (List.range n) .one (.view t d) (.view u e) = .ub m := by
  have hb := hs.begin_eq
  simp only [Sys.beginOf, Res.ok.injEq, Prod.mk.injEq] at hb
  obtain ⟨m, hm⟩ := rawRead_ub hout
  refine ⟨m, ?_⟩
  unfold Sys.assign
  simp only [Sys.shapeOf, h1, h2, Res.ok_bind, decide_true, cassert, if_true, hs.begin_eq, hd.begin_eq,
    hb.2]
  obtain ⟨n, rfl⟩ : ∃ n', n = n' + 1 := ⟨n - 1, by omega⟩
  unfold Sys.vcopyRaw
  rw [List.range_succ_eq_map, forList]
  simp only [Nat.add_zero, hm]
  rfl

/-- **C74**: between things of different extents, `dst = src` aborts. -/
theorem C74_assign_sizes {s : Sys α} {dst src : Tgt} {sd ss : List Nat} (h1 : s.shapeOf dst = .ok sd)
    (h2 : s.shapeOf src = .ok ss) (hne : sd ≠ ss) (order : List Nat) (c : Cls) :
    ∃ m, s.assign order c dst src = .abort m := by
  refine ⟨"assert", ?_⟩
  unfold Sys.assign
  simp only [h1, h2, Res.ok_bind]
  rw [cassert, decide_eq_false hne]
  rfl

example : ∃ m, exS.assign [0, 1, 2] .one (.obj 0) exV = .abort m :=
  C74_assign_sizes (sd := [8]) (ss := [3]) rfl rfl (by decide) _ _

/-- a view of the second vector, the destination of an assignment from `exV` -/
def exW : Tgt := .view (.obj 1) ⟨1, 0, 3, 3, [3]⟩

theorem exW_window : Window exS exW 1 0 3 := by
  obtain ⟨t, h1, _, h2⟩ := mkView_window exS_wf (i := 1) (o := ⟨.vec, 1, 0, 3, 3, true⟩) rfl rfl
    (start := 0) (shape := [3]) (by decide)
  cases h1
  exact h2

/-- `exW = exV` gives 4, 5, 6 instead of 2, 3, 4 -/
example : exS.assign [0, 1, 2] .one exW exV =
    .ok { exS with bufs := [[0, 1, 2, 3, 4, 5, 6, 7], [4, 5, 6]] } := by decide

/-- the vector `obj 1` gets the right elements -/
example : exS.assign [0, 1, 2] .one (.obj 1) exV =
    .ok { exS with bufs := [[0, 1, 2, 3, 4, 5, 6, 7], [2, 3, 4]] } := by decide

/-- a view of the elements 5, 6, 7 cannot be assigned at all -/
example : ∃ m, exS.assign (List.range 3) .one exW (.view (.obj 0) ⟨0, 5, 8, 3, [3]⟩) = .ub m := by
  obtain ⟨t, h1, _, h2⟩ := mkView_window exS_wf (i := 0) (o := ⟨.vec, 0, 0, 8, 8, true⟩) rfl rfl
    (start := 5) (shape := [3]) (by decide)
  cases h1
  exact C74_view_offset_ub exW_window h2 (n := 3) rfl rfl (by decide) rfl

end Verif.Shared
