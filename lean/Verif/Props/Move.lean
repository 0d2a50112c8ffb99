import Verif.Props.View
import Verif.Model.Move
import Verif.Spec.MoveSpec
import Mathlib.Algebra.Ring.Basic
import Mathlib.Tactic.ByContra

/-!
C85: `move` with extents, `move` between views, `reshape`, unary minus.
-/

namespace Verif.Shared

variable {α : Type}

theorem inferDims_sound {rowN colN : Int} {n r c : Nat} (h : inferDims rowN colN n = .ok (r, c)) :
    Fits rowN colN n r c := by
  unfold inferDims at h
  split at h
  · cases h
  · rename_i hne
    obtain ⟨r', hr, h⟩ := Res.bind_eq_ok.mp h
    obtain ⟨c', hc, h⟩ := Res.bind_eq_ok.mp h
    split at h
    · cases h
    · rename_i hrc
      cases h
      refine ⟨hne, by omega, fun h0 => ?_, fun h0 => ?_⟩
      · rw [if_neg (by omega)] at hr
        cases hr
        omega
      · rw [if_neg (by omega)] at hc
        cases hc
        omega

/-- **C85 (extents).** `move(t, rowN, colN)` of `n` elements gives exactly the requested extents, with a negative
one computed from the other; -/
theorem C85_dims (rowN colN : Int) (n r c : Nat) (h0 : 0 < r ∧ 0 < c) :
    inferDims rowN colN n = .ok (r, c) ↔ Fits rowN colN n r c := by
  refine ⟨inferDims_sound, fun ⟨h1, h2, h3, h4⟩ => ?_⟩
  unfold inferDims
  rw [if_neg h1]
  have hr : (if rowN < 0 then (if colN = 0 then .ub "division by zero" else .ok (n / colN.toNat))
      else .ok rowN.toNat : Res Nat) = .ok r := by
    by_cases hneg : rowN < 0
    · have hc := h4 (by omega)
      rw [if_pos hneg, if_neg (by omega), ← hc, ← h2, Int.toNat_natCast, Nat.mul_div_cancel _ h0.2]
    · rw [if_neg hneg, ← h3 (by omega), Int.toNat_natCast]
  rw [hr, Res.ok_bind]
  have hc : (if colN < 0 then (if r = 0 then .ub "division by zero" else .ok (n / r))
      else .ok colN.toNat : Res Nat) = .ok c := by
    by_cases hneg : colN < 0
    · rw [if_pos hneg, if_neg (by omega), ← h2, Nat.mul_div_cancel_left _ h0.1]
    · rw [if_neg hneg, ← h4 (by omega), Int.toNat_natCast]
  rw [hc, Res.ok_bind, if_neg (by omega)]

/-- and throws when no extents fit, unless the one given is 0. -/
theorem C85_dims_throw (rowN colN : Int) (n : Nat) (hr : rowN ≠ 0 ∨ 0 ≤ colN) (hc : colN ≠ 0 ∨ 0 ≤ rowN)
    (h : ∀ r c, ¬ Fits rowN colN n r c) : ∃ m, inferDims rowN colN n = .throw m := by
  cases e : inferDims rowN colN n with
  | ok rc => exact absurd (inferDims_sound e) (h rc.1 rc.2)
  | throw m => exact ⟨m, rfl⟩
  | abort m =>
    exfalso
    unfold inferDims at e
    split at e
    · cases e
    · split at e
      · split at e
        · cases e
        · simp only [Res.ok_bind] at e
          split at e
          · split at e
            · cases e
            · simp only [Res.ok_bind] at e
              split at e <;> cases e
          · simp only [Res.ok_bind] at e
            split at e <;> cases e
      · simp only [Res.ok_bind] at e
        split at e
        · split at e
          · cases e
          · simp only [Res.ok_bind] at e
            split at e <;> cases e
        · simp only [Res.ok_bind] at e
          split at e <;> cases e
  | ub m =>
    exfalso
    unfold inferDims at e
    split at e
    · cases e
    · rename_i hne
      split at e
      · rename_i hneg
        rw [if_neg (by omega)] at e
        simp only [Res.ok_bind] at e
        rw [if_neg (by omega)] at e
        simp only [Res.ok_bind] at e
        split at e <;> cases e
      · rename_i hneg
        simp only [Res.ok_bind] at e
        split at e
        · rename_i hcneg
          rw [if_neg (by omega)] at e
          simp only [Res.ok_bind] at e
          split at e <;> cases e
        · simp only [Res.ok_bind] at e
          split at e <;> cases e

/-- **C85, violated**: `move(t, -1, 0)` and `move(t, 0, -1)` divide by zero, for tensors of every size. -/
theorem C85_dims_zero_ub (n : Nat) :
    inferDims (-1) 0 n = .ub "division by zero" ∧ inferDims 0 (-1) n = .ub "division by zero" := ⟨rfl, rfl⟩

example : Fits (-1) 3 12 4 3 ∧ Fits 2 6 12 2 6 ∧ ∀ r c, ¬ Fits (-1) 5 12 r c := by
  refine ⟨⟨by omega, rfl, by omega, by omega⟩, ⟨by omega, rfl, by omega, by omega⟩, fun r c ⟨_, h2, _, h4⟩ => ?_⟩
  have := h4 (by omega)
  have hc : c = 5 := by omega
  subst hc
  omega

/-- the matrix or vector after `move`: where its elements are -/
theorem move_window {s : Sys α} {dst : Nat} {od o : Obj} (hd : s.obj dst = .ok od)
    {a p n : Nat} (ho : o.buf = a ∧ o.first = p ∧ o.nnz = n)
    (hin : ∀ k, k < n → (s.cell a (p + k)).isSome = true) :
    Window ({ s with objs := s.objs.set dst (some o) } : Sys α) (.obj dst) a p n := by
  obtain ⟨rfl, rfl, rfl⟩ := ho
  have e := obj_set_self (bs := s.bufs) hd o
  refine ⟨?_, ?_, owned_of_obj e, hin⟩
  · show (Sys.obj _ dst).bind _ = _
    rw [e]; rfl
  · show (Sys.obj _ dst).bind _ = _
    rw [e]; rfl

/-- the thing that is moved: a tensor with its elements at `addr`, `off`, or a view made over an object -/
structure Source (s : Sys α) (t : Tgt) (addr off n : Nat) : Prop where
  window : Window s t addr off n
  storage : ∃ o, s.storage t = .ok o ∧ o.buf = addr ∧ o.first = off ∧ o.nnz = n

theorem source_obj {s : Sys α} (hs : s.WF) {i : Nat} {o : Obj} (ho : s.obj i = .ok o) :
    Source s (.obj i) o.buf o.first o.nnz := by
  obtain ⟨h1, _, b, hb, hbl⟩ := hs i o ho
  refine ⟨⟨?_, ?_, owned_of_obj ho, ?_⟩, ⟨o, ho, rfl, rfl, rfl⟩⟩
  · show (s.obj i).bind _ = _
    rw [ho]; rfl
  · show (s.obj i).bind _ = _
    rw [ho]; rfl
  · intro k hk
    unfold Sys.cell
    rw [hb]
    simp only [Option.bind_some]
    rw [List.getElem?_eq_getElem (by omega)]
    rfl

theorem source_view {s : Sys α} (hs : s.WF) {i : Nat} {o : Obj} (ho : s.obj i = .ok o) (hf : o.first = 0)
    {start : Nat} {shape : List Nat} (hin : start + prod shape ≤ o.nnz) {t : Tgt}
    (ht : s.mkView (.obj i) start shape = .ok t) : Source s t o.buf start (prod shape) := by
  obtain ⟨t', h1, _, h2⟩ := mkView_window hs ho hf hin
  rw [ht] at h1
  cases h1
  refine ⟨h2, ⟨{ o with first := start, nnz := prod shape }, ?_, rfl, rfl, rfl⟩⟩
  rw [Sys.mkView, ho, Res.ok_bind] at ht
  cases ht
  show (s.obj i).bind _ = _
  rw [ho]; rfl

/-- **C85 (move with extents).** `A.move(t, rowN, colN)` from a tensor or a view: when the extents fit, `A` becomes
the `r × c` matrix whose elements are the very elements of `t` in order (later changes through one are seen through
the other), no element and no other object changes; otherwise nothing changes. -/
theorem C85_move_dims {s : Sys α} {dst : Nat} {od : Obj} (hd : s.obj dst = .ok od) {t : Tgt} {a p n : Nat}
    (hsrc : Source s t a p n) (rowN colN : Int) {r c : Nat} (h0 : 0 < r ∧ 0 < c) (hfit : Fits rowN colN n r c) :
    ∃ s', s.moveDims dst t rowN colN = .ok s' ∧ Window s' (.obj dst) a p n ∧
      s'.shapeOf (.obj dst) = .ok [r, c] ∧ s'.bufs = s.bufs ∧ ∀ j, j ≠ dst → s'.obj j = s.obj j := by
  obtain ⟨o, ho, hb, hp, hn⟩ := hsrc.storage
  refine ⟨{ s with objs := s.objs.set dst (some { o with kind := .dense r c, created := false }) }, ?_, ?_, ?_, rfl,
    fun j hj => obj_set_ne (Ne.symm hj) _⟩
  · unfold Sys.moveDims
    rw [hd, Res.ok_bind, ho, Res.ok_bind, hn, (C85_dims rowN colN n r c h0).mpr hfit, Res.ok_bind]
  · exact move_window (o := { o with kind := .dense r c, created := false }) hd ⟨hb, hp, hn⟩ hsrc.window.inside
  · have e := obj_set_self (bs := s.bufs) hd { o with kind := .dense r c, created := false }
    show (Sys.obj _ dst).bind _ = _
    rw [e]; rfl

theorem C85_move_dims_throw {s : Sys α} {dst : Nat} {od : Obj} (hd : s.obj dst = .ok od) {t : Tgt} {a p n : Nat}
    (hsrc : Source s t a p n) (rowN colN : Int) (hr : rowN ≠ 0 ∨ 0 ≤ colN) (hc : colN ≠ 0 ∨ 0 ≤ rowN)
    (h : ∀ r c, ¬ Fits rowN colN n r c) : ∃ m, s.moveDims dst t rowN colN = .throw m := by
  obtain ⟨o, ho, hb, hp, hn⟩ := hsrc.storage
  obtain ⟨m, e⟩ := C85_dims_throw rowN colN n hr hc h
  refine ⟨m, ?_⟩
  unfold Sys.moveDims
  rw [hd, Res.ok_bind, ho, Res.ok_bind, hn, e]
  rfl

/-- **C85 (move into a vector).** -/
theorem C85_move_flat {s : Sys α} {dst : Nat} {od : Obj} (hd : s.obj dst = .ok od) {t : Tgt} {a p n : Nat}
    (hsrc : Source s t a p n) (m : Int) :
    (m < 0 ∨ m = n → ∃ s', s.moveFlat dst t m = .ok s' ∧ Window s' (.obj dst) a p n ∧
      s'.shapeOf (.obj dst) = .ok [n] ∧ s'.bufs = s.bufs ∧ ∀ j, j ≠ dst → s'.obj j = s.obj j) ∧
    (0 ≤ m → m ≠ n → ∃ e, s.moveFlat dst t m = .throw e) := by
  obtain ⟨o, ho, hb, hp, hn⟩ := hsrc.storage
  constructor
  · intro hm
    refine ⟨{ s with objs := s.objs.set dst (some { o with kind := .vec, created := false }) }, ?_, ?_, ?_, rfl,
      fun j hj => obj_set_ne (Ne.symm hj) _⟩
    · unfold Sys.moveFlat
      rw [hd, Res.ok_bind, ho, Res.ok_bind, hn, if_neg]
      rcases hm with hm | hm
      · rw [if_pos hm]; simp
      · rw [hm, if_neg (by omega)]; simp
    · exact move_window (o := { o with kind := .vec, created := false }) hd ⟨hb, hp, hn⟩ hsrc.window.inside
    · have e := obj_set_self (bs := s.bufs) hd { o with kind := .vec, created := false }
      show (Sys.obj _ dst).bind _ = _
      rw [e, ← hn]; rfl
  · intro h1 h2
    refine ⟨"error cannot move tensor_Dense->vector when nnz != get_nnz()", ?_⟩
    unfold Sys.moveFlat
    rw [hd, Res.ok_bind, ho, Res.ok_bind, hn, if_neg (by omega : ¬ m < 0), if_pos h2]

/-- **C85 (reshape).** `A.reshape(r, c)` keeps all elements in their (row-major) order and the number of elements;
it throws, changing nothing, exactly when the number of elements would change. -/
theorem C85_reshape {s : Sys α} {i : Nat} {o : Obj} (ho : s.obj i = .ok o) {M N : Nat} (hk : o.kind = .dense M N)
    (r c : Nat) :
    (r * c = M * N → ∃ s', s.reshapeDense i r c = .ok s' ∧ s'.bufs = s.bufs ∧ s'.shapeOf (.obj i) = .ok [r, c] ∧
      s'.beginOf (.obj i) = s.beginOf (.obj i) ∧ s'.nnzOf (.obj i) = s.nnzOf (.obj i) ∧
      ∀ j, j ≠ i → s'.obj j = s.obj j) ∧
    (r * c ≠ M * N → ∃ m, s.reshapeDense i r c = .throw m) := by
  constructor
  · intro h
    have e := obj_set_self (bs := s.bufs) ho { o with kind := .dense r c }
    refine ⟨{ s with objs := s.objs.set i (some { o with kind := .dense r c }) }, ?_, rfl, ?_, ?_, ?_,
      fun j hj => obj_set_ne (Ne.symm hj) _⟩
    · unfold Sys.reshapeDense
      rw [ho, Res.ok_bind]
      simp only [hk]
      rw [if_neg (by omega)]
    · show (Sys.obj _ i).bind _ = _
      rw [e]; rfl
    · show (Sys.obj _ i).bind _ = (Sys.obj _ i).bind _
      rw [e, ho]; rfl
    · show (Sys.obj _ i).bind _ = (Sys.obj _ i).bind _
      rw [e, ho]; rfl
  · intro h
    refine ⟨"error size should be unchanged when matrix is reshaped", ?_⟩
    unfold Sys.reshapeDense
    rw [ho, Res.ok_bind]
    simp only [hk]
    rw [if_pos (by omega)]

theorem cell_create {s : Sys α} {kind : Kind} {n : Nat} {v : α} {a p : Nat} (h : a < s.bufs.length) :
    (s.create kind n v).cell a p = s.cell a p := by
  unfold Sys.cell Sys.create
  dsimp only
  rw [List.getElem?_append_left h]

/-- **C85 (unary minus).** `-x` is a new vector with the elements `-x_k`; `x` and everything else stays. -/
theorem C85_neg [Ring α] {s : Sys α} (hs : s.WF) {i : Nat} {o : Obj} (ho : s.obj i = .ok o)
    {order : List Nat} (hord : Order order o.nnz) :
    ∃ s' j, s.neg order i = .ok (s', j) ∧ j = s.objs.length ∧
      Window s' (.obj j) s.bufs.length 0 o.nnz ∧
      (∀ k, k < o.nnz → s'.cell s.bufs.length k = (s.cell o.buf (o.first + k)).map (fun x => -x)) ∧
      (∀ a p, a < s.bufs.length → s'.cell a p = s.cell a p) ∧ ∀ l ob, s.obj l = .ok ob → s'.obj l = .ok ob := by
  obtain ⟨h1, _, b, hb, hbl⟩ := hs i o ho
  have hlt : o.buf < s.bufs.length := by
    by_contra hc
    rw [List.getElem?_eq_none (by omega)] at hb
    cases hb
  have hnewobj : (s.create .vec o.nnz 0).obj s.objs.length =
      .ok { kind := .vec, buf := s.bufs.length, first := 0, nnz := o.nnz, alloc := o.nnz, created := true } := by
    rw [obj_eq]
    unfold Sys.create
    dsimp only
    rw [List.getElem?_append_right (Nat.le_refl _)]
    simp
  have holdobj : ∀ l ob, s.obj l = .ok ob → (s.create .vec o.nnz 0).obj l = .ok ob := by
    intro l ob h
    rw [obj_eq] at h ⊢
    unfold Sys.create
    dsimp only
    rw [List.getElem?_append_left, h]
    by_contra hc
    rw [List.getElem?_eq_none (by omega)] at h
    cases h
  have hin : ∀ k, k < o.nnz → ((s.create .vec o.nnz 0).cell s.bufs.length (0 + k)).isSome = true := by
    intro k hk
    unfold Sys.cell Sys.create
    dsimp only
    rw [List.getElem?_append_right (Nat.le_refl _)]
    simp [hk]
  obtain ⟨s', e, hse, hval⟩ := forList_store_all (s := s.create .vec o.nnz 0) (a := s.bufs.length) (o := 0)
    (fun k => ((s.cell o.buf (o.first + k)).getD 0) * (-1)) hord (owned_of_obj hnewobj) hin
    (fun k t => do
      let x ← t.rawRead o.buf (o.first + k)
      t.rawWrite s.bufs.length (0 + k) (x * (-1)))
    (by
      intro k hk t ht
      have hc : t.cell o.buf (o.first + k) = some ((s.cell o.buf (o.first + k)).getD 0) := by
        rcases ht.2 o.buf (o.first + k) with h | ⟨h, _⟩
        · rw [h, cell_create hlt]
          unfold Sys.cell
          rw [hb]
          simp only [Option.bind_some]
          rw [List.getElem?_eq_getElem (by omega)]
          rfl
        · omega
      rw [rawRead_ok ((owned_objs ht.1 o.buf).trans (owned_of_obj (holdobj i o ho))) hc, Res.ok_bind])
  have hobj : ∀ l, s'.obj l = (s.create .vec o.nnz 0).obj l := by
    intro l
    unfold Sys.obj
    rw [hse.1]
  refine ⟨s', s.objs.length, ?_, rfl, ⟨?_, ?_, ?_, ?_⟩, ?_, ?_, ?_⟩
  · unfold Sys.neg
    rw [ho, Res.ok_bind]
    dsimp only
    rw [e, Res.ok_bind]
  · show (Sys.obj _ _).bind _ = _
    rw [hobj, hnewobj]; rfl
  · show (Sys.obj _ _).bind _ = _
    rw [hobj, hnewobj]; rfl
  · rw [owned_objs hse.1]; exact owned_of_obj hnewobj
  · intro k hk
    rw [hval k hk]; rfl
  · intro k hk
    have := hval k hk
    rw [Nat.zero_add] at this
    rw [this]
    unfold Sys.cell
    rw [hb]
    simp only [Option.bind_some]
    rw [List.getElem?_eq_getElem (by omega)]
    simp
  · intro a p ha
    rw [hse.2 a p (by omega), cell_create ha]
  · intro l ob h
    rw [hobj]; exact holdobj l ob h

/-- **C85 (move between views)**, the part that holds: `v.move(w)` when `w` is a view of the same object, gives `v`
the elements and extents of `w` and changes no element. -/
theorem C85_view_move_partial {s : Sys α} (hs : s.WF) {x : Nat} {o : Obj} (ho : s.obj x = .ok o) {dv d : VData}
    {a p n : Nat} (hw : Window s (.view (.obj x) d) a p n) {r c : Nat} (hsh : d.shape = [r, c])
    {order : List Nat} (hord : Order order o.nnz) {cl : Cls} :
    ∃ s' v', s.moveViewDense order cl (.view (.obj x) dv) (.view (.obj x) d) none = .ok (s', v') ∧
      s'.objs = s.objs ∧ (∀ a p, s'.cell a p = s.cell a p) ∧ Window s' v' a p n ∧ s'.shapeOf v' = .ok [r, c] := by
  have hx := (source_obj hs ho).window
  have hshape : s.shapeOf (.obj x) = .ok o.shape := by
    show (s.obj x).bind _ = _
    rw [ho]; rfl
  obtain ⟨s', e, hse, hval⟩ := C74_assign_partial hx hx hshape hshape (Or.inr (Or.inr (Or.inr rfl))) hord (c := cl)
    (by rintro _ ⟨t, d, h⟩; cases h)
  have hcell : ∀ a p, s'.cell a p = s.cell a p := by
    intro a' p'
    by_cases h : a' = o.buf ∧ o.first ≤ p' ∧ p' < o.first + o.nnz
    · obtain ⟨rfl, h2, h3⟩ := h
      have := hval (p' - o.first) (by omega)
      rw [show o.first + (p' - o.first) = p' by omega] at this
      exact this
    · exact hse.2 a' p' h
  refine ⟨s', .view (.obj x) { d with shape := [r, c] }, ?_, hse.1, hcell, ⟨?_, ?_, ?_, ?_⟩, rfl⟩
  · unfold Sys.moveViewDense
    simp only [hsh]
    show ((s.assign order cl (.obj x) (.obj x)).bind _ : Res _) = _
    rw [e]; rfl
  · exact hw.begin_eq
  · exact hw.size_eq
  · rw [owned_objs hse.1]; exact hw.owned
  · intro k hk
    rw [hcell]; exact hw.inside k hk

/-- **C85, violated (the target is overwritten)**: for **all** views `v` of an object `x` and `w` of another object
`z` of the same extents, `v.move(w)` copies every element of `z` over `x`, also those that neither view shows. -/
theorem C85_view_move_violated {s : Sys α} (hs : s.WF) {x z : Nat} {ox oz : Obj} (hx : s.obj x = .ok ox)
    (hz : s.obj z = .ok oz) (hne : ox.buf ≠ oz.buf) (hn : ox.nnz = oz.nnz) (hshape : ox.shape = oz.shape)
    {dv d : VData} {r c : Nat} (hsh : d.shape = [r, c]) {order : List Nat} (hord : Order order ox.nnz) {cl : Cls} :
    ∃ s' v', s.moveViewDense order cl (.view (.obj x) dv) (.view (.obj z) d) none = .ok (s', v') ∧
      ∀ k, k < ox.nnz → s'.cell ox.buf (ox.first + k) = s.cell oz.buf (oz.first + k) := by
  have h1 : s.shapeOf (.obj x) = .ok ox.shape := by
    show (s.obj x).bind _ = _
    rw [hx]; rfl
  have h2 : s.shapeOf (.obj z) = .ok ox.shape := by
    show (s.obj z).bind _ = _
    rw [hz, hshape]; rfl
  have wz := (source_obj hs hz).window
  rw [← hn] at wz
  obtain ⟨s', e, _, hval⟩ := C74_assign_partial (source_obj hs hx).window wz h1 h2 (Or.inl (Ne.symm hne)) hord (c := cl)
    (by rintro _ ⟨t, d, h⟩; cases h)
  refine ⟨s', .view (.obj x) { d with shape := [r, c] }, ?_, hval⟩
  unfold Sys.moveViewDense
  simp only [hsh]
  show ((s.assign order cl (.obj x) (.obj z)).bind _ : Res _) = _
  rw [e]; rfl

/-- **C85, violated (abort)**: and it aborts when the two objects have different extents, for all views. -/
theorem C85_view_move_abort {s : Sys α} {x z : Nat} {ox oz : Obj} (hx : s.obj x = .ok ox)
    (hz : s.obj z = .ok oz) (hshape : ox.shape ≠ oz.shape)
    {dv d : VData} {r c : Nat} (hsh : d.shape = [r, c]) (order : List Nat) (cl : Cls) :
    ∃ m, s.moveViewDense order cl (.view (.obj x) dv) (.view (.obj z) d) none = .abort m := by
  have h1 : s.shapeOf (.obj x) = .ok ox.shape := by
    show (s.obj x).bind _ = _
    rw [hx]; rfl
  have h2 : s.shapeOf (.obj z) = .ok oz.shape := by
    show (s.obj z).bind _ = _
    rw [hz]; rfl
  obtain ⟨m, e⟩ := C74_assign_sizes h1 h2 hshape order cl
  refine ⟨m, ?_⟩
  unfold Sys.moveViewDense
  simp only [hsh]
  show ((s.assign order cl (.obj x) (.obj z)).bind _ : Res _) = _
  rw [e]; rfl

/-- **C85, violated (extents ignored)**: `v.move(w, rowN, colN)` checks the extents, but gives `v` the first two
extents of `w` instead, for **all** requests. -/
theorem C85_view_move_dims_violated {s s' : Sys α} {x z v' : Tgt} {dv d : VData} {r c : Nat} {l : List Nat}
    (hsh : d.shape = r :: c :: l) {rowN colN : Int} {order : List Nat} {cl : Cls}
    (h : s.moveViewDense order cl (.view x dv) (.view z d) (some (rowN, colN)) = .ok (s', v')) :
    s'.shapeOf v' = .ok [r, c] := by
  unfold Sys.moveViewDense at h
  simp only [hsh] at h
  obtain ⟨_, _, h⟩ := Res.bind_eq_ok.mp h
  obtain ⟨_, _, h⟩ := Res.bind_eq_ok.mp h
  obtain ⟨r', hr, h⟩ := Res.bind_eq_ok.mp h
  obtain ⟨c', hc, h⟩ := Res.bind_eq_ok.mp h
  obtain ⟨s1, _, h⟩ := Res.bind_eq_ok.mp h
  cases hr
  cases hc
  cases h
  rfl

/-! concrete cases -/

/-- two 2x3 matrices, a 3x2 matrix -/
def exM : Sys Nat :=
  { bufs := [[1, 2, 3, 4, 5, 6], [10, 20, 30, 40, 50, 60], [7, 7, 7, 7, 7, 7]]
    objs := [some ⟨.dense 2 3, 0, 0, 6, 6, true⟩, some ⟨.dense 2 3, 1, 0, 6, 6, true⟩, some ⟨.dense 3 2, 2, 0, 6, 6, true⟩] }

theorem exM_wf : exM.WF := by
  intro i o h
  match i with
  | 0 => cases h; exact ⟨by decide, fun _ => rfl, _, rfl, rfl⟩
  | 1 => cases h; exact ⟨by decide, fun _ => rfl, _, rfl, rfl⟩
  | 2 => cases h; exact ⟨by decide, fun _ => rfl, _, rfl, rfl⟩
  | n + 3 => cases h

/-- `v` views the first matrix, `w` (rank 2, elements 2..5) the second; after `v.move(w)` the first is gone -/
example : ∃ s' v', exM.moveViewDense [0, 1, 2, 3, 4, 5] .two (.view (.obj 0) ⟨0, 0, 6, 6, [2, 3]⟩)
      (.view (.obj 1) ⟨1, 2, 6, 4, [2, 2]⟩) none = .ok (s', v') ∧
      ∀ k, k < 6 → s'.cell 0 (0 + k) = exM.cell 1 (0 + k) :=
  C85_view_move_violated exM_wf (x := 0) (z := 1) rfl rfl (by decide) rfl rfl rfl (by unfold Order; decide)

example : ∃ s' v', exM.moveViewDense [0, 1, 2, 3, 4, 5] .two (.view (.obj 1) ⟨1, 0, 6, 6, [2, 3]⟩)
      (.view (.obj 1) ⟨1, 2, 6, 4, [2, 2]⟩) none = .ok (s', v') ∧ s'.shapeOf v' = .ok [2, 2] ∧
      s'.bracket v' 0 = .ok 30 := ⟨_, _, rfl, rfl, rfl⟩

example : ∃ m, exM.moveViewDense [0, 1, 2, 3, 4, 5] .two (.view (.obj 0) ⟨0, 0, 6, 6, [2, 3]⟩)
      (.view (.obj 2) ⟨2, 2, 6, 4, [2, 2]⟩) none = .abort m :=
  C85_view_move_abort (x := 0) (z := 2) rfl rfl (by decide) rfl _ _

/-- asked for 1x4, `v` becomes 2x2 -/
example : ∃ s' v', exM.moveViewDense [0, 1, 2, 3, 4, 5] .two (.view (.obj 1) ⟨1, 0, 6, 6, [2, 3]⟩)
      (.view (.obj 1) ⟨1, 2, 6, 4, [2, 2]⟩) (some (1, -1)) = .ok (s', v') ∧ s'.shapeOf v' = .ok [2, 2] :=
  ⟨_, _, rfl, rfl⟩

/-- a tensor view of elements 2..5 of matrix 1 moved into matrix 2 as 4x1, then written through -/
example : ∃ t s' s'', exM.mkView (.obj 1) 2 [2, 2] = .ok t ∧ exM.moveDims 2 t (-1) 1 = .ok s' ∧
    s'.shapeOf (.obj 2) = .ok [4, 1] ∧ s'.write 2 3 99 = .ok s'' ∧ s''.read 1 5 = .ok 99 :=
  ⟨_, _, _, rfl, rfl, rfl, rfl, rfl⟩

example : ∃ t, Source exM t 1 2 4 :=
  ⟨_, source_view exM_wf (i := 1) rfl rfl (start := 2) (shape := [2, 2]) (by decide) rfl⟩

example : ∃ s', exM.reshapeDense 0 3 2 = .ok s' ∧ s'.read 0 5 = .ok 6 := ⟨_, rfl, rfl⟩

/-- `-x` of a three-element vector that starts at offset 1 of its storage -/
example : ∃ s' j, ({ bufs := [[9, 1, 2, 3]], objs := [some ⟨.vec, 0, 1, 3, 4, false⟩] } : Sys Int).neg [2, 0, 1] 0 =
    .ok (s', j) ∧ s'.cell 1 2 = some (-3) ∧ s'.cell 0 3 = some 3 := ⟨_, _, rfl, rfl, rfl⟩

end Verif.Shared
