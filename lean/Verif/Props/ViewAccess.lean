import Verif.Props.View

/-!
C75-C77: iteration, element access and `resize` of vectors, Dense matrices, dense tensors and views.
-/

namespace Verif.Shared

variable {α : Type}

/-! ### C75: iteration from `begin()` to `end()` -/

theorem collect_ok {s : Sys α} {a : Nat} (ho : s.owned a = true) :
    ∀ (n b : Nat) (l : List α), (∀ k, k < n → (s.cell a (b + k)).isSome = true) →
      ∃ l', forFrom b n (fun p l => do
        let v ← s.rawRead a p
        .ok (l ++ [v])) l = .ok (l ++ l') ∧ l'.length = n ∧ ∀ k, k < n → l'[k]? = s.cell a (b + k) := by
  intro n
  induction n with
  | zero => intro b l _; exact ⟨[], by simp, rfl, fun k hk => by omega⟩
  | succ n ih =>
    intro b l hin
    obtain ⟨x, hx⟩ := Option.isSome_iff_exists.mp (hin 0 (by omega))
    obtain ⟨l', h1, h2, h3⟩ := ih (b + 1) (l ++ [x]) (fun k hk => by
      have := hin (k + 1) (by omega)
      rwa [show b + (k + 1) = b + 1 + k by omega] at this)
    refine ⟨x :: l', ?_, by simp [h2], ?_⟩
    · rw [forFrom_succ, rawRead_ok ho (by simpa using hx)]
      simp only [Res.ok_bind]
      rw [h1]
      simp
    · intro k hk
      cases k with
      | zero => simpa using hx.symm
      | succ k =>
        rw [List.getElem?_cons_succ, h3 k (by omega), show b + 1 + k = b + (k + 1) by omega]

/-- what a loop from `begin()` to `end()` meets -/
theorem iterate_ok {s : Sys α} {t : Tgt} {a o e : Nat} (hb : s.beginOf t = .ok (a, o))
    (he : s.endOf t = .ok (a, e)) (ho : s.owned a = true) (hle : o ≤ e)
    (hin : ∀ k, k < e - o → (s.cell a (o + k)).isSome = true) :
    ∃ l, s.iterate t = .ok l ∧ l.length = e - o ∧ ∀ k, k < e - o → l[k]? = s.cell a (o + k) := by
  obtain ⟨l, h1, h2, h3⟩ := collect_ok ho (e - o) o [] hin
  refine ⟨l, ?_, h2, h3⟩
  unfold Sys.iterate
  simp only [hb, he, Res.ok_bind]
  rw [if_neg (by omega)]
  simpa [forRange] using h1

/-- **C75** for vectors, Dense matrices and dense tensors, moved ones included: a loop from `begin()` to
`end()` meets the elements, each once, in order. -/
theorem C75_iterate_object {s : Sys α} {i a o n : Nat} (hw : Window s (.obj i) a o n) :
    ∃ l, s.iterate (.obj i) = .ok l ∧ l.length = n ∧ ∀ k, k < n → l[k]? = s.cell a (o + k) := by
  have hb := hw.begin_eq
  have hn := hw.size_eq
  simp only [Sys.beginOf] at hb
  obtain ⟨ob, ho, e⟩ := Res.bind_eq_ok.mp hb
  cases e
  simp only [Sys.nnzOf, ho, Res.ok_bind, Res.ok.injEq] at hn
  have he : s.endOf (.obj i) = .ok (ob.buf, ob.first + n) := by
    simp only [Sys.endOf, ho, Res.ok_bind, hn]
  have := iterate_ok hw.begin_eq he hw.owned (by omega) (by
    intro k hk; exact hw.inside k (by omega))
  simpa using this

/-- **C75, the part that holds for views**: the same for a view that starts at the beginning of the
storage. -/
theorem C75_iterate_view_partial {s : Sys α} {t : Tgt} {d : VData} {a n : Nat}
    (hw : Window s (.view t d) a 0 n) :
    ∃ l, s.iterate (.view t d) = .ok l ∧ l.length = n ∧ ∀ k, k < n → l[k]? = s.cell a k := by
  have hb := hw.begin_eq
  have hn := hw.size_eq
  simp only [Sys.beginOf, Res.ok.injEq, Prod.mk.injEq] at hb
  simp only [Sys.nnzOf, Res.ok.injEq] at hn
  have he : s.endOf (.view t d) = .ok (a, n) := by simp only [Sys.endOf, hb.1, hn]
  have := iterate_ok hw.begin_eq he hw.owned (by omega) (by
    intro k hk; exact hw.inside k (by omega))
  simpa using this

/-- **C75, violated**: for every view, a loop from `begin()` to `end()` meets as many values as the view
has elements only if the view starts at the beginning of the storage. With an offset of at most the size
the last `offset` elements are missed; with a larger offset the loop runs out of the array. -/
theorem C75_iterate_view_violated {s : Sys α} {t : Tgt} {d : VData} {a o n : Nat}
    (hw : Window s (.view t d) a o n) :
    ((∃ l, s.iterate (.view t d) = .ok l ∧ l.length = n) ↔ o = 0) ∧
    (o ≤ n → ∃ l, s.iterate (.view t d) = .ok l ∧ l.length = n - o ∧
      ∀ k, k < n - o → l[k]? = s.cell a (o + k)) ∧
    (n < o → ∃ m, s.iterate (.view t d) = .ub m) := by
  have hb := hw.begin_eq
  have hn := hw.size_eq
  simp only [Sys.beginOf, Res.ok.injEq, Prod.mk.injEq] at hb
  simp only [Sys.nnzOf, Res.ok.injEq] at hn
  have he : s.endOf (.view t d) = .ok (a, n) := by simp only [Sys.endOf, hb.1, hn]
  have h1 : o ≤ n → ∃ l, s.iterate (.view t d) = .ok l ∧ l.length = n - o ∧
      ∀ k, k < n - o → l[k]? = s.cell a (o + k) := fun h =>
    iterate_ok hw.begin_eq he hw.owned h (fun k hk => hw.inside k (by omega))
  have h2 : n < o → ∃ m, s.iterate (.view t d) = .ub m := by
    intro h
    refine ⟨"iteration does not meet end()", ?_⟩
    unfold Sys.iterate
    simp only [hw.begin_eq, he, Res.ok_bind]
    rw [if_pos h]
  refine ⟨⟨?_, ?_⟩, h1, h2⟩
  · rintro ⟨l, hl, hl2⟩
    rcases Nat.lt_or_ge n o with h | h
    · obtain ⟨m, hm⟩ := h2 h
      rw [hm] at hl; cases hl
    · obtain ⟨l', h3, h4, _⟩ := h1 h
      rw [h3] at hl; cases hl
      omega
  · rintro rfl
    obtain ⟨l, h3, h4, _⟩ := h1 (Nat.zero_le _)
    exact ⟨l, h3, h4⟩

/-- the view of 2, 3, 4: iteration gives only 2; the view of 5, 6, 7: undefined behaviour -/
example : exS.iterate exV = .ok [2] ∧
    exS.iterate (.view (.obj 0) ⟨0, 5, 8, 3, [3]⟩) = .ub "iteration does not meet end()" ∧
    exS.iterate exW = .ok [10, 20, 30] ∧ exS.iterate (.obj 1) = .ok [10, 20, 30] := by decide

/-! ### C76: element access -/

theorem read_cell {s : Sys α} (hs : s.WF) {i k : Nat} {o : Obj} (ho : s.obj i = .ok o) (hk : k < o.nnz) :
    ∃ x, s.cell o.buf (o.first + k) = some x ∧ s.read i k = .ok x := by
  obtain ⟨b, x, hb, _, hx, hr⟩ := read_eq hs ho hk
  exact ⟨x, by unfold Sys.cell; rw [hb]; exact hx, hr⟩

/-- **C76**, for a view of an object that starts its storage: `view[k]`, `view.at(k)` and the cell the view
stands for are the same for every element of the view. -/
theorem C76_access_partial {s : Sys α} (hs : s.WF) {i : Nat} {o : Obj} (ho : s.obj i = .ok o)
    (hf : o.first = 0) {start : Nat} {shape : List Nat} (hin : start + prod shape ≤ o.nnz) {t : Tgt}
    (ht : s.mkView (.obj i) start shape = .ok t) {k : Nat} (hk : k < prod shape) :
    ∃ x, s.cell o.buf (start + k) = some x ∧ s.bracket t k = .ok x ∧ s.atOf t k = .ok x ∧
      s.read i (start + k) = .ok x := by
  rw [Sys.mkView, ho, Res.ok_bind] at ht
  cases ht
  obtain ⟨x, h1, h2⟩ := read_cell hs ho (k := start + k) (by omega)
  rw [hf, Nat.zero_add] at h1
  refine ⟨x, h1, ?_, h2, h2⟩
  simp only [Sys.bracket]
  rw [Nat.add_comm]
  exact rawRead_ok (owned_of_obj ho) h1

/-- the same for `view.insert(k, v)`: it writes the element that `view[k]` reads, and nothing else. -/
theorem C76_insert_partial {s : Sys α} (hs : s.WF) {i : Nat} {o : Obj} (ho : s.obj i = .ok o)
    (hf : o.first = 0) {start : Nat} {shape : List Nat} (hin : start + prod shape ≤ o.nnz) {t : Tgt}
    (ht : s.mkView (.obj i) start shape = .ok t) {k : Nat} (hk : k < prod shape) (v : α) :
    ∃ s', s.insertOf t k v = .ok s' ∧ SameElsewhere s s' o.buf (start + k) 1 ∧
      s'.bracket t k = .ok v := by
  rw [Sys.mkView, ho, Res.ok_bind] at ht
  cases ht
  obtain ⟨w1, w2, b, hb, hl⟩ := hs i o ho
  have hcell : (s.cell o.buf (start + k)).isSome = true := by
    unfold Sys.cell; rw [hb]; simp; omega
  have hw : s.write i (start + k) v = s.rawWrite o.buf (start + k) v := by
    unfold Sys.write Sys.rawWrite
    rw [ho, if_pos (owned_of_obj ho)]
    have hc : o.check (start + k) = .ok () := by
      unfold Obj.check
      split
      · rfl
      · rw [cassert_decide (by omega), Res.ok_bind, cassert_decide (by omega)]
    simp only [Res.ok_bind, hc, hf, Nat.zero_add]
  obtain ⟨s', h1, h2, h3⟩ := rawWrite_ok (v := v) (owned_of_obj ho) hcell
  refine ⟨s', by simp only [Sys.insertOf]; rw [hw, h1], ⟨h2, ?_⟩, ?_⟩
  · intro a' p' hn
    rw [h3, if_neg]
    rintro ⟨rfl, rfl⟩
    exact hn ⟨rfl, by omega, by omega⟩
  · simp only [Sys.bracket]
    rw [Nat.add_comm]
    exact rawRead_ok ((owned_objs h2 _).trans (owned_of_obj ho)) (by rw [h3, if_pos ⟨rfl, rfl⟩])

/-- **C76, violated (range)**: `view.at(k)` is not limited to the view: for every position behind the end
of the view that still lies in the object it returns the object's element. -/
theorem C76_at_range_violated {s : Sys α} (hs : s.WF) {i : Nat} {o : Obj} (ho : s.obj i = .ok o)
    {start : Nat} {shape : List Nat} {t : Tgt} (ht : s.mkView (.obj i) start shape = .ok t) {k : Nat}
    (_hk : prod shape ≤ k) (hin : start + k < o.nnz) :
    ∃ x, s.atOf t k = .ok x ∧ s.read i (start + k) = .ok x := by
  rw [Sys.mkView, ho, Res.ok_bind] at ht
  cases ht
  obtain ⟨x, h1, h2⟩ := read_cell hs ho (k := start + k) (by omega)
  exact ⟨x, h2, h2⟩

/-- **C76, violated (views of views)**: in a view of a view that starts at `o1`, `at(k)` reads the element
`o1` places behind the one `view[k]` reads, for all offsets and indices for which both exist. -/
theorem C76_nested_violated {s : Sys α} (hs : s.WF) {i : Nat} {o : Obj} (ho : s.obj i = .ok o)
    (hf : o.first = 0) {o1 o2 : Nat} {sh1 sh2 : List Nat} {v u : Tgt}
    (hv : s.mkView (.obj i) o1 sh1 = .ok v) (hu : s.mkView v o2 sh2 = .ok u) {k : Nat}
    (hin : o1 + (o1 + o2 + k) < o.nnz) :
    ∃ x y, s.cell o.buf (o1 + o2 + k) = some x ∧ s.bracket u k = .ok x ∧
      s.cell o.buf (o1 + (o1 + o2 + k)) = some y ∧ s.atOf u k = .ok y := by
  rw [Sys.mkView, ho, Res.ok_bind] at hv
  cases hv
  cases hu
  obtain ⟨x, h1, h2⟩ := read_cell hs ho (k := o1 + o2 + k) (by omega)
  obtain ⟨y, h3, h4⟩ := read_cell hs ho (k := o1 + (o1 + o2 + k)) (by omega)
  rw [hf, Nat.zero_add] at h1 h3
  refine ⟨x, y, h1, ?_, h3, h4⟩
  simp only [Sys.bracket]
  rw [Nat.add_comm]
  exact rawRead_ok (owned_of_obj ho) h1

/-- **C76, violated (views of moved objects)**: if the object lies at an offset `f` of its storage, `at(k)`
reads the right element and `view[k]` the one `f` places before it. -/
theorem C76_moved_violated {s : Sys α} (hs : s.WF) {i : Nat} {o : Obj} (ho : s.obj i = .ok o)
    {start : Nat} {shape : List Nat} {t : Tgt} (ht : s.mkView (.obj i) start shape = .ok t) {k : Nat}
    (hin : start + k < o.nnz) :
    ∃ x y, s.cell o.buf (start + k) = some x ∧ s.bracket t k = .ok x ∧
      s.cell o.buf (o.first + (start + k)) = some y ∧ s.atOf t k = .ok y := by
  rw [Sys.mkView, ho, Res.ok_bind] at ht
  cases ht
  obtain ⟨w1, w2, b, hb, hl⟩ := hs i o ho
  obtain ⟨y, h3, h4⟩ := read_cell hs ho hin
  have hx : (s.cell o.buf (start + k)).isSome = true := by
    unfold Sys.cell; rw [hb]; simp; omega
  obtain ⟨x, hx⟩ := Option.isSome_iff_exists.mp hx
  refine ⟨x, y, hx, ?_, h3, h4⟩
  simp only [Sys.bracket]
  rw [Nat.add_comm]
  exact rawRead_ok (owned_of_obj ho) hx

/-- `exV.at(3)` gives element 5 of the vector although the view has three elements; in a view of `exV`,
`[0]` is element 3 but `at(0)` is element 5 -/
example : exS.atOf exV 3 = .ok 5 ∧ exS.mkView exV 1 [2] = .ok (.view exV ⟨0, 3, 5, 2, [2]⟩) ∧
    exS.bracket (.view exV ⟨0, 3, 5, 2, [2]⟩) 0 = .ok 3 ∧
    exS.atOf (.view exV ⟨0, 3, 5, 2, [2]⟩) 0 = .ok 5 ∧
    exS.bracket exV 1 = .ok 3 ∧ exS.atOf exV 1 = .ok 3 := by decide

/-! ### C77: resize -/

/-- **C77**, for a view of an object that starts its storage: `resize` succeeds exactly when the new extent
fits into the object; then the view starts where it did, has the new size, and no element changed. -/
theorem C77_resize_partial {s : Sys α} (hs : s.WF) {i : Nat} {o : Obj} (ho : s.obj i = .ok o)
    (hf : o.first = 0) {start : Nat} {shape : List Nat} {t : Tgt}
    (ht : s.mkView (.obj i) start shape = .ok t) (shape' : List Nat) :
    (start + prod shape' ≤ o.nnz → ∃ t', s.resizeView t shape' = .ok t' ∧ t'.Fresh ∧
      s.shapeOf t' = .ok shape' ∧ Window s t' o.buf start (prod shape')) ∧
    (o.nnz < start + prod shape' → ∃ m, s.resizeView t shape' = .abort m) := by
  rw [Sys.mkView, ho, Res.ok_bind] at ht
  cases ht
  constructor
  · intro h
    obtain ⟨_, h1, _, h2⟩ := mkView_window hs ho hf h
    rw [Sys.mkView, ho, Res.ok_bind] at h1
    cases h1
    refine ⟨.view (.obj i) { addr := o.buf, first := start, last := start + prod shape',
                             range := prod shape', shape := shape' }, ?_, rfl, rfl, h2⟩
    simp only [Sys.resizeView, Sys.nnzOf, ho, Res.ok_bind]
    rw [cassert_decide h, Res.ok_bind]
  · intro h
    refine ⟨"assert", ?_⟩
    simp only [Sys.resizeView, Sys.nnzOf, ho, Res.ok_bind]
    rw [cassert, decide_eq_false (by omega)]
    rfl

/-- **C77, violated (views of views)**: a view of a view that starts at `o1`, resized to the size `n` it
already has and which fits into the outer view, aborts whenever `o1 + o2 + n` exceeds the size of the outer
view. -/
theorem C77_nested_violated {s : Sys α} {i : Nat} {o : Obj} (ho : s.obj i = .ok o)
    {o1 o2 : Nat} {sh1 sh2 : List Nat} {v u : Tgt} (hv : s.mkView (.obj i) o1 sh1 = .ok v)
    (hu : s.mkView v o2 sh2 = .ok u) (_hfit : o2 + prod sh2 ≤ prod sh1)
    (h : prod sh1 < o1 + o2 + prod sh2) :
    ∃ m, s.resizeView u sh2 = .abort m := by
  rw [Sys.mkView, ho, Res.ok_bind] at hv
  cases hv
  cases hu
  refine ⟨"assert", ?_⟩
  simp only [Sys.resizeView, Sys.nnzOf, Res.ok_bind]
  rw [cassert, decide_eq_false (by omega)]
  rfl

/-- **C77 (`view1D = std::vector`)**: for a view of an object that starts its storage the view gets the size
and the elements of the array, and nothing else changes, if the array fits; otherwise the call aborts. -/
theorem C77_assign_std_partial {s : Sys α} (hs : s.WF) {i : Nat} {o : Obj} (ho : s.obj i = .ok o)
    (hf : o.first = 0) {start : Nat} {shape : List Nat} {t : Tgt}
    (ht : s.mkView (.obj i) start shape = .ok t) (l : List α) :
    (start + l.length ≤ o.nnz → ∃ t' s', s.assignStd t l = .ok (t', s') ∧
      Window s' t' o.buf start l.length ∧ SameElsewhere s s' o.buf start l.length ∧
      ∀ k, k < l.length → s'.cell o.buf (start + k) = l[k]?) ∧
    (o.nnz < start + l.length → ∃ m, s.assignStd t l = .abort m) := by
  have hp : prod [l.length] = l.length := by simp [prod]
  obtain ⟨hr1, hr2⟩ := C77_resize_partial hs ho hf ht [l.length]
  rw [hp] at hr1 hr2
  constructor
  · intro h
    obtain ⟨t', h1, h2, h3, h4⟩ := hr1 h
    have hcase : l = [] ∨ ∃ x0, x0 ∈ l := by
      cases l with
      | nil => exact Or.inl rfl
      | cons x l => exact Or.inr ⟨x, by simp⟩
    rcases hcase with rfl | ⟨x0, _⟩
    · refine ⟨t', s, ?_, h4, ⟨rfl, fun _ _ _ => rfl⟩, fun k hk => absurd hk (by simp)⟩
      unfold Sys.assignStd
      rw [h1, Res.ok_bind, h4.begin_eq]
      rfl
    · obtain ⟨s', k1, k2, k3⟩ := forList_store_all (s := s) (a := o.buf) (o := start) (n := l.length)
        (fun k => (l[k]?).getD x0) (order := List.range l.length) (Order.range _) h4.owned h4.inside
        (fun k s => do
          let v ← rd l k
          s.rawWrite o.buf (start + k) v)
        (by
          intro k hk t _
          rw [rd_ok hk, Res.ok_bind, List.getElem?_eq_getElem hk]
          rfl)
      have hob := k2.1
      refine ⟨t', s', ?_, ⟨?_, ?_, (owned_objs hob _).trans h4.owned, ?_⟩, k2, ?_⟩
      · unfold Sys.assignStd
        simp only [h1, Res.ok_bind, h4.begin_eq]
        rw [forN_eq_forList, k1, Res.ok_bind]
      · have := h4.begin_eq
        cases t' with
        | obj j => simpa [Sys.beginOf, Sys.obj, hob] using this
        | view u d => exact this
      · have := h4.size_eq
        cases t' with
        | obj j => simpa [Sys.nnzOf, Sys.obj, hob] using this
        | view u d => exact this
      · intro k hk
        rw [k3 k hk]; rfl
      · intro k hk
        rw [k3 k hk, List.getElem?_eq_getElem hk]; rfl
  · intro h
    obtain ⟨m, hm⟩ := hr2 h
    refine ⟨m, ?_⟩
    unfold Sys.assignStd
    rw [hm]; rfl

/-- `exV` resized to 4 elements; not to 7; `exV = {7, 8}`; a view of the last elements of a view cannot be
resized to its own size -/
example : exS.resizeView exV [4] = .ok (.view (.obj 0) ⟨0, 2, 6, 4, [4]⟩) ∧
    exS.assignStd exV [7, 8] = .ok (.view (.obj 0) ⟨0, 2, 4, 2, [2]⟩,
      { exS with bufs := [[0, 1, 7, 8, 4, 5, 6, 7], [10, 20, 30]] }) ∧
    exS.mkView exV 1 [2] = .ok (.view exV ⟨0, 3, 5, 2, [2]⟩) := by decide

example : (∃ m, exS.resizeView exV [7] = .abort m) ∧
    ∃ m, exS.resizeView (.view exV ⟨0, 3, 5, 2, [2]⟩) [2] = .abort m :=
  ⟨(C77_resize_partial exS_wf (i := 0) rfl rfl (start := 2) (shape := [3]) rfl [7]).2 (by decide),
   C77_nested_violated (s := exS) (i := 0) rfl (o1 := 2) (o2 := 1) (sh1 := [3]) (sh2 := [2]) rfl rfl
    (by decide) (by decide)⟩

end Verif.Shared
