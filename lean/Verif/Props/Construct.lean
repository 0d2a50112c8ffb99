import Verif.Model.Construct
import Verif.Model.Move
import Verif.Spec.ConstructSpec
import Verif.Spec.VecSpec
import Verif.Spec.DenseSpec
import Verif.Props.Tensor
import Verif.Props.Vector

/-!
# Constructors give the object asked for (C109)
-/

namespace Verif.Construct

open Verif

variable {α : Type}

/-! ## the objects before the elements are stored -/

/-- an owning vector with these elements -/
def vecOf (l : List α) : Vec α := ⟨l, l.length, l.length, 0, true⟩

theorem vecOf_is (l : List α) : (vecOf l).Is l :=
  ⟨rfl, rfl, rfl, Nat.le_refl _, fun i x h => by
    simp only [vecOf, Vec.get, Nat.zero_add]; exact rd_of_getElem? h⟩

theorem vec_resize [Zero α] (N : Nat) :
    Vec.resize (Vec.empty : Vec α) N 0 = .ok (vecOf (List.replicate N 0)) := by
  unfold Vec.resize Vec.empty vecOf
  simp only [if_true]
  rw [reallocCopy_ok (by simp)]
  simp

/-- an owning matrix with these elements -/
def denseOf (M N : Nat) (l : List α) : Dense α := ⟨M, N, l, l.length, l.length, 0, true⟩

theorem denseOf_is {M N : Nat} {l : List α} (h : l.length = M * N) : (denseOf M N l).Is M N l := by
  refine ⟨rfl, rfl, rfl, h, rfl, h, fun i j hi hj => ?_⟩
  have hlt : i * N + j < l.length := by
    rw [h]; calc i * N + j < i * N + N := by omega
      _ = (i + 1) * N := by rw [Nat.succ_mul]
      _ ≤ M * N := Nat.mul_le_mul_right _ hi
  refine ⟨l[i * N + j], by simp [hlt], ?_⟩
  unfold Dense.at_ Dense.at1 denseOf
  simp only [Nat.zero_add]
  rw [Nat.mul_comm N i, cassert_decide hi, Res.ok_bind, cassert_decide hj, Res.ok_bind, cassert_decide hlt,
    Res.ok_bind, Res.ok_bind]
  exact rd_of_getElem? (by simp [hlt])

theorem dense_resize [Zero α] (M N k : Nat) :
    Dense.resize { (Dense.empty : Dense α) with rowN := M, colN := N } k 0 =
      .ok (denseOf M N (List.replicate k 0)) := by
  unfold Dense.resize Dense.empty denseOf
  simp only [Nat.not_lt_zero, if_false, if_true]
  rw [reallocCopy_ok (by simp)]
  simp

theorem dense_resize0 [Zero α] (k : Nat) :
    Dense.resize (Dense.empty : Dense α) k 0 = .ok (denseOf 0 0 (List.replicate k 0)) := dense_resize 0 0 k

/-- an owning tensor with these elements -/
def tensOf (shape : List Nat) (l : List α) : TDense α := ⟨shape, l, l.length, l.length, 0, true⟩

theorem tensOf_is {shape : List Nat} {l : List α} (h : l.length = Spec.volume shape) :
    (tensOf shape l).Is shape l := by
  refine ⟨rfl, rfl, h, rfl, h, fun pos hp => ?_⟩
  have hlt : Spec.rowMajor shape pos < l.length := by rw [h]; exact rowMajor_lt hp
  refine ⟨l[Spec.rowMajor shape pos], by simp [hlt], ?_⟩
  have hwf : (tensOf shape l).WF := ⟨rfl, h, by simp [tensOf]⟩
  rw [TDense.at_ok hwf hp]
  exact rd_of_getElem? (by simp [tensOf, hlt])

theorem tens_resize [Zero α] (shape : List Nat) (k : Nat) :
    TDense.resize { (TDense.empty : TDense α) with shape := shape } k 0 =
      .ok (tensOf shape (List.replicate k 0)) := by
  unfold TDense.resize TDense.empty tensOf
  simp only [Nat.not_lt_zero, if_false, if_true]
  rw [reallocCopy_ok (by simp)]
  simp

theorem tens_new [Zero α] (shape : List Nat) :
    (TDense.new shape : Res (TDense α)) = .ok (tensOf shape (List.replicate (Spec.volume shape) 0)) := by
  unfold TDense.new TDense.resizeShape
  rw [tens_resize, extent_eq]
  rfl

/-! ## the loops -/

theorem fillWith_ok {order : List Nat} (value : α) (s : List α) (h : Order order s.length) :
    fillWith order value s = .ok (List.replicate s.length value) := by
  obtain ⟨r, hr, hl, hk⟩ := forList_write (fun _ => value) 0 order (body := fun i b => wr b i value) s
    (fun i _ t _ => by simp) (fun i hi => by simpa using h.mem.mp hi)
  unfold fillWith
  rw [hr]
  congr 1
  apply List.ext_getElem?
  intro k
  rw [hk k, List.getElem?_replicate]
  by_cases hlt : k < s.length
  · rw [if_pos ⟨Nat.zero_le _, h.mem.mpr (by simpa using hlt)⟩, if_pos hlt]
  · rw [if_neg (fun c => hlt (by simpa using h.mem.mp c.2)), if_neg hlt]
    simp only [List.getElem?_eq_none_iff]; omega

theorem drawInto_ok (rnd : Nat → α) {o n : Nat} (s : List α) (h : o + n ≤ s.length) :
    ∃ r, drawInto rnd o n s = .ok r ∧ r.length = s.length ∧
      ∀ k, r[k]? = if o ≤ k ∧ k < o + n then some (rnd (k - o)) else s[k]? := by
  obtain ⟨r, hr, hl, hk⟩ := forList_write rnd o (List.range n) (body := fun i b => wr b (o + i) (rnd i)) s
    (fun i _ t _ => rfl) (fun i hi => by have := List.mem_range.mp hi; omega)
  refine ⟨r, by unfold drawInto; rw [forN_eq_forList, hr], hl, fun k => ?_⟩
  rw [hk k]
  by_cases h1 : o ≤ k ∧ k < o + n
  · rw [if_pos h1, if_pos ⟨h1.1, List.mem_range.mpr (by omega)⟩]
  · rw [if_neg h1, if_neg (fun c => h1 ⟨c.1, by have := List.mem_range.mp c.2; omega⟩)]

theorem drawInto_all (rnd : Nat → α) (s : List α) :
    drawInto rnd 0 s.length s = .ok ((List.range s.length).map rnd) := by
  obtain ⟨r, hr, hl, hk⟩ := drawInto_ok rnd (o := 0) (n := s.length) s (by omega)
  rw [hr]
  congr 1
  apply List.ext_getElem?
  intro k
  rw [hk k]
  by_cases hlt : k < s.length
  · rw [if_pos ⟨Nat.zero_le _, by omega⟩]; simp [hlt]
  · rw [if_neg (by omega)]
    simp only [List.getElem?_map]
    rw [List.getElem?_eq_none (by omega), List.getElem?_eq_none (by simpa using hlt)]
    rfl

theorem vcopy_all {n : Nat} {src dst : List α} (h1 : n ≤ src.length) (h2 : dst.length = n) :
    vcopy n src dst = .ok (src.take n) := by
  rw [vcopy_ok h1 (by omega), List.drop_eq_nil_of_le (by omega), List.append_nil]

/-! ## C109: vectors -/

/-- **C109 (vector from a value).** `vector(N, value)` has `N` elements equal to `value`, in whichever order the threads
run the iterations. -/
theorem C109_vec_fill [Zero α] {order : List Nat} {N : Nat} (value : α) (h : Order order N) :
    ∃ v, Vec.mkFill order N value = .ok v ∧ v.Is (List.replicate N value) := by
  refine ⟨vecOf (List.replicate N value), ?_, vecOf_is _⟩
  unfold Vec.mkFill
  rw [vec_resize, Res.ok_bind]
  dsimp only [vecOf]
  rw [fillWith_ok value _ (by simpa using h)]
  simp

example : ∃ v, Vec.mkFill [2, 0, 1] 3 (5 : Int) = .ok v ∧ v.Is [5, 5, 5] :=
  C109_vec_fill 5 (by unfold Order; decide)

/-- **C109 (random vector).** `vector(N, min, max)` has `N` elements, the values drawn; if every value drawn lies in a
range, so does every element. -/
theorem C109_vec_random [Zero α] (N : Nat) (rnd : Nat → α) (P : α → Prop) (hP : ∀ i, P (rnd i)) :
    ∃ v, Vec.mkRandom N rnd = .ok v ∧ v.Is ((List.range N).map rnd) ∧
      ∀ i < N, ∃ x, v.get i = .ok x ∧ P x := by
  refine ⟨vecOf ((List.range N).map rnd), ?_, vecOf_is _, fun i hi => ⟨rnd i, ?_, hP i⟩⟩
  · unfold Vec.mkRandom
    rw [vec_resize, Res.ok_bind]
    dsimp only [vecOf]
    have := drawInto_all rnd (List.replicate N (0 : α))
    rw [List.length_replicate] at this
    rw [this]
    simp
  · exact (vecOf_is _).2.2.2.2 i _ (by simp [hi])

example : ∃ v, Vec.mkRandom 3 (fun i => (i : Int) + 1) = .ok v ∧ v.Is [1, 2, 3] ∧
    ∀ i < 3, ∃ x, v.get i = .ok x ∧ 1 ≤ x := by
  obtain ⟨v, h, h2, h3⟩ := C109_vec_random 3 (fun i => (i : Int) + 1) (fun x => 1 ≤ x) (fun i => by omega)
  exact ⟨v, h, h2, h3⟩

/-- **C109 (`util::random_vector`).** On any vector, also one that starts inside a shared buffer, exactly its own elements
are replaced by the values drawn. -/
theorem C109_random_vector (v : Vec α) (rnd : Nat → α) (h : v.first + v.nnz ≤ v.val.length) :
    ∃ w, Vec.randomize v rnd = .ok w ∧ w.nnz = v.nnz ∧ w.first = v.first ∧ w.val.length = v.val.length ∧
      (∀ i < v.nnz, w.get i = .ok (rnd i)) ∧
      ∀ k, (k < v.first ∨ v.first + v.nnz ≤ k) → w.val[k]? = v.val[k]? := by
  obtain ⟨r, hr, hl, hk⟩ := drawInto_ok rnd v.val h
  refine ⟨{ v with val := r }, by unfold Vec.randomize; rw [hr]; rfl, rfl, rfl, hl, fun i hi => ?_, fun k hk' => ?_⟩
  · apply rd_of_getElem?
    dsimp only
    rw [hk, if_pos ⟨by omega, by omega⟩]
    congr 2; omega
  · dsimp only
    rw [hk, if_neg (by omega)]

example : ∃ w, Vec.randomize ⟨[1, 2, 3, 4], 2, 4, 1, false⟩ (fun i => 10 * (i : Int)) = .ok w ∧
    w.val = [1, 0, 10, 4] := ⟨_, rfl, rfl⟩

/-- **C109 (vector from a list).** A range, a `std::vector` or an initializer list gives the vector of its elements. -/
theorem C109_vec_list [Zero α] (l : List α) : ∃ v, Vec.mkList l = .ok v ∧ v.Is l := by
  refine ⟨vecOf l, ?_, vecOf_is _⟩
  unfold Vec.mkList stdCopy
  rw [vec_resize, Res.ok_bind, vcopy_all (Nat.le_refl _) (by simp [vecOf])]
  simp [vecOf]

/-- **C109 (vector from a view).** A vector made of a `view1D` is a copy of the elements of the view. -/
theorem C109_vec_view [Zero α] (w : Src α) (n : Nat) (h : w.first + n ≤ w.data.length) :
    ∃ v, Vec.mkView w n = .ok v ∧ v.Is ((w.data.drop w.first).take n) := by
  refine ⟨vecOf ((w.data.drop w.first).take n), ?_, vecOf_is _⟩
  unfold Vec.mkView
  rw [vec_resize, Res.ok_bind, vcopy_all (by simp; omega) (by simp [vecOf])]
  simp only [vecOf]
  simp; omega

example : ∃ v, Vec.mkView ⟨[1, 2, 3, 4], 1, []⟩ 2 = .ok v ∧ v.Is [(2 : Int), 3] :=
  C109_vec_view ⟨[1, 2, 3, 4], 1, []⟩ 2 (by decide)

/-- **C109 (copy of a vector), partial.** The copy constructor gives the first `size()` elements of the source's *buffer*:
these are its elements if it starts at the beginning of the buffer. Missing: sources that do not
(`C109_copy_violated`). -/
theorem C109_copy_partial [Zero α] (w : Vec α) (h : w.nnz ≤ w.val.length) :
    (∃ v, Vec.mkCopy w = .ok v ∧ v.Is (w.val.take w.nnz)) ∧
      (w.first = 0 → w.val.take w.nnz = w.contents) := by
  refine ⟨⟨vecOf (w.val.take w.nnz), ?_, vecOf_is _⟩, fun h0 => by simp [Vec.contents, h0]⟩
  unfold Vec.mkCopy
  rw [vec_resize, Res.ok_bind, vcopy_all h (by simp [vecOf])]
  simp only [vecOf]
  simp; omega

/-- the program `tensor_Dense t({4}); vector v; v.move(view_tensor_Dense(t, 1, 2))` on a tensor with elements 1, 2, 3, 4 -/
def moved : Res (Shared.Sys Int) :=
  Shared.Sys.moveFlat ⟨[[1, 2, 3, 4], []], [some ⟨.tens [4], 0, 0, 4, 4, true⟩, some ⟨.vec, 1, 0, 0, 0, true⟩]⟩ 1
    (.view (.obj 0) ⟨0, 1, 3, 2, [2]⟩) (-1)

/-- the vector object with this number, as the constructors see it -/
def vecObj (s : Shared.Sys Int) (i : Nat) : Res (Vec Int) := do
  let o ← s.obj i
  let b ← rd s.bufs o.buf
  .ok ⟨b, o.nnz, o.alloc, o.first, o.created⟩

/-- **C109 violated (copy of a vector).** After `v.move(view_tensor_Dense(t, 1, 2))` the vector `v` has the elements 2, 3; its
copy has the elements 1, 2. -/
theorem C109_copy_violated : ∃ s w v, moved = .ok s ∧ vecObj s 1 = .ok w ∧ Vec.mkCopy w = .ok v ∧
    w.contents = [2, 3] ∧ v.contents = [1, 2] :=
  ⟨_, _, _, rfl, rfl, rfl, rfl, rfl⟩

/-! ## C109: matrices -/

theorem dense_start [Zero α] (M N : Nat) :
    (Dense.start M N : Res (Dense α)) = .ok (denseOf M N (List.replicate (M * N) 0)) := dense_resize M N _

/-- **C109 (matrix from a pointer).** `Dense(M, N, p)` holds the `M * N` elements at `p`, row by row. -/
theorem C109_dense_ptr [Zero α] (M N : Nat) (p : List α) (h : M * N ≤ p.length) :
    ∃ A, Dense.mkPtr M N p = .ok A ∧ A.Is M N (p.take (M * N)) := by
  have hl : (p.take (M * N)).length = M * N := by simp; omega
  refine ⟨denseOf M N (p.take (M * N)), ?_, denseOf_is hl⟩
  unfold Dense.mkPtr
  rw [dense_start, Res.ok_bind]
  have e : (denseOf M N (List.replicate (M * N) (0 : α))).nnz = M * N := by simp [denseOf]
  rw [e, vcopy_all h (by simp [denseOf])]
  simp only [denseOf, hl]; simp

example : ∃ A, Dense.mkPtr 2 3 [1, 2, 3, 4, 5, 6] = .ok A ∧ A.Is 2 3 [(1 : Int), 2, 3, 4, 5, 6] :=
  C109_dense_ptr 2 3 _ (by decide)

/-- **C109 (matrix from a list), partial.** `Dense(M, N, l)` with a `std::vector` or an initializer list of at most `M * N`
elements holds them, row by row, and zeros after them. Missing: a longer list is not rejected
(`C109_dense_list_violated`). -/
theorem C109_dense_list_partial [Zero α] (M N : Nat) (l : List α) (h : l.length ≤ M * N) :
    ∃ A, Dense.mkList M N l = .ok A ∧ A.Is M N (l ++ List.replicate (M * N - l.length) 0) := by
  have hl : (l ++ List.replicate (M * N - l.length) (0 : α)).length = M * N := by simp; omega
  refine ⟨denseOf M N _, ?_, denseOf_is hl⟩
  unfold Dense.mkList stdCopy
  rw [dense_start, Res.ok_bind, vcopy_ok (Nat.le_refl _) (by simp [denseOf]; omega), Res.ok_bind]
  simp only [denseOf, List.take_length, List.drop_replicate, List.length_replicate, hl]

example : ∃ A, Dense.mkList 2 3 [1, 2, 3, 4] = .ok A ∧ A.Is 2 3 [(1 : Int), 2, 3, 4, 0, 0] :=
  C109_dense_list_partial 2 3 [1, 2, 3, 4] (by decide)

/-- **C109 violated (matrix from a list).** Every list of more than `M * N` elements is written past the end of the
matrix. -/
theorem C109_dense_list_violated [Zero α] (M N : Nat) (l : List α) (h : M * N < l.length) :
    Dense.mkList M N l = .ub "copy writes out of bounds" := by
  unfold Dense.mkList stdCopy
  rw [dense_start, Res.ok_bind]
  unfold vcopy
  rw [if_pos (Nat.le_refl _), if_neg (by simp [denseOf]; omega)]
  rfl

/-- **C109 (matrix from a vector), partial.** `Dense(M, N, v)` holds the first `M * N` elements of `v`, row by row, wherever
`v` starts. Missing: a shorter vector is not rejected (`C109_dense_vec_violated`). -/
theorem C109_dense_vec_partial [Zero α] (M N : Nat) (v : Vec α) (h : M * N ≤ v.nnz)
    (hw : v.first + v.nnz ≤ v.val.length) :
    ∃ A, Dense.mkVec M N v = .ok A ∧ A.Is M N (v.contents.take (M * N)) := by
  have hl : (v.contents.take (M * N)).length = M * N := by simp [Vec.contents]; omega
  refine ⟨denseOf M N (v.contents.take (M * N)), ?_, denseOf_is hl⟩
  unfold Dense.mkVec
  rw [dense_start, Res.ok_bind]
  have e : (denseOf M N (List.replicate (M * N) (0 : α))).nnz = M * N := by simp [denseOf]
  have e2 : (v.val.drop v.first).take (M * N) = v.contents.take (M * N) := by
    simp [Vec.contents, List.take_take, Nat.min_eq_left h]
  rw [e, vcopy_all (by simp; omega) (by simp [denseOf]), e2]
  simp only [denseOf, hl]; simp

example : ∃ A, Dense.mkVec 1 2 ⟨[7, 8, 9, 10], 3, 4, 1, false⟩ = .ok A ∧ A.Is 1 2 [(8 : Int), 9] :=
  C109_dense_vec_partial 1 2 ⟨[7, 8, 9, 10], 3, 4, 1, false⟩ (by decide) (by decide)

/-- **C109 violated (matrix from a vector).** From a vector whose buffer ends before `M * N` elements the constructor reads
past its end. -/
theorem C109_dense_vec_violated [Zero α] (M N : Nat) (v : Vec α) (h : v.val.length < v.first + M * N)
    (h2 : v.first ≤ v.val.length) :
    Dense.mkVec M N v = .ub "copy reads out of bounds" := by
  unfold Dense.mkVec
  rw [dense_start, Res.ok_bind]
  unfold vcopy
  rw [if_neg (by simp [denseOf]; omega)]
  rfl

/-- **C109 (random matrix).** -/
theorem C109_dense_random [Zero α] (M N : Nat) (rnd : Nat → α) (P : α → Prop) (hP : ∀ i, P (rnd i)) :
    ∃ A, Dense.mkRandom M N rnd = .ok A ∧ A.Is M N ((List.range (M * N)).map rnd) ∧
      ∀ i j, i < M → j < N → ∃ x, A.at_ i j = .ok x ∧ P x := by
  have hl : ((List.range (M * N)).map rnd).length = M * N := by simp
  refine ⟨denseOf M N ((List.range (M * N)).map rnd), ?_, denseOf_is hl, fun i j hi hj => ?_⟩
  · unfold Dense.mkRandom
    rw [dense_start, Res.ok_bind]
    have := drawInto_all rnd (List.replicate (M * N) (0 : α))
    simp only [denseOf, List.length_replicate] at this ⊢
    rw [this]
    simp
  · obtain ⟨x, hx, h2⟩ := (denseOf_is hl).2.2.2.2.2.2 i j hi hj
    refine ⟨x, h2, ?_⟩
    rw [List.getElem?_map] at hx
    obtain ⟨k, _, rfl⟩ := Option.map_eq_some_iff.mp hx
    exact hP k

/-- **C109 (matrix from a value).** `Dense(M, N, value)`, for every order of the iterations. -/
theorem C109_dense_fill [Zero α] {order : List Nat} {M N : Nat} (value : α) (h : Order order (M * N)) :
    ∃ A, Dense.mkFill order M N value = .ok A ∧ A.Is M N (List.replicate (M * N) value) := by
  refine ⟨denseOf M N _, ?_, denseOf_is (by simp)⟩
  unfold Dense.mkFill
  rw [dense_start, Res.ok_bind]
  have := fillWith_ok value (List.replicate (M * N) (0 : α)) (by simpa using h)
  simp only [denseOf, List.length_replicate] at this ⊢
  rw [this]
  simp

example : ∃ A, Dense.mkFill [3, 2, 0, 1] 2 2 (5 : Int) = .ok A ∧ A.Is 2 2 [5, 5, 5, 5] :=
  C109_dense_fill 5 (by unfold Order; decide)

/-- **C109 (matrix of the same size).** `Dense(A, value)` has the size of `A`. -/
theorem C109_dense_like [Zero α] {order : List Nat} (mat : Dense α) (value : α) (hm : mat.WF)
    (h : Order order mat.nnz) :
    ∃ A, Dense.mkLike order mat value = .ok A ∧
      A.Is mat.rowN mat.colN (List.replicate (mat.rowN * mat.colN) value) := by
  refine ⟨denseOf mat.rowN mat.colN _, ?_, denseOf_is (by simp)⟩
  unfold Dense.mkLike
  rw [dense_resize0, Res.ok_bind]
  have := fillWith_ok value (List.replicate mat.nnz (0 : α)) (by simpa using h)
  simp only [denseOf, List.length_replicate] at this ⊢
  rw [this, hm.nnz_eq]
  simp

example : ∃ A, Dense.mkLike [1, 0] (⟨2, 1, [0, 7, 8], 2, 3, 1, false⟩ : Dense Int) 4 = .ok A ∧ A.Is 2 1 [4, 4] :=
  C109_dense_like (⟨2, 1, [0, 7, 8], 2, 3, 1, false⟩ : Dense Int) 4 ⟨rfl, rfl, by decide⟩ (by unfold Order; decide)

/-- **C109 (matrix from a view).** -/
theorem C109_dense_view [Zero α] (w : Src α) (row col : Nat) (h : w.first + row * col ≤ w.data.length) :
    ∃ A, Dense.mkView w row col (row * col) = .ok A ∧
      A.Is row col ((w.data.drop w.first).take (row * col)) := by
  have hl : ((w.data.drop w.first).take (row * col)).length = row * col := by simp; omega
  refine ⟨denseOf row col ((w.data.drop w.first).take (row * col)), ?_, denseOf_is hl⟩
  unfold Dense.mkView
  rw [dense_resize0, Res.ok_bind]
  have e : (denseOf 0 0 (List.replicate (row * col) (0 : α))).nnz = row * col := by simp [denseOf]
  rw [e, vcopy_all (by simp; omega) (by simp [denseOf])]
  simp only [denseOf, hl]; simp

example : ∃ A, Dense.mkView ⟨[1, 2, 3, 4], 1, []⟩ 1 2 2 = .ok A ∧ A.Is 1 2 [(2 : Int), 3] :=
  C109_dense_view ⟨[1, 2, 3, 4], 1, []⟩ 1 2 (by decide)

/-! ## C109: tensors -/

/-- **C109 (tensor from a pointer).** -/
theorem C109_tens_ptr [Zero α] (shape : List Nat) (p : List α) (h : Spec.volume shape ≤ p.length) :
    ∃ T, TDense.mkPtr shape p = .ok T ∧ T.Is shape (p.take (Spec.volume shape)) := by
  have hl : (p.take (Spec.volume shape)).length = Spec.volume shape := by simp; omega
  refine ⟨tensOf shape (p.take (Spec.volume shape)), ?_, tensOf_is hl⟩
  unfold TDense.mkPtr
  rw [tens_new, Res.ok_bind]
  have e : (tensOf shape (List.replicate (Spec.volume shape) (0 : α))).nnz = Spec.volume shape := by simp [tensOf]
  rw [e, vcopy_all h (by simp [tensOf])]
  simp only [tensOf, hl]; simp

/-- **C109 (tensor from a list), partial.** As `C109_dense_list_partial`; missing: longer lists
(`C109_tens_list_violated`). -/
theorem C109_tens_list_partial [Zero α] (shape : List Nat) (l : List α) (h : l.length ≤ Spec.volume shape) :
    ∃ T, TDense.mkList shape l = .ok T ∧
      T.Is shape (l ++ List.replicate (Spec.volume shape - l.length) 0) := by
  have hl : (l ++ List.replicate (Spec.volume shape - l.length) (0 : α)).length = Spec.volume shape := by simp; omega
  refine ⟨tensOf shape _, ?_, tensOf_is hl⟩
  unfold TDense.mkList stdCopy
  rw [tens_new, Res.ok_bind, vcopy_ok (Nat.le_refl _) (by simp [tensOf]; omega), Res.ok_bind]
  simp only [tensOf, List.take_length, List.drop_replicate, List.length_replicate, hl]

example : ∃ T, TDense.mkList [2, 1, 2] [1, 2, 3] = .ok T ∧ T.Is [2, 1, 2] [(1 : Int), 2, 3, 0] :=
  C109_tens_list_partial [2, 1, 2] [1, 2, 3] (by decide)

/-- **C109 violated (tensor from a list).** -/
theorem C109_tens_list_violated [Zero α] (shape : List Nat) (l : List α) (h : Spec.volume shape < l.length) :
    TDense.mkList shape l = .ub "copy writes out of bounds" := by
  unfold TDense.mkList stdCopy
  rw [tens_new, Res.ok_bind]
  unfold vcopy
  rw [if_pos (Nat.le_refl _), if_neg (by simp [tensOf]; omega)]
  rfl

/-- **C109 (random tensor).** -/
theorem C109_tens_random [Zero α] (shape : List Nat) (rnd : Nat → α) (P : α → Prop) (hP : ∀ i, P (rnd i)) :
    ∃ T, TDense.mkRandom shape rnd = .ok T ∧ T.Is shape ((List.range (Spec.volume shape)).map rnd) ∧
      ∀ pos, Spec.InShape shape pos → ∃ x, T.at_ pos = .ok x ∧ P x := by
  have hl : ((List.range (Spec.volume shape)).map rnd).length = Spec.volume shape := by simp
  refine ⟨tensOf shape ((List.range (Spec.volume shape)).map rnd), ?_, tensOf_is hl, fun pos hp => ?_⟩
  · unfold TDense.mkRandom
    rw [tens_new, Res.ok_bind]
    have := drawInto_all rnd (List.replicate (Spec.volume shape) (0 : α))
    simp only [tensOf, List.length_replicate] at this ⊢
    rw [this]
    simp
  · obtain ⟨x, hx, h2⟩ := (tensOf_is hl).2.2.2.2.2 pos hp
    refine ⟨x, h2, ?_⟩
    rw [List.getElem?_map] at hx
    obtain ⟨k, _, rfl⟩ := Option.map_eq_some_iff.mp hx
    exact hP k

/-- the elements of a tensor, in row-major order -/
def tensElems (t : TDense α) : List α := (t.val.drop t.first).take t.nnz

/-- **C109 (copy of a tensor).** The copy constructor copies the elements of the source, wherever it starts. -/
theorem C109_tens_copy [Zero α] (t : TDense α) (h : t.WF) :
    ∃ T, TDense.mkCopy t = .ok T ∧ T.Is t.shape (tensElems t) := by
  have h1 := h.lenV
  have h2 := h.window
  have hl : (tensElems t).length = Spec.volume t.shape := by simp [tensElems, ← h.nnz_eq]; omega
  refine ⟨tensOf t.shape (tensElems t), ?_, tensOf_is hl⟩
  unfold TDense.mkCopy
  have e0 : TDense.resize (TDense.empty : TDense α) t.nnz 0 = _ := tens_resize [] t.nnz
  rw [e0, Res.ok_bind]
  have e : (tensOf [] (List.replicate t.nnz (0 : α))).nnz = t.nnz := by simp [tensOf]
  rw [e, vcopy_all (by simp; omega) (by simp [tensOf])]
  simp only [tensOf, hl, ← h.nnz_eq]; simp [tensElems]

example : ∃ T, TDense.mkCopy (⟨[2], [7, 8, 9], 2, 3, 1, false⟩ : TDense Int) = .ok T ∧ T.Is [2] [8, 9] :=
  C109_tens_copy _ ⟨rfl, rfl, by decide⟩

/-- **C109 (tensor of the same shape).** -/
theorem C109_tens_like [Zero α] {order : List Nat} (t : TDense α) (value : α) (ht : t.WF) (h : Order order t.nnz) :
    ∃ T, TDense.mkLike order t value = .ok T ∧ T.Is t.shape (List.replicate (Spec.volume t.shape) value) := by
  refine ⟨tensOf t.shape _, ?_, tensOf_is (by simp)⟩
  unfold TDense.mkLike
  have e0 : TDense.resize (TDense.empty : TDense α) t.nnz 0 = _ := tens_resize [] t.nnz
  rw [e0, Res.ok_bind]
  have := fillWith_ok value (List.replicate t.nnz (0 : α)) (by simpa using h)
  simp only [tensOf, List.length_replicate] at this ⊢
  rw [this, ht.nnz_eq]
  simp

/-- **C109 (tensor from a view).** -/
theorem C109_tens_view [Zero α] (w : Src α) (h : w.first + Spec.volume w.shape ≤ w.data.length) :
    ∃ T, TDense.mkView w (Spec.volume w.shape) = .ok T ∧
      T.Is w.shape ((w.data.drop w.first).take (Spec.volume w.shape)) := by
  have hl : ((w.data.drop w.first).take (Spec.volume w.shape)).length = Spec.volume w.shape := by simp; omega
  refine ⟨tensOf w.shape _, ?_, tensOf_is hl⟩
  unfold TDense.mkView
  have e0 : TDense.resize (TDense.empty : TDense α) (Spec.volume w.shape) 0 = _ := tens_resize [] _
  rw [e0, Res.ok_bind]
  have e : (tensOf [] (List.replicate (Spec.volume w.shape) (0 : α))).nnz = Spec.volume w.shape := by simp [tensOf]
  rw [e, vcopy_all (by simp; omega) (by simp [tensOf])]
  simp only [tensOf, hl]; simp

/-! ## C109: conversions into tensors -/

/-- a tensor that owns its storage from its beginning -/
structure Fresh (T : TDense α) : Prop where
  lenV : T.val.length = T.alloc
  nnz_le : T.nnz ≤ T.alloc
  first0 : T.first = 0

/-- resizing such a tensor, whatever its elements -/
theorem fresh_resize [Zero α] {T : TDense α} (hT : Fresh T) (shape : List Nat) (k : Nat) :
    ∃ T', TDense.resize { T with shape := shape, created := true } k 0 = .ok T' ∧ T'.nnz = k ∧ T'.first = 0 ∧
      T'.shape = shape ∧ T'.created = true ∧ T'.val.length = T'.alloc ∧ k ≤ T'.alloc := by
  have hl := hT.lenV
  have hn := hT.nnz_le
  have h0 := hT.first0
  unfold TDense.resize
  dsimp only
  rw [h0]
  simp only [Nat.zero_add]
  split
  · rename_i hlt
    obtain ⟨r, hr, hlen⟩ : ∃ r, forRange T.nnz k (fun i b => wr b i (0 : α)) T.val = .ok r ∧
        r.length = T.val.length := by
      by_cases hle : T.nnz ≤ k
      · exact forRange_sat (fun _ (b : List α) => b.length = T.val.length) hle rfl
          (fun i b _ hi hb => by rw [wr_ok (by omega), Res.sat_ok]; simpa using hb)
      · exact ⟨T.val, forRange_empty _ _ (by omega), rfl⟩
    rw [hr]
    exact ⟨_, rfl, rfl, rfl, rfl, rfl, by dsimp only; omega, by dsimp only; omega⟩
  · rw [if_pos trivial, reallocCopy_ok (by omega)]
    exact ⟨_, rfl, rfl, rfl, rfl, rfl, by simp; omega, Nat.le_refl _⟩

/-- a tensor whose elements are the beginning of its buffer -/
theorem is_of_front {T : TDense α} {shape : List Nat} {l : List α} (hl : l.length = Spec.volume shape)
    (hc : T.created = true) (hs : T.shape = shape) (hn : T.nnz = Spec.volume shape) (hf : T.first = 0)
    (ha : T.val.length = T.alloc) (hv : T.val.take T.nnz = l) : T.Is shape l := by
  have hle : T.nnz ≤ T.alloc := by
    have : (T.val.take T.nnz).length = T.nnz := by rw [hv, hl, hn]
    rw [List.length_take] at this; omega
  refine ⟨hc, hs, hn, ha, hl, fun pos hp => ?_⟩
  have hlt : Spec.rowMajor shape pos < l.length := by rw [hl]; exact rowMajor_lt hp
  have hwf : T.WF := ⟨ha, by rw [hn, hs], by omega⟩
  refine ⟨l[Spec.rowMajor shape pos], by simp [hlt], ?_⟩
  rw [TDense.at_ok hwf (hs ▸ hp), hf, hs]
  apply rd_of_getElem?
  rw [Nat.zero_add, ← List.getElem?_take_of_lt (j := T.nnz) (by omega), hv]
  simp [hlt]

/-- **C109 (`convert` of a tensor), partial.** `t.convert(src)` on a tensor that owns its storage, whatever it held, gives the
shape of `src` and the first elements of the *buffer* of `src`: its elements if it starts at the beginning. Missing: other
sources (`C109_convert_violated`). -/
theorem C109_convert_partial [Zero α] {T : TDense α} (hT : Fresh T) (t : TDense α) (h : t.WF) :
    (∃ T', TDense.convertT T t = .ok T' ∧ T'.Is t.shape (t.val.take t.nnz)) ∧
      (t.first = 0 → t.val.take t.nnz = tensElems t) := by
  have h1 := h.lenV
  have h2 := h.window
  refine ⟨?_, fun h0 => by simp [tensElems, h0]⟩
  obtain ⟨T', hr, hn, hf, hs, hc, hl, ha⟩ := fresh_resize hT t.shape t.nnz
  unfold TDense.convertT
  rw [hr, Res.ok_bind, hn, vcopy_ok (by omega) (by omega), Res.ok_bind]
  refine ⟨_, rfl, is_of_front (by rw [List.length_take, ← h.nnz_eq]; omega) hc hs h.nnz_eq hf
    (by simp; omega) ?_⟩
  dsimp only
  rw [List.take_append_of_le_length (by simp; omega), List.take_take, Nat.min_self]

/-- **C109 (`convert` of a matrix), partial.** The same for `convert(Dense)` and the constructor from a matrix: element
`(i, j)` of the tensor is element `(i, j)` of a matrix that starts at the beginning of its buffer. -/
theorem C109_convert_dense_partial [Zero α] {T : TDense α} (hT : Fresh T) (A : Dense α) (h : A.WF) (h0 : A.first = 0) :
    ∃ T', TDense.convertM T A = .ok T' ∧ T'.Is [A.rowN, A.colN] (A.val.take A.nnz) ∧
      ∀ i j, i < A.rowN → j < A.colN → ∃ x, T'.at_ [i, j] = .ok x ∧ A.at_ i j = .ok x := by
  have h1 := h.lenV
  have h2 := h.window
  have hvol : Spec.volume [A.rowN, A.colN] = A.nnz := by simp [Spec.volume, h.nnz_eq]
  obtain ⟨T', hr, hn, hf, hs, hc, hl, ha⟩ := fresh_resize hT [A.rowN, A.colN] A.nnz
  have hIs : ({ T' with val := A.val.take A.nnz ++ T'.val.drop A.nnz } : TDense α).Is [A.rowN, A.colN]
      (A.val.take A.nnz) := by
    refine is_of_front (by rw [hvol]; simp; omega) hc hs (by rw [hvol]; exact hn) hf (by simp; omega) ?_
    dsimp only
    rw [hn, List.take_append_of_le_length (by simp; omega), List.take_take, Nat.min_self]
  refine ⟨_, ?_, hIs, fun i j hi hj => ?_⟩
  · unfold TDense.convertM
    rw [hr, Res.ok_bind, hn, vcopy_ok (by omega) (by omega), Res.ok_bind]
  · obtain ⟨x, hx, h2⟩ := hIs.2.2.2.2.2 [i, j] (.cons hi (.cons hj .nil))
    refine ⟨x, h2, ?_⟩
    have e : Spec.rowMajor [A.rowN, A.colN] [i, j] = A.colN * i + j := by
      simp [Spec.rowMajor, Spec.volume, Nat.mul_comm]
    rw [e] at hx
    have hlt : A.colN * i + j < (A.val.take A.nnz).length := (List.getElem?_eq_some_iff.mp hx).1
    rw [List.length_take] at hlt
    rw [List.getElem?_take_of_lt (by omega)] at hx
    unfold Dense.at_ Dense.at1
    rw [h0, cassert_decide hi, Res.ok_bind, cassert_decide hj, Res.ok_bind, cassert_decide (by omega),
      Res.ok_bind, cassert_decide (by omega), Res.ok_bind]
    exact rd_of_getElem? (by rw [Nat.zero_add]; exact hx)

/-- **C109 (`convert` of a vector), partial.** -/
theorem C109_convert_vec_partial [Zero α] {T : TDense α} (hT : Fresh T) (v : Vec α) (h : v.nnz ≤ v.val.length) :
    (∃ T', TDense.convertV T v = .ok T' ∧ T'.Is [v.nnz] (v.val.take v.nnz)) ∧
      (v.first = 0 → v.val.take v.nnz = v.contents) := by
  refine ⟨?_, fun h0 => by simp [Vec.contents, h0]⟩
  have hvol : Spec.volume [v.nnz] = v.nnz := by simp [Spec.volume]
  obtain ⟨T', hr, hn, hf, hs, hc, hl, ha⟩ := fresh_resize hT [v.nnz] v.nnz
  unfold TDense.convertV
  rw [hr, Res.ok_bind, hn, vcopy_ok (by omega) (by omega), Res.ok_bind]
  refine ⟨_, rfl, is_of_front (by rw [hvol]; simp; omega) hc hs (by rw [hvol]) hf (by simp; omega) ?_⟩
  dsimp only
  rw [List.take_append_of_le_length (by simp; omega), List.take_take, Nat.min_self]

example : ∃ T', TDense.convertT (⟨[3], [5, 5, 5], 3, 3, 0, true⟩ : TDense Int) ⟨[1, 2], [8, 9], 2, 2, 0, true⟩ = .ok T' ∧
    T'.Is [1, 2] [8, 9] :=
  (C109_convert_partial ⟨rfl, by decide, rfl⟩ _ ⟨rfl, rfl, by decide⟩).1

/-- **C109 violated (`convert`).** A tensor made of the vector `v` of `C109_copy_violated`, whose elements are 2, 3, has the
elements 1, 2; the same happens for a tensor and a matrix that start inside a buffer. -/
theorem C109_convert_violated :
    (∃ s w T, moved = .ok s ∧ vecObj s 1 = .ok w ∧ TDense.convertV TDense.empty w = .ok T ∧ w.contents = [2, 3] ∧
      tensElems T = [1, 2]) ∧
    (∃ T, TDense.convertT TDense.empty (⟨[2], [1, 2, 3, 4], 2, 4, 1, false⟩ : TDense Int) = .ok T ∧
      tensElems (⟨[2], [1, 2, 3, 4], 2, 4, 1, false⟩ : TDense Int) = [2, 3] ∧ tensElems T = [1, 2]) ∧
    ∃ T, TDense.convertM TDense.empty (⟨1, 2, [1, 2, 3, 4], 2, 4, 1, false⟩ : Dense Int) = .ok T ∧
      (⟨1, 2, [1, 2, 3, 4], 2, 4, 1, false⟩ : Dense Int).at_ 0 0 = .ok 2 ∧ T.at_ [0, 0] = .ok 1 :=
  ⟨⟨_, _, _, rfl, rfl, rfl, rfl, rfl⟩, ⟨_, rfl, rfl, rfl⟩, ⟨_, rfl, rfl, rfl⟩⟩

end Verif.Construct
