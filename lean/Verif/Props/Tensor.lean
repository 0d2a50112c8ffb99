import Verif.Lemmas.Tensor
import Verif.Lemmas.Prod

/-!
C36: tensor index mapping and element access.  C38: reshape.  C21: diagonal operations.
-/

namespace Verif

open Spec

variable {α : Type}

/-! ### C36 -/

/-- **C36 (bijection).** For every shape of every rank: `get_index(pos)` maps the in-range positions to
numbers below the number of elements (the row-major place), one to one and onto, and
`get_index(k)` is its inverse. -/
theorem C36_bijection (shape : List Nat) :
    (∀ pos, InShape shape pos → ∃ k, getIndex shape pos = .ok k ∧ k < volume shape ∧
      k = rowMajor shape pos ∧ unindex shape k = .ok pos) ∧
    (∀ k, k < volume shape → ∃ pos, unindex shape k = .ok pos ∧ InShape shape pos ∧
      getIndex shape pos = .ok k) ∧
    (∀ p q k, InShape shape p → InShape shape q → getIndex shape p = .ok k →
      getIndex shape q = .ok k → p = q) := by
  refine ⟨fun pos h => ⟨_, getIndex_ok h.length, rowMajor_lt h, rfl, unindex_rowMajor h⟩,
    fun k hk => ?_, fun p q k hp hq h1 h2 => ?_⟩
  · obtain ⟨pos, h1, h2, h3⟩ := unindex_ok hk
    exact ⟨pos, h1, h2, by rw [getIndex_ok h2.length, h3]⟩
  · rw [getIndex_ok hp.length] at h1
    rw [getIndex_ok hq.length] at h2
    injection h1 with h1
    injection h2 with h2
    exact rowMajor_inj hp hq (h1.trans h2.symm)

/-- **C36 (element access).** For every tensor object with any data offset: after `insert(pos, v)`,
`at(pos)` is `v`, `at` of every other in-range position is what it was, and nothing else in the
storage changed. -/
theorem C36_insert_at {T : TDense α} (h : T.WF) {pos : List Nat} (hp : InShape T.shape pos) (v : α) :
    ∃ T', T.insert pos v = .ok T' ∧ T'.WF ∧ T'.shape = T.shape ∧ T'.first = T.first ∧
      T'.at_ pos = .ok v ∧
      (∀ q, InShape T.shape q → q ≠ pos → T'.at_ q = T.at_ q) ∧
      ∀ k, k < T.first ∨ T.first + T.nnz ≤ k → T'.val[k]? = T.val[k]? := by
  have hlt := h.lt hp
  have hw := h.window
  refine ⟨{ T with val := T.val.set (T.first + rowMajor T.shape pos) v }, ?_, ?_, rfl, rfl, ?_, ?_, ?_⟩
  · unfold TDense.insert TDense.insert1
    rw [getIndex_ok hp.length, Res.ok_bind, cassert_decide hlt.1, Res.ok_bind,
      cassert_decide (by rw [← h.lenV]; exact hlt.2), Res.ok_bind, wr_ok hlt.2]
    rfl
  · exact ⟨by simp only [List.length_set]; exact h.lenV, h.nnz_eq, h.window⟩
  · have hwf : ({ T with val := T.val.set (T.first + rowMajor T.shape pos) v } : TDense α).WF :=
      ⟨by simp only [List.length_set]; exact h.lenV, h.nnz_eq, h.window⟩
    rw [TDense.at_ok hwf hp]
    apply rd_of_getElem?
    simp only
    rw [List.getElem?_set_self hlt.2]
  · intro q hq hne
    have hwf : ({ T with val := T.val.set (T.first + rowMajor T.shape pos) v } : TDense α).WF :=
      ⟨by simp only [List.length_set]; exact h.lenV, h.nnz_eq, h.window⟩
    rw [TDense.at_ok hwf hq, TDense.at_ok h hq]
    unfold rd
    simp only
    rw [List.getElem?_set_ne]
    intro he
    exact hne (rowMajor_inj hq hp (by omega))
  · intro k hk
    simp only
    rw [List.getElem?_set_ne (by omega)]

/-- **C36 (construction).** A new tensor of any shape is well formed and all its elements are 0. -/
theorem C36_new [Zero α] (shape : List Nat) : ∃ T : TDense α, TDense.new shape = .ok T ∧ T.WF ∧
    T.shape = shape ∧ ∀ pos, InShape shape pos → T.at_ pos = .ok 0 := by
  have hn : (TDense.new shape : Res (TDense α)) = .ok
      { shape := shape, val := List.replicate (volume shape) 0, nnz := volume shape,
        alloc := volume shape, first := 0, created := true } := by
    unfold TDense.new TDense.resizeShape TDense.resize TDense.empty
    simp only [Nat.not_lt_zero, if_false, if_true, extent_eq]
    rw [reallocCopy_ok (by simp)]
    simp
  refine ⟨_, hn, ⟨by simp, rfl, by simp⟩, rfl, ?_⟩
  intro pos hp
  have hwf : (TDense.mk shape (List.replicate (volume shape) (0 : α)) (volume shape) (volume shape) 0
      true).WF := ⟨by simp, rfl, by simp⟩
  rw [TDense.at_ok hwf hp]
  apply rd_of_getElem?
  simp only [Nat.zero_add]
  rw [List.getElem?_replicate, if_pos (rowMajor_lt hp)]

/-- **C36 (rank).** A position of the wrong rank is rejected. -/
theorem C36_rank (T : TDense α) (pos : List Nat) (v : α) (h : pos.length ≠ T.shape.length) :
    (∃ m, T.at_ pos = .throw m) ∧ ∃ m, T.insert pos v = .throw m := by
  have : getIndex T.shape pos = .throw "pos size should be same with the shape" := by
    unfold getIndex; rw [if_pos h]
  exact ⟨⟨_, by unfold TDense.at_; rw [this]; rfl⟩, ⟨_, by unfold TDense.insert; rw [this]; rfl⟩⟩

/-- **C36 violated (range).** The single indices are not checked: in a 2 × 3 tensor the position
(0, 4) is accepted and is element (1, 1). -/
theorem C36_range_violated : ∃ (T : TDense Int), T.WF ∧ T.shape = [2, 3] ∧ ¬ InShape T.shape [0, 4] ∧
    T.at_ [0, 4] = T.at_ [1, 1] ∧ T.at_ [0, 4] = .ok 5 :=
  ⟨⟨[2, 3], [1, 2, 3, 4, 5, 6], 6, 6, 0, true⟩, ⟨rfl, by decide, by decide⟩, rfl,
    by unfold InShape; simp, by decide, by decide⟩

/-- what the code does guarantee for any position of the right rank: the access is inside the tensor
or rejected -/
theorem C36_no_overrun {T : TDense α} (h : T.WF) (pos : List Nat) (v : α) :
    (∀ m, T.at_ pos ≠ .ub m) ∧ ∀ m, T.insert pos v ≠ .ub m := by
  have hw := h.window
  have hl := h.lenV
  have key : (∃ m, getIndex T.shape pos = .throw m) ∨ ∃ k, getIndex T.shape pos = .ok k := by
    unfold getIndex; split
    · exact Or.inl ⟨_, rfl⟩
    · exact Or.inr ⟨_, rfl⟩
  rcases key with ⟨m, hm⟩ | ⟨k, hk⟩
  · constructor
    · intro m' he; unfold TDense.at_ at he; rw [hm] at he; cases he
    · intro m' he; unfold TDense.insert at he; rw [hm] at he; cases he
  · by_cases hkn : k < T.nnz
    · have h1 : decide (k < T.nnz) = true := decide_eq_true hkn
      have h2 : decide (T.first + k < T.alloc) = true := decide_eq_true (by omega)
      constructor
      · intro m' he
        unfold TDense.at_ TDense.at1 at he
        rw [hk, Res.ok_bind, h1, h2, cassert_true, Res.ok_bind, Res.ok_bind,
          rd_ok (by omega)] at he
        cases he
      · intro m' he
        unfold TDense.insert TDense.insert1 at he
        rw [hk, Res.ok_bind, h1, h2, cassert_true, Res.ok_bind, Res.ok_bind,
          wr_ok (by omega)] at he
        cases he
    · have h1 : decide (k < T.nnz) = false := decide_eq_false hkn
      constructor
      · intro m' he
        unfold TDense.at_ TDense.at1 at he
        rw [hk, Res.ok_bind, h1] at he
        cases he
      · intro m' he
        unfold TDense.insert TDense.insert1 at he
        rw [hk, Res.ok_bind, h1] at he
        cases he

example : getIndex [2, 3, 4] [1, 2, 3] = .ok 23 ∧ unindex [2, 3, 4] 17 = .ok [1, 1, 1] := by decide
example : InShape [2, 3, 4] [1, 2, 3] := by unfold InShape; simp

/-! ### C38 -/

/-- the extents a request stands for: a negative entry means "whatever is left", `q` -/
def Spec.reqShape (q : Nat) (req : List Int) : List Nat := req.map (fun d => if d < 0 then q else d.toNat)

/-- the non-negative entries of a request -/
def Spec.fixedPart (req : List Int) : List Nat := (req.filter (fun d => decide (0 ≤ d))).map Int.toNat

/-- how many entries are negative -/
def Spec.wildcards (req : List Int) : Nat := (req.filter (fun d => decide (d < 0))).length

theorem reshapePass_eq : ∀ (req : List Int) (old : List Nat), old.length = req.length →
    (TDense.reshapePass req old).1 = wildcards req ∧
    (TDense.reshapePass req old).2.1 = volume (fixedPart req) ∧
    (TDense.reshapePass req old).2.2 = List.zipWith (fun d o => if d < 0 then o else d.toNat) req old
  | [], [], _ => by simp [TDense.reshapePass, wildcards, fixedPart, volume]
  | d :: ds, o :: os, h => by
    obtain ⟨h1, h2, h3⟩ := reshapePass_eq ds os (by simpa using h)
    unfold TDense.reshapePass
    by_cases hd : d < 0
    · have hd' : ¬ 0 ≤ d := by omega
      simp only [hd, if_true, List.zipWith_cons_cons]
      refine ⟨?_, ?_, by rw [h3]⟩
      · rw [h1]; simp [wildcards, hd]
      · rw [h2]; simp [fixedPart, hd']
    · have hd' : 0 ≤ d := by omega
      simp only [hd, if_false, List.zipWith_cons_cons]
      refine ⟨?_, ?_, by rw [h3]⟩
      · rw [h1]; simp [wildcards, hd]
      · rw [h2]; simp [fixedPart, hd', volume]

theorem reshapeFill_eq (q : Nat) : ∀ (req : List Int) (old : List Nat), old.length = req.length →
    TDense.reshapeFill q req (List.zipWith (fun d o => if d < 0 then o else d.toNat) req old) =
      reqShape q req
  | [], [], _ => rfl
  | d :: ds, o :: os, h => by
    have ih := reshapeFill_eq q ds os (by simpa using h)
    simp only [List.zipWith_cons_cons, TDense.reshapeFill, ih, reqShape, List.map_cons]
    by_cases hd : d < 0
    · simp [hd]
    · simp [hd]

theorem zipWith_no_wild (q : Nat) : ∀ (req : List Int) (old : List Nat), old.length = req.length →
    wildcards req = 0 →
    List.zipWith (fun d o => if d < 0 then o else d.toNat) req old = reqShape q req
  | [], [], _, _ => rfl
  | d :: ds, o :: os, h, hw => by
    by_cases hd : d < 0
    · simp [wildcards, hd] at hw
    · have ih := zipWith_no_wild q ds os (by simpa using h) (by simpa [wildcards, hd] using hw)
      simp only [List.zipWith_cons_cons, ih, reqShape, List.map_cons]
      simp [hd]

theorem volume_reqShape (q : Nat) : ∀ req : List Int,
    volume (reqShape q req) = volume (fixedPart req) * q ^ wildcards req
  | [] => by simp [reqShape, fixedPart, wildcards, volume]
  | d :: ds => by
    have ih := volume_reqShape q ds
    by_cases hd : d < 0
    · have hd' : ¬ 0 ≤ d := by omega
      have e1 : reqShape q (d :: ds) = q :: reqShape q ds := by simp [reqShape, hd]
      have e2 : fixedPart (d :: ds) = fixedPart ds := by simp [fixedPart, hd']
      have e3 : wildcards (d :: ds) = wildcards ds + 1 := by simp [wildcards, hd]
      rw [e1, e2, e3, volume_cons, ih, Nat.pow_succ]; ring
    · have hd' : 0 ≤ d := by omega
      have e1 : reqShape q (d :: ds) = d.toNat :: reqShape q ds := by simp [reqShape, hd]
      have e2 : fixedPart (d :: ds) = d.toNat :: fixedPart ds := by simp [fixedPart, hd']
      have e3 : wildcards (d :: ds) = wildcards ds := by simp [wildcards, hd]
      rw [e1, e2, e3, volume_cons, volume_cons, ih]; ring

/-- **C38 (reshape, accepted requests).** If the request has no negative entry and the right number of
elements, or one negative entry and the others multiply to a positive divisor of the number of
elements, `reshape` succeeds, the storage is untouched, the shape is the requested one (with the
negative entry filled in), so the element at every linear place is the same; the object is well
formed. -/
theorem C38_reshape {T : TDense α} (h : T.WF) (req : List Int)
    (hreq : (wildcards req = 0 ∧ volume (fixedPart req) = T.nnz) ∨
      (wildcards req = 1 ∧ 0 < volume (fixedPart req) ∧ volume (fixedPart req) ∣ T.nnz)) :
    ∃ T', T.reshape req = (T', .ok ()) ∧ T'.WF ∧
      T'.shape = reqShape (T.nnz / volume (fixedPart req)) req ∧
      T' = { T with shape := T'.shape } ∧
      ∀ k, T'.at1 k = T.at1 k := by
  obtain ⟨p1, p2, p3⟩ := reshapePass_eq req (stdResize T.shape req.length 0) (by simp)
  have hpair : TDense.reshapePass req (stdResize T.shape req.length 0) =
      (wildcards req, volume (fixedPart req),
        List.zipWith (fun d o => if d < 0 then o else d.toNat) req (stdResize T.shape req.length 0)) := by
    rw [← p1, ← p2, ← p3]
  have hvol : volume (reqShape (T.nnz / volume (fixedPart req)) req) = T.nnz := by
    rw [volume_reqShape]
    rcases hreq with ⟨h1, h2⟩ | ⟨h1, h2, h3⟩
    · rw [h1, h2, pow_zero, Nat.mul_one]
    · rw [h1, pow_one, Nat.mul_div_cancel' h3]
  refine ⟨{ T with shape := reqShape (T.nnz / volume (fixedPart req)) req }, ?_,
    ⟨h.lenV, hvol.symm, h.window⟩, rfl, rfl, fun k => rfl⟩
  unfold TDense.reshape
  rw [hpair]
  simp only
  rcases hreq with ⟨h1, h2⟩ | ⟨h1, h2, h3⟩
  · rw [if_neg (by omega), if_neg (by omega), if_neg (by omega),
      zipWith_no_wild (T.nnz / volume (fixedPart req)) _ _ (by simp) h1]
  · rw [if_neg (by omega), if_pos h1, if_neg (by omega), reshapeFill_eq _ _ _ (by simp), extent_eq,
      hvol, if_neg (by omega)]

/-- **C38 (reshape, other requests).** Every other request throws, except that a negative entry
together with a zero entry divides by zero. -/
theorem C38_rejects {T : TDense α} (req : List Int)
    (hreq : ¬ ((wildcards req = 0 ∧ volume (fixedPart req) = T.nnz) ∨
      (wildcards req = 1 ∧ 0 < volume (fixedPart req) ∧ volume (fixedPart req) ∣ T.nnz))) :
    (¬ (wildcards req = 1 ∧ volume (fixedPart req) = 0) → ∃ m, (T.reshape req).2 = .throw m) ∧
    ((wildcards req = 1 ∧ volume (fixedPart req) = 0) → ∃ m, (T.reshape req).2 = .ub m) ∧
    (T.reshape req).1 = { T with shape := (T.reshape req).1.shape } := by
  obtain ⟨p1, p2, p3⟩ := reshapePass_eq req (stdResize T.shape req.length 0) (by simp)
  have hpair : TDense.reshapePass req (stdResize T.shape req.length 0) =
      (wildcards req, volume (fixedPart req),
        List.zipWith (fun d o => if d < 0 then o else d.toNat) req (stdResize T.shape req.length 0)) := by
    rw [← p1, ← p2, ← p3]
  unfold TDense.reshape
  rw [hpair]
  simp only
  by_cases h2 : wildcards req ≥ 2
  · simp only [if_pos h2]
    exact ⟨fun _ => ⟨_, rfl⟩, fun q => by omega, trivial⟩
  · simp only [if_neg h2]
    by_cases h1 : wildcards req = 1
    · simp only [if_pos h1]
      by_cases h0 : volume (fixedPart req) = 0
      · simp only [if_pos h0]
        exact ⟨fun q => absurd ⟨h1, h0⟩ q, fun _ => ⟨_, rfl⟩, trivial⟩
      · simp only [if_neg h0]
        rw [reshapeFill_eq _ _ _ (by simp), extent_eq, volume_reqShape, h1, pow_one]
        have hnd : ¬ volume (fixedPart req) ∣ T.nnz := fun hd => hreq (Or.inr ⟨h1, by omega, hd⟩)
        rw [if_pos (fun he => hnd ⟨_, he.symm⟩)]
        exact ⟨fun _ => ⟨_, rfl⟩, fun q => absurd q.2 h0, rfl⟩
    · simp only [if_neg h1]
      have hne : volume (fixedPart req) ≠ T.nnz := fun he => hreq (Or.inl ⟨by omega, he⟩)
      rw [if_pos hne]
      exact ⟨fun _ => ⟨_, rfl⟩, fun q => absurd q.1 h1, rfl⟩

/-- **C38 violated (all-or-nothing).** A rejected request leaves its shape behind: after the exception a
2 × 3 tensor of 6 elements has shape 4 × 4, and its element (0, 2) has become (0, 2) of a
matrix with 4 columns; the object is no longer well formed. -/
theorem C38_rejected_violated : ∃ (T : TDense Int) (req : List Int), T.WF ∧
    (∃ m, (T.reshape req).2 = .throw m) ∧ (T.reshape req).1 ≠ T ∧ ¬ (T.reshape req).1.WF ∧
    (T.reshape req).1.at_ [1, 0] ≠ T.at_ [1, 0] :=
  ⟨⟨[2, 3], [1, 2, 3, 4, 5, 6], 6, 6, 0, true⟩, [4, 4], ⟨rfl, by decide, by decide⟩,
    ⟨_, rfl⟩, by decide, fun h => by have := h.nnz_eq; revert this; decide, by decide⟩

example : (TDense.mk [2, 3] [(1 : Int), 2, 3, 4, 5, 6] 6 6 0 true).reshape [3, -1] =
    (TDense.mk [3, 2] [1, 2, 3, 4, 5, 6] 6 6 0 true, .ok ()) := by decide

/-! ### C21 -/

/-- stride of the diagonal that the code uses: `1 + s0 + s0*s1 + ...` -/
def codeStride : List Nat → Nat
  | [] => 0
  | s :: ss => 1 + s * codeStride ss

/-- stride of the diagonal of a row-major tensor -/
def diagStride : List Nat → Nat
  | [] => 0
  | _ :: ss => volume ss + diagStride ss

theorem diagParams_eq : ∀ (shape : List Nat) (shift N len : Nat),
    TDense.diagParams shape shift N len = (shift + N * codeStride shape, shape.foldl min len)
  | [], shift, N, len => by simp [TDense.diagParams, codeStride]
  | s :: ss, shift, N, len => by
    rw [TDense.diagParams, diagParams_eq ss]
    simp only [codeStride, List.foldl_cons]
    congr 1
    ring

theorem rowMajor_replicate (i : Nat) : ∀ shape : List Nat,
    rowMajor shape (List.replicate shape.length i) = i * diagStride shape
  | [] => by simp [rowMajor, diagStride]
  | s :: ss => by
    rw [List.length_cons, List.replicate_succ, rowMajor, rowMajor_replicate i ss, diagStride]
    ring

theorem diagStride_append (a b : List Nat) :
    diagStride (a ++ b) = diagStride a * volume b + diagStride b := by
  induction a with
  | nil => simp [diagStride]
  | cons s ss ih => simp only [List.cons_append, diagStride, ih, volume_append]; ring

theorem volume_reverse (l : List Nat) : volume l.reverse = volume l := by
  unfold volume; exact List.prod_reverse l

/-- the code's stride is that of the reversed shape -/
theorem codeStride_eq (shape : List Nat) : codeStride shape = diagStride shape.reverse := by
  induction shape with
  | nil => rfl
  | cons s ss ih =>
    rw [List.reverse_cons, diagStride_append, codeStride, ih]
    simp [diagStride, volume]
    ring

theorem inShape_replicate {i : Nat} : ∀ {shape : List Nat},
    InShape shape (List.replicate shape.length i) ↔ ∀ s ∈ shape, i < s
  | [] => by simp [InShape]
  | s :: ss => by
    rw [List.length_cons, List.replicate_succ, InShape.cons_iff, inShape_replicate]
    simp

theorem lt_foldl_min {i : Nat} : ∀ (l : List Nat) (z : Nat),
    i < l.foldl min z ↔ i < z ∧ ∀ s ∈ l, i < s
  | [], z => by simp
  | s :: ss, z => by
    rw [List.foldl_cons, lt_foldl_min ss]
    simp only [List.mem_cons, forall_eq_or_imp]
    constructor
    · rintro ⟨h1, h2⟩; exact ⟨by omega, by omega, h2⟩
    · rintro ⟨h1, h2, h3⟩; exact ⟨by omega, h3⟩

/-- the number of iterations is the smallest extent -/
theorem diagLen_iff {T : TDense α} (h : T.WF) (hr : T.shape ≠ []) (i : Nat) :
    i < T.diagLen ↔ ∀ s ∈ T.shape, i < s := by
  unfold TDense.diagLen
  rw [diagParams_eq, lt_foldl_min]
  constructor
  · exact fun q => q.2
  · intro hs
    refine ⟨?_, hs⟩
    have h1 := rowMajor_lt (inShape_replicate.mpr hs)
    rw [rowMajor_replicate, ← h.nnz_eq] at h1
    obtain ⟨s, ss, hss⟩ := List.exists_cons_of_ne_nil hr
    have hv : 0 < diagStride T.shape := by
      rw [hss, diagStride]
      have : 0 < volume ss := by
        unfold volume
        apply Nat.pos_of_ne_zero
        intro h0
        rw [List.prod_eq_zero_iff] at h0
        have := hs 0 (by rw [hss]; simp [h0])
        omega
      omega
    calc i ≤ i * diagStride T.shape := Nat.le_mul_of_pos_right _ hv
      _ < T.nnz := h1

/-- Which elements a diagonal operation touches, for every shape: the element at linear place
`i * stride`, where the stride is that of the *reversed* shape; always inside the tensor. -/
theorem diag_touches {T : TDense α} (h : T.WF) (hr : T.shape ≠ []) {n : Nat}
    (hn : ∀ i, i < n ↔ ∀ s ∈ T.shape, i < s) {order : List Nat} (ho : Order order n)
    (g : Nat → α → α) {body : Nat → List α → Res (List α)}
    (hb : ∀ i, i < n → ∀ b u, b[T.first + codeStride T.shape * i]? = some u →
      body i b = wr b (T.first + codeStride T.shape * i) (g i u)) :
    ∃ w, forList order body T.val = .ok w ∧ ({ T with val := w } : TDense α).WF ∧
      (∀ i u, i < n → T.val[T.first + codeStride T.shape * i]? = some u →
        w[T.first + codeStride T.shape * i]? = some (g i u)) ∧
      (∀ k, (∀ i, i < n → k ≠ T.first + codeStride T.shape * i) → w[k]? = T.val[k]?) ∧
      ∀ i, i < n → codeStride T.shape * i < T.nnz := by
  have hw := h.window
  have hl := h.lenV
  have hpos : 0 < codeStride T.shape := by
    obtain ⟨s, ss, hss⟩ := List.exists_cons_of_ne_nil hr
    rw [hss, codeStride]; omega
  have hin : ∀ i, i < n → codeStride T.shape * i < T.nnz := by
    intro i hi
    have : InShape T.shape.reverse (List.replicate T.shape.reverse.length i) := by
      rw [inShape_replicate]
      intro s hs
      exact (hn i).mp hi s (by simpa using hs)
    have := rowMajor_lt this
    rw [rowMajor_replicate, ← codeStride_eq, volume_reverse, ← h.nnz_eq, Nat.mul_comm] at this
    exact this
  obtain ⟨w, h1, h2, h3, h4⟩ := forList_points order (fun i => T.first + codeStride T.shape * i) g
    (by
      refine List.Nodup.map_on ?_ ho.nodup
      intro i _ i' _ he
      exact Nat.eq_of_mul_eq_mul_left hpos (Nat.add_left_cancel he))
    T.val (body := body)
    (by intro i hi; have := hin i (ho.mem.mp hi); omega)
    (by intro i t u hi _ hu; exact hb i (ho.mem.mp hi) t u hu)
  refine ⟨w, h1, ⟨h2.trans h.lenV, h.nnz_eq, h.window⟩, ?_, ?_, hin⟩
  · intro i u hi hu; exact h3 i u (ho.mem.mpr hi) hu
  · intro k hk; exact h4 k (fun i hi => hk i (ho.mem.mp hi))

/-- **C21 (every shape): in bounds.** For every tensor of rank ≥ 1, every shape, offset and schedule,
`diag_add/sub/mul/div` completes without touching anything outside the tensor. -/
theorem C21_in_bounds {T : TDense α} (h : T.WF) (hr : T.shape ≠ []) {n : Nat}
    (hn : ∀ i, i < n ↔ ∀ s ∈ T.shape, i < s) {order : List Nat} (ho : Order order n)
    (op : α → α → α) (alpha : α) :
    ∃ T', T.diagOpS op order alpha = .ok T' ∧ T'.WF ∧ T'.shape = T.shape ∧ T'.first = T.first ∧
      ∀ k, k < T.first ∨ T.first + T.nnz ≤ k → T'.val[k]? = T.val[k]? := by
  obtain ⟨w, h1, h2, _, h4, h5⟩ := diag_touches h hr hn ho (fun _ u => op u alpha)
    (body := fun i b => do
      let x ← rd b (T.first + codeStride T.shape * i)
      wr b (T.first + codeStride T.shape * i) (op x alpha))
    (fun i _ b u hu => by rw [rd_of_getElem? hu, Res.ok_bind])
  refine ⟨{ T with val := w }, ?_, h2, rfl, rfl, fun k hk => h4 k (fun i hi he => ?_)⟩
  · unfold TDense.diagOpS
    simp only [diagParams_eq, Nat.zero_add, Nat.one_mul]
    rw [h1]; rfl
  · have := h5 i hi
    omega

/-- all indices of a position are equal -/
def Spec.OnDiagonal (pos : List Nat) : Prop := pos = List.replicate pos.length (pos.headD 0)

instance (pos : List Nat) : Decidable (Spec.OnDiagonal pos) := by unfold Spec.OnDiagonal; infer_instance

/-- **C21, partial**: for shapes that read the same backwards (in particular all extents equal),
`diag_op` with a scalar, and with a vector or view as long as the smallest extent, changes exactly the
elements whose indices are all equal. -/
theorem C21_partial {T : TDense α} (h : T.WF) (hr : T.shape ≠ []) (hpal : T.shape.reverse = T.shape)
    {n : Nat} (hn : ∀ i, i < n ↔ ∀ s ∈ T.shape, i < s) {order : List Nat} (ho : Order order n)
    {f : List Nat → α} (hf : T.Reads f) (op : α → α → α) :
    (∀ alpha, ∃ T', T.diagOpS op order alpha = .ok T' ∧ T'.WF ∧ T'.shape = T.shape ∧
      T'.Reads (fun pos => if OnDiagonal pos then op (f pos) alpha else f pos)) ∧
    (∀ d : Win α, d.size = n → ∀ y : Nat → α, (∀ i, i < n → d.get i = .ok (y i)) →
      ∃ T', T.diagOpV op order d = .ok T' ∧ T'.WF ∧ T'.shape = T.shape ∧
      T'.Reads (fun pos => if OnDiagonal pos then op (f pos) (y (pos.headD 0)) else f pos)) := by
  have hstr : codeStride T.shape = diagStride T.shape := by rw [codeStride_eq, hpal]
  have hplace : ∀ i, codeStride T.shape * i = rowMajor T.shape (List.replicate T.shape.length i) := by
    intro i; rw [rowMajor_replicate, hstr, Nat.mul_comm]
  have main : ∀ (g : Nat → α → α) (w : List α), ({ T with val := w } : TDense α).WF →
      (∀ i u, i < n → T.val[T.first + codeStride T.shape * i]? = some u →
        w[T.first + codeStride T.shape * i]? = some (g i u)) →
      (∀ k, (∀ i, i < n → k ≠ T.first + codeStride T.shape * i) → w[k]? = T.val[k]?) →
      ({ T with val := w } : TDense α).Reads
        (fun pos => if OnDiagonal pos then g (pos.headD 0) (f pos) else f pos) := by
    intro g w hwf h3 h4 pos hp
    have hp' : InShape T.shape pos := hp
    rw [TDense.at_ok hwf hp]
    apply rd_of_getElem?
    simp only
    have hold := hf.getElem? h hp'
    by_cases hd : OnDiagonal pos
    · rw [if_pos hd]
      have hpos : pos = List.replicate T.shape.length (pos.headD 0) := by
        unfold OnDiagonal at hd
        rw [← hp'.length]; exact hd
      have hi : pos.headD 0 < n := by
        rw [hn, ← inShape_replicate, ← hpos]; exact hp'
      have := h3 (pos.headD 0) (f pos) hi (by rw [hplace, ← hpos]; exact hold)
      rw [hplace, ← hpos] at this
      exact this
    · rw [if_neg hd, h4, hold]
      intro i hi he
      apply hd
      have hin : InShape T.shape (List.replicate T.shape.length i) := by
        rw [inShape_replicate]; exact (hn i).mp hi
      have := rowMajor_inj hp' hin (by rw [← hplace]; omega)
      unfold OnDiagonal
      rw [this]
      obtain ⟨s, ss, hss⟩ := List.exists_cons_of_ne_nil hr
      simp [hss, List.replicate_succ]
  have hlen : T.diagLen = n := by
    by_contra hne
    rcases Nat.lt_or_gt_of_ne hne with hlt | hgt
    · exact absurd ((diagLen_iff h hr _).mpr ((hn _).mp hlt)) (Nat.lt_irrefl _)
    · exact absurd ((hn _).mpr ((diagLen_iff h hr _).mp hgt)) (Nat.lt_irrefl _)
  refine ⟨fun alpha => ?_, fun d hd y hy => ?_⟩
  · obtain ⟨w, h1, h2, h3, h4, _⟩ := diag_touches h hr hn ho (fun _ u => op u alpha)
      (body := fun i b => do
        let x ← rd b (T.first + codeStride T.shape * i)
        wr b (T.first + codeStride T.shape * i) (op x alpha))
      (fun i _ b u hu => by rw [rd_of_getElem? hu, Res.ok_bind])
    refine ⟨{ T with val := w }, ?_, h2, rfl, main _ w h2 h3 h4⟩
    unfold TDense.diagOpS
    simp only [diagParams_eq, Nat.zero_add, Nat.one_mul]
    rw [h1]; rfl
  · obtain ⟨w, h1, h2, h3, h4, _⟩ := diag_touches h hr hn ho (fun i u => op u (y i))
      (body := fun i b => do
        let x ← rd b (T.first + codeStride T.shape * i)
        let z ← rd d.buf (d.off + i)
        wr b (T.first + codeStride T.shape * i) (op x z))
      (fun i hi b u hu => by
        have := hy i hi
        unfold Win.get at this
        rw [rd_of_getElem? hu, Res.ok_bind, this, Res.ok_bind])
    refine ⟨{ T with val := w }, ?_, h2, rfl, main _ w h2 h3 h4⟩
    unfold TDense.diagOpV
    unfold TDense.diagLen at hlen
    rw [cassert_decide (by rw [hlen, hd]), Res.ok_bind]
    simp only [diagParams_eq, Nat.zero_add, Nat.one_mul]
    rw [h1]; rfl

/-- **C21 violated.** For every `m × n` tensor (rank 2) with different extents ≥ 2 and every operation:
when `m > n` the diagonal element (1, 1) is left unchanged; when `m < n` an element off the diagonal
is changed. -/
theorem C21_violated {T : TDense α} (h : T.WF) {m n : Nat} (hs : T.shape = [m, n]) (hm : 2 ≤ m)
    (hn : 2 ≤ n) (hne : m ≠ n) {f : List Nat → α} (hf : T.Reads f) (op : α → α → α) (alpha : α)
    {order : List Nat} (ho : Order order (min m n)) :
    ∃ T', T.diagOpS op order alpha = .ok T' ∧
      (n < m → T'.at_ [1, 1] = .ok (f [1, 1])) ∧
      (m < n → ∃ pos, InShape T.shape pos ∧ ¬ OnDiagonal pos ∧ T'.at_ pos = .ok (op (f pos) alpha)) := by
  have hr : T.shape ≠ [] := by rw [hs]; simp
  obtain ⟨w, h1, h2, h3, h4, h5⟩ := diag_touches h hr (n := min m n)
    (by intro i; rw [hs]; simp) ho (fun _ u => op u alpha)
    (body := fun i b => do
      let x ← rd b (T.first + codeStride T.shape * i)
      wr b (T.first + codeStride T.shape * i) (op x alpha))
    (fun i _ b u hu => by rw [rd_of_getElem? hu, Res.ok_bind])
  have hcs : codeStride T.shape = 1 + m := by rw [hs]; simp [codeStride]
  refine ⟨{ T with val := w }, ?_, ?_, ?_⟩
  · unfold TDense.diagOpS
    simp only [diagParams_eq, Nat.zero_add, Nat.one_mul]
    rw [h1]; rfl
  · intro hlt
    have hp : InShape T.shape [1, 1] := by rw [hs]; unfold InShape; simp; omega
    rw [TDense.at_ok h2 hp]
    apply rd_of_getElem?
    simp only
    rw [h4, hf.getElem? h hp]
    intro i hi he
    have e1 : rowMajor T.shape [1, 1] = n + 1 := by rw [hs]; simp [rowMajor, volume]
    rw [e1, hcs] at he
    have hi0 : i ≠ 0 := by rintro rfl; omega
    have : 1 + m ≤ (1 + m) * i := Nat.le_mul_of_pos_right _ (by omega)
    omega
  · intro hlt
    have h5' := h5 1 (by omega)
    rw [hcs, Nat.mul_one, h.nnz_eq] at h5'
    obtain ⟨pos, hp1, hp2, hp3⟩ := unindex_ok h5'
    refine ⟨pos, hp2, ?_, ?_⟩
    · intro hd
      unfold OnDiagonal at hd
      have hlen : pos.length = 2 := by rw [hp2.length, hs]; rfl
      rw [hlen] at hd
      rw [hd, hs] at hp3
      simp [rowMajor, volume, List.replicate] at hp3
      have : ∀ c, c * n + c = 1 + m → False := by
        intro c hc
        have h0 : c ≠ 0 := by rintro rfl; omega
        have : n ≤ c * n := Nat.le_mul_of_pos_left _ (by omega)
        have h1 : c = 1 := by
          by_contra hc1
          have : 2 * n ≤ c * n := Nat.mul_le_mul_right _ (by omega)
          omega
        subst h1
        omega
      exact this _ hp3
    · rw [TDense.at_ok h2 hp2]
      apply rd_of_getElem?
      simp only
      have := h3 1 (f pos) (by omega) (by
        rw [hcs, Nat.mul_one, ← hp3]
        exact hf.getElem? h hp2)
      rw [hcs, Nat.mul_one, ← hp3] at this
      exact this

example : (TDense.mk [2, 2] [(1 : Int), 2, 3, 4] 4 4 0 true).diagOpS (· + ·) [1, 0] 10 =
    .ok (TDense.mk [2, 2] [11, 2, 3, 14] 4 4 0 true) := by decide
example : (TDense.mk [2, 3, 2] [(0 : Int), 1, 2, 3, 4, 5, 6, 7, 8, 9, 10, 11] 12 12 0 true).diagOpV
    (· * ·) [1, 0] ⟨[7, 10, 20], 1, 2⟩ =
    .ok (TDense.mk [2, 3, 2] [0, 1, 2, 3, 4, 5, 6, 7, 8, 180, 10, 11] 12 12 0 true) := by decide

end Verif
