import Verif.Spec.TensorSpec
import Verif.Lemmas.Loops
import Mathlib.Algebra.BigOperators.Group.List.Lemmas
import Mathlib.Algebra.Order.BigOperators.Group.List

/-! Row-major index arithmetic. -/

namespace Verif

open Spec

theorem volume_nil : volume [] = 1 := rfl
theorem volume_cons (s : Nat) (ss : List Nat) : volume (s :: ss) = s * volume ss := by
  simp [volume]
theorem volume_append (a b : List Nat) : volume (a ++ b) = volume a * volume b := by
  simp [volume]

theorem Spec.InShape.length {shape pos : List Nat} (h : InShape shape pos) : pos.length = shape.length :=
  List.Forall₂.length_eq h

theorem Spec.InShape.nil_iff {pos : List Nat} : InShape [] pos ↔ pos = [] := by
  unfold InShape; simp

theorem Spec.InShape.cons_iff {s p : Nat} {ss ps : List Nat} :
    InShape (s :: ss) (p :: ps) ↔ p < s ∧ InShape ss ps := by
  unfold InShape; simp

theorem Spec.InShape.exists_cons {s : Nat} {ss pos : List Nat} (h : InShape (s :: ss) pos) :
    ∃ p ps, pos = p :: ps ∧ p < s ∧ InShape ss ps := by
  cases pos with
  | nil => have := h.length; simp at this
  | cons p ps => exact ⟨p, ps, rfl, InShape.cons_iff.mp h⟩

theorem Spec.InShape.append {a b p q : List Nat} (h1 : InShape a p) (h2 : InShape b q) :
    InShape (a ++ b) (p ++ q) := by
  unfold InShape at *
  exact List.rel_append h1 h2

theorem horner_eq : ∀ {shape pos : List Nat} (ind : Nat), pos.length = shape.length →
    horner shape pos ind = ind * volume shape + rowMajor shape pos
  | [], [], ind, _ => by simp [horner, rowMajor, volume_nil]
  | s :: ss, p :: ps, ind, h => by
    have ih := horner_eq (shape := ss) (pos := ps) (ind * s + p) (by simpa using h)
    rw [horner, ih, rowMajor, volume_cons]
    ring

theorem getIndex_ok {shape pos : List Nat} (h : pos.length = shape.length) :
    getIndex shape pos = .ok (rowMajor shape pos) := by
  unfold getIndex
  rw [if_neg (by omega), horner_eq 0 h]; simp

theorem rowMajor_lt : ∀ {shape pos : List Nat}, InShape shape pos →
    rowMajor shape pos < volume shape
  | [], pos, h => by
    rw [InShape.nil_iff] at h
    subst h; simp [rowMajor, volume_nil]
  | s :: ss, pos, h => by
    obtain ⟨p, ps, rfl, hp, hps⟩ := h.exists_cons
    have ih := rowMajor_lt hps
    rw [rowMajor, volume_cons]
    calc p * volume ss + rowMajor ss ps < p * volume ss + volume ss := by omega
      _ = (p + 1) * volume ss := by ring
      _ ≤ s * volume ss := Nat.mul_le_mul_right _ hp

theorem rowMajor_append : ∀ {a b p q : List Nat}, InShape a p →
    rowMajor (a ++ b) (p ++ q) = rowMajor a p * volume b + rowMajor b q
  | [], b, p, q, h => by
    rw [InShape.nil_iff] at h
    subst h; simp [rowMajor]
  | s :: ss, b, p, q, h => by
    obtain ⟨x, xs, rfl, hx, hxs⟩ := h.exists_cons
    have ih := rowMajor_append (b := b) (q := q) hxs
    simp only [List.cons_append, rowMajor]
    rw [ih, volume_append]
    ring

theorem rowMajor_inj : ∀ {shape p q : List Nat}, InShape shape p → InShape shape q →
    rowMajor shape p = rowMajor shape q → p = q
  | [], p, q, hp, hq, _ => by
    rw [InShape.nil_iff] at hp hq
    rw [hp, hq]
  | s :: ss, p, q, hp, hq, h => by
    obtain ⟨x, xs, rfl, hx, hxs⟩ := hp.exists_cons
    obtain ⟨y, ys, rfl, hy, hys⟩ := hq.exists_cons
    simp only [rowMajor] at h
    have := idx_inj (i := x) (i' := y) (rowMajor_lt hxs) (rowMajor_lt hys)
      (by rw [Nat.mul_comm _ x, Nat.mul_comm _ y]; exact h)
    rw [this.1, rowMajor_inj hxs hys this.2]

/-- The inverse loop: for positive extents it returns an in-range position whose place is
`k % volume`, and leaves `k / volume`. -/
theorem unindexLoop_ok : ∀ {shape : List Nat} (k : Nat), 0 < volume shape →
    ∃ pos, unindexLoop shape k = .ok (pos, k / volume shape) ∧ InShape shape pos ∧
      rowMajor shape pos = k % volume shape
  | [], k, _ => ⟨[], by simp [unindexLoop, volume_nil], InShape.nil_iff.mpr rfl, by
      simp [rowMajor, volume_nil, Nat.mod_one]⟩
  | s :: ss, k, h => by
    rw [volume_cons] at h
    have hs : 0 < s := Nat.pos_of_mul_pos_right h
    have hv : 0 < volume ss := Nat.pos_of_mul_pos_left h
    obtain ⟨pos, h1, h2, h3⟩ := unindexLoop_ok (shape := ss) k hv
    refine ⟨k / volume ss % s :: pos, ?_, InShape.cons_iff.mpr ⟨Nat.mod_lt _ hs, h2⟩, ?_⟩
    · unfold unindexLoop
      rw [h1, Res.ok_bind]
      simp only
      rw [if_neg (by omega), volume_cons, Nat.div_div_eq_div_mul, Nat.mul_comm (volume ss) s]
    · rw [rowMajor, h3, volume_cons, Nat.mul_comm s (volume ss), Nat.mod_mul, Nat.add_comm,
        Nat.mul_comm]

theorem unindex_ok {shape : List Nat} {k : Nat} (hk : k < volume shape) :
    ∃ pos, unindex shape k = .ok pos ∧ InShape shape pos ∧ rowMajor shape pos = k := by
  obtain ⟨pos, h1, h2, h3⟩ := unindexLoop_ok (shape := shape) k (by omega)
  exact ⟨pos, by unfold unindex; rw [h1]; rfl, h2, by rw [h3, Nat.mod_eq_of_lt hk]⟩

theorem unindex_rowMajor {shape pos : List Nat} (h : InShape shape pos) :
    unindex shape (rowMajor shape pos) = .ok pos := by
  obtain ⟨pos', h1, h2, h3⟩ := unindex_ok (rowMajor_lt h)
  rw [h1, rowMajor_inj h2 h h3]

theorem extent_eq (shape : List Nat) : TDense.extent shape = volume shape := by
  have key : ∀ (l : List Nat) (z : Nat), l.foldl (fun N n => N * n) z = z * volume l := by
    intro l
    induction l with
    | nil => intro z; simp [volume]
    | cons a l ih => intro z; rw [List.foldl_cons, ih, volume_cons]; ring
  unfold TDense.extent
  rw [key, Nat.one_mul]

namespace TDense

variable {α : Type}

/-- position number `k` in row-major order; `[]` where there is none (proof device) -/
def posOf (shape : List Nat) (k : Nat) : List Nat :=
  match unindex shape k with
  | .ok p => p
  | _ => []

theorem posOf_rowMajor {shape pos : List Nat} (h : InShape shape pos) :
    posOf shape (rowMajor shape pos) = pos := by
  unfold posOf; rw [unindex_rowMajor h]

theorem posOf_ok {shape : List Nat} {k : Nat} (h : k < volume shape) :
    InShape shape (posOf shape k) ∧ rowMajor shape (posOf shape k) = k := by
  obtain ⟨p, h1, h2, h3⟩ := unindex_ok h
  unfold posOf; rw [h1]; exact ⟨h2, h3⟩

theorem at1_ok {T : TDense α} (h : T.WF) {k : Nat} (hk : k < T.nnz) :
    T.at1 k = rd T.val (T.first + k) := by
  have := h.window
  unfold at1
  rw [cassert_decide hk, Res.ok_bind, cassert_decide (by omega), Res.ok_bind]

theorem at_ok {T : TDense α} (h : T.WF) {pos : List Nat} (hp : InShape T.shape pos) :
    T.at_ pos = rd T.val (T.first + rowMajor T.shape pos) := by
  unfold at_
  rw [getIndex_ok hp.length, Res.ok_bind, at1_ok h (by rw [h.nnz_eq]; exact rowMajor_lt hp)]

theorem WF.lt {T : TDense α} (h : T.WF) {pos : List Nat} (hp : InShape T.shape pos) :
    rowMajor T.shape pos < T.nnz ∧ T.first + rowMajor T.shape pos < T.val.length := by
  have h1 := rowMajor_lt hp
  have h2 := h.window
  rw [h.lenV, h.nnz_eq] at *
  omega

theorem Reads.getElem? {T : TDense α} (h : T.WF) {f : List Nat → α} (hf : T.Reads f)
    {pos : List Nat} (hp : InShape T.shape pos) :
    T.val[T.first + rowMajor T.shape pos]? = some (f pos) := by
  have := hf pos hp
  rwa [at_ok h hp, rd_eq_ok] at this

theorem exists_reads [Inhabited α] {T : TDense α} (h : T.WF) : ∃ f, T.Reads f := by
  refine ⟨fun pos => match T.at_ pos with | .ok v => v | _ => default, ?_⟩
  intro pos hp
  have := at_ok h hp
  rw [rd_ok (h.lt hp).2] at this
  simp only [this]

end TDense
end Verif
