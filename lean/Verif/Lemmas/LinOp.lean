import Verif.Spec.LinOpSpec
import Verif.Props.Matvec
import Verif.Props.Matmul
import Verif.Props.CooCrs
import Verif.Props.DenseConv
import Verif.Lemmas.Loops
import Mathlib.Tactic.Ring
import Mathlib.Algebra.BigOperators.Group.Finset.Sigma
import Mathlib.Tactic.FieldSimp
import Mathlib.Tactic.Linarith

/-! Lemmas about LinearOperators: callbacks depend only on what they refer to; algebra of `image`. -/

namespace Verif
namespace LinOp

open Spec

variable {α : Type} [Field α]

theorem getOp_ok {σ : Store α} {a : Nat} {L : Op α} (h : σ a = .op L) : getOp σ a = .ok L := by
  simp [getOp, h]

theorem getScalar_ok {σ : Store α} {a : Nat} {s : α} (h : σ a = .scalar s) : getScalar σ a = .ok s := by
  simp [getScalar, h]

theorem getOp_eq_ok {σ : Store α} {a : Nat} {L : Op α} (h : getOp σ a = .ok L) : σ a = .op L := by
  unfold getOp at h
  split at h
  · rename_i heq; injection h with h; rw [heq, h]
  · exact absurd h (by simp)

/-! ## Callbacks depend only on what they refer to -/

theorem applyOp_frame {σ σ' : Store α} {tr : Bool} {f g : Clo α → List α → Res (List α)} {a : Nat}
    (ha : ∀ d, Uses σ a d → σ' d = σ d)
    (h : ∀ L c, σ a = .op L → (L.mv = some c ∨ L.rmv = some c) → ∀ x, f c x = g c x)
    (x : List α) (y : Nat) : applyOp f σ' tr a x y = applyOp g σ tr a x y := by
  have h0 : σ' a = σ a := ha a (.self a)
  unfold applyOp getOp
  rw [h0]
  cases hc : σ a with
  | op L =>
    show (cassert _ >>= _) = (cassert _ >>= _)
    congr 1
    funext _
    congr 1
    funext _
    cases hf : L.fn tr with
    | none => rfl
    | some c =>
      simp only
      rw [h L c hc]
      cases tr with
      | true => exact Or.inr hf
      | false => exact Or.inl hf
  | coo _ => rfl
  | crs _ => rfl
  | dense _ => rfl
  | scalar _ => rfl
  | dead => rfl

theorem call_frame (ord : Nat → List Nat) {σ σ' : Store α} (tr : Bool) (n : Nat) (c : Clo α)
    (h : ∀ b ∈ c.refs, ∀ d, Uses σ b d → σ' d = σ d) (x : List α) :
    call ord σ' tr n c x = call ord σ tr n c x := by
  induction n generalizing c x with
  | zero => rfl
  | succ n ih =>
    have hap : ∀ b ∈ c.refs, ∀ (x : List α) (y : Nat),
        applyOp (call ord σ' tr n) σ' tr b x y = applyOp (call ord σ tr n) σ tr b x y := by
      intro b hb x y
      refine applyOp_frame (h b hb) ?_ x y
      intro L c' hL hc' x
      apply ih
      intro b' hb' d hd
      exact h b hb d (.ref hL hc' hb' hd)
    have hself : ∀ b ∈ c.refs, σ' b = σ b := fun b hb => h b hb b (.self b)
    cases c with
    | user f => rfl
    | coo m => simp only [call, getCoo, hself m (by simp [Clo.refs])]
    | crs self m =>
      simp only [call, getCrs, getOp, hself m (by simp [Clo.refs]), hself self (by simp [Clo.refs])]
    | dense self m =>
      simp only [call, getDense, getOp, hself m (by simp [Clo.refs]), hself self (by simp [Clo.refs])]
    | add a b =>
      simp only [call, getOp, hself a (by simp [Clo.refs]), hap a (by simp [Clo.refs]),
        hap b (by simp [Clo.refs])]
    | sub a b =>
      simp only [call, getOp, hself a (by simp [Clo.refs]), hap a (by simp [Clo.refs]),
        hap b (by simp [Clo.refs])]
    | mul a b =>
      simp only [call, getOp, hself a (by simp [Clo.refs]), hself b (by simp [Clo.refs]),
        hap a (by simp [Clo.refs]), hap b (by simp [Clo.refs])]
    | sadd a s =>
      simp only [call, getOp, getScalar, hself a (by simp [Clo.refs]), hself s (by simp [Clo.refs]),
        hap a (by simp [Clo.refs])]
    | ssub a s =>
      simp only [call, getOp, getScalar, hself a (by simp [Clo.refs]), hself s (by simp [Clo.refs]),
        hap a (by simp [Clo.refs])]
    | smul a s =>
      simp only [call, getOp, getScalar, hself a (by simp [Clo.refs]), hself s (by simp [Clo.refs]),
        hap a (by simp [Clo.refs])]
    | sdiv a s =>
      simp only [call, getOp, getScalar, hself a (by simp [Clo.refs]), hself s (by simp [Clo.refs]),
        hap a (by simp [Clo.refs])]

theorem matvec_frame (ord : Nat → List Nat) {σ σ' : Store α} (tr : Bool) (n : Nat) (a : Nat)
    (h : ∀ d, Uses σ a d → σ' d = σ d) (x : List α) (y : Nat) :
    matvec ord n σ' tr a x y = matvec ord n σ tr a x y := by
  refine applyOp_frame h ?_ x y
  intro L c hL hc x
  apply call_frame
  intro b hb d hd
  exact h d (.ref hL hc hb hd)

theorem Acts.frame {ord : Nat → List Nat} {σ σ' : Store α} {tr : Bool} {a r c : Nat} {M : Nat → Nat → α}
    (h : Acts ord σ tr a r c M) (hu : ∀ d, Uses σ a d → σ' d = σ d) : Acts ord σ' tr a r c M where
  op := by
    obtain ⟨L, h1, h2⟩ := h.op
    exact ⟨L, by rw [hu a (.self a)]; exact h1, h2⟩
  call := by
    obtain ⟨n0, h1⟩ := h.call
    exact ⟨n0, fun n hn x hx => by rw [matvec_frame ord tr n a hu]; exact h1 n hn x hx⟩

theorem set_self (σ : Store α) (i : Nat) (c : Cell α) : σ.set i c i = c := by simp [Store.set]

theorem set_ne (σ : Store α) {i j : Nat} (c : Cell α) (h : j ≠ i) : σ.set i c j = σ j := by
  simp [Store.set, h]

theorem Acts.set {ord : Nat → List Nat} {σ : Store α} {tr : Bool} {a r c i : Nat} {M : Nat → Nat → α}
    {x : Cell α} (h : Acts ord σ tr a r c M) (hu : ¬ Uses σ a i) : Acts ord (σ.set i x) tr a r c M :=
  h.frame (fun d hd => set_ne σ x (fun e => hu (e ▸ hd)))

/-! ## Algebra -/

theorem length_image (r c : Nat) (M : Nat → Nat → α) (x : List α) : (image r c M x).length = r := by
  simp [image]

theorem length_product (tr : Bool) (r c : Nat) (M : Nat → Nat → α) (x : List α) :
    (product tr r c M x).length = if tr then c else r := by
  cases tr <;> simp [product, length_image]

theorem getD_image (r c : Nat) (M : Nat → Nat → α) (x : List α) {i : Nat} (hi : i < r) :
    (image r c M x).getD i 0 = mulVec c M (fun j => x.getD j 0) i := by
  simp [image, List.getD_eq_getElem?_getD, hi]

theorem image_congr {r c : Nat} {M N : Nat → Nat → α} {x : List α}
    (h : ∀ i, i < r → mulVec c M (fun j => x.getD j 0) i = mulVec c N (fun j => x.getD j 0) i) :
    image r c M x = image r c N x := by
  apply List.map_congr_left
  intro i hi
  exact h i (List.mem_range.mp hi)

theorem zipWith_range {β γ δ : Type} (f : β → γ → δ) (g : Nat → β) (h : Nat → γ) (r : Nat) :
    List.zipWith f ((List.range r).map g) ((List.range r).map h) = (List.range r).map (fun i => f (g i) (h i)) := by
  simp [List.zipWith_map, List.zipWith_self]

theorem image_add (r c : Nat) (M N : Nat → Nat → α) (x : List α) :
    List.zipWith (fun t v => 1 * t + v) (image r c N x) (image r c M x) =
      image r c (fun i j => M i j + N i j) x := by
  unfold image
  rw [zipWith_range]
  apply List.map_congr_left
  intro i _
  simp only [mulVec, one_mul, add_mul, Finset.sum_add_distrib]
  ring

theorem image_sub (r c : Nat) (M N : Nat → Nat → α) (x : List α) :
    List.zipWith (fun t v => -1 * t + v) (image r c N x) (image r c M x) =
      image r c (fun i j => M i j - N i j) x := by
  unfold image
  rw [zipWith_range]
  apply List.map_congr_left
  intro i _
  simp only [mulVec, sub_mul, Finset.sum_sub_distrib]
  ring

theorem image_scale (r c : Nat) (M : Nat → Nat → α) (s : α) (x : List α) :
    (image r c M x).map (fun t => t * s) = image r c (fun i j => M i j * s) x := by
  unfold image
  rw [List.map_map]
  apply List.map_congr_left
  intro i _
  simp only [Function.comp, mulVec, Finset.sum_mul]
  apply Finset.sum_congr rfl
  intro j _
  ring

theorem sum_getD (x : List α) : x.sum = ∑ j ∈ Finset.range x.length, x.getD j 0 := by
  induction x with
  | nil => simp
  | cons a x ih =>
    rw [List.sum_cons, ih, List.length_cons, Finset.sum_range_succ']
    simp [add_comm]

theorem image_shift (r c : Nat) (M : Nat → Nat → α) (s : α) (x : List α) (hx : x.length = c) :
    (image r c M x).map (fun t => t + s * x.sum) = image r c (fun i j => M i j + s) x := by
  unfold image
  rw [List.map_map]
  apply List.map_congr_left
  intro i _
  subst hx
  simp only [Function.comp, mulVec, add_mul, Finset.sum_add_distrib, sum_getD x, Finset.mul_sum]

theorem image_unshift (r c : Nat) (M : Nat → Nat → α) (s : α) (x : List α) (hx : x.length = c) :
    (image r c M x).map (fun t => t - s * x.sum) = image r c (fun i j => M i j - s) x := by
  unfold image
  rw [List.map_map]
  apply List.map_congr_left
  intro i _
  subst hx
  simp only [Function.comp, mulVec, sub_mul, Finset.sum_sub_distrib, sum_getD x, Finset.mul_sum]

theorem image_mul (r k c : Nat) (M N : Nat → Nat → α) (x : List α) :
    image r k M (image k c N x) = image r c (mulMat k M N) x := by
  apply List.map_congr_left
  intro i _
  simp only [mulVec, mulMat]
  simp only [Finset.sum_mul]
  rw [Finset.sum_comm]
  apply Finset.sum_congr rfl
  intro l hl
  rw [getD_image k c N x (Finset.mem_range.mp hl), mulVec, Finset.mul_sum]
  apply Finset.sum_congr rfl
  intro j _
  ring

/-- A vector of known elements. -/
theorem buf_eq_range {w : Win α} {f : Nat → α} {r : Nat} (hoff : w.off = 0) (hlen : w.buf.length = r)
    (h : ∀ i, i < r → w.get i = .ok (f i)) : w.buf = (List.range r).map f := by
  apply List.ext_getElem
  · simp [hlen]
  · intro i h1 h2
    have := h i (by omega)
    simp only [Win.get, hoff, Nat.zero_add] at this
    rw [rd_eq_ok, List.getElem?_eq_getElem h1] at this
    injection this with this
    simp [this]

theorem win_get (x : List α) (j : Nat) (hj : j < x.length) :
    (⟨x, 0, x.length⟩ : Win α).get j = .ok (x.getD j 0) := by
  simp only [Win.get, Nat.zero_add]
  rw [rd_eq_ok]
  simp [List.getElem?_eq_getElem hj]

theorem crs_mv (A : Crs α) (hA : A.Safe) (order zo : List Nat) (ho : Order order A.rowN) (x : List α)
    (hx : x.length = A.colN) : (Solver.ofCrs order zo A).mv x = .ok (image A.rowN A.colN (crsAt A) x) := by
  have hy : (⟨List.replicate A.rowN (0 : α), 0, A.rowN⟩ : Win α).Ok := by simp [Win.Ok]
  obtain ⟨y, h1, h2, h3⟩ := C16_matvec A hA ⟨x, 0, x.length⟩ ⟨List.replicate A.rowN 0, 0, A.rowN⟩ hx rfl hy
    (fun j => x.getD j 0) (win_get x) order ho
  simp only [Solver.ofCrs, h1, Res.ok_bind]
  congr 1
  exact buf_eq_range h2.off (by rw [h2.len]; simp) h3

theorem dense_mv (A : Dense α) (hA : A.WF) (order : List Nat) (f : Nat → Nat → α) (hf : A.Reads f) (x : List α)
    (hx : x.length = A.colN) : (Solver.ofDense order A).mv x = .ok (image A.rowN A.colN f x) := by
  have hy : (⟨List.replicate A.rowN (0 : α), 0, A.rowN⟩ : Win α).Ok := by simp [Win.Ok]
  obtain ⟨y, h1, h2, h3⟩ := (C17_dense A hA ⟨x, 0, x.length⟩ ⟨List.replicate A.rowN 0, 0, A.rowN⟩ 1 0 f hf hy
    (fun j => x.getD j 0) (win_get x)).1 hx rfl
  simp only [Solver.ofDense, h1, Res.ok_bind]
  congr 1
  refine buf_eq_range h2.off (by rw [h2.len]; simp) (fun i hi => ?_)
  rw [h3 i 0 hi (by simp only [Win.get, Nat.zero_add]; rw [rd_eq_ok]; simp [hi])]
  simp

end LinOp
end Verif
