import Verif.Model.Matvec
import Verif.Lemmas.RowLoop
import Verif.Lemmas.DenseBasic

/-! Lemmas about accumulation loops and the reference BLAS kernels. -/

namespace Verif

open Spec

variable {α : Type}

theorem forN_acc [AddCommMonoid α] {n : Nat} {body : Nat → α → Res α} (f : Nat → α) (z : α)
    (h : ∀ j acc, j < n → body j acc = .ok (acc + f j)) :
    forN n body z = .ok (z + ∑ j ∈ Finset.range n, f j) := by
  obtain ⟨r, hr, hP⟩ := forN_sat (n := n) (body := body) (s := z)
    (fun i acc => acc = z + ∑ j ∈ Finset.range i, f j) (by simp)
    (by
      rintro i acc hi rfl
      rw [h i _ hi, Res.sat_ok, Finset.sum_range_succ, add_assoc])
  rw [hr, hP]

theorem Win.get_ok {w : Win α} (h : w.Ok) {i : Nat} (hi : i < w.size) :
    ∃ v, w.get i = .ok v ∧ w.buf[w.off + i]? = some v := by
  unfold Win.Ok at h
  refine ⟨w.buf[w.off + i]'(by omega), rd_ok _, by simp⟩

/-- Updating a window element by element, in any order: iteration `i` replaces the element `i`,
reading at most its old value. -/
theorem forList_update (order : List Nat) (N o : Nat) (f : Nat → α → α) (ho : Order order N)
    {body : Nat → List α → Res (List α)} (s : List α) (hl : o + N ≤ s.length)
    (hbody : ∀ i (t : List α) u, i < N → t.length = s.length → t[o + i]? = some u →
      body i t = wr t (o + i) (f i u)) :
    ∃ r, forList order body s = .ok r ∧ r.length = s.length ∧
      (∀ i u, i < N → s[o + i]? = some u → r[o + i]? = some (f i u)) ∧
      (∀ k, k < o ∨ o + N ≤ k → r[k]? = s[k]?) := by
  obtain ⟨r, hr, hrl, h1, h2⟩ := forList_points order (fun i => o + i) f
    (ho.nodup.map (fun a b h => by simpa using h)) (body := body) s
    (fun i hi => by have := ho.mem.mp hi; omega)
    (fun i t u hi => hbody i t u (ho.mem.mp hi))
  refine ⟨r, hr, hrl, fun i u hi hu => h1 i u (ho.mem.mpr hi) hu, fun k hk => h2 k ?_⟩
  intro i hi; have := ho.mem.mp hi; omega

theorem forN_update (N o : Nat) (f : Nat → α → α)
    {body : Nat → List α → Res (List α)} (s : List α) (hl : o + N ≤ s.length)
    (hbody : ∀ i (t : List α) u, i < N → t.length = s.length → t[o + i]? = some u →
      body i t = wr t (o + i) (f i u)) :
    ∃ r, forN N body s = .ok r ∧ r.length = s.length ∧
      (∀ i u, i < N → s[o + i]? = some u → r[o + i]? = some (f i u)) ∧
      (∀ k, k < o ∨ o + N ≤ k → r[k]? = s[k]?) := by
  rw [forN_eq_forList]
  exact forList_update _ N o f (Order.range N) s hl hbody

/-- the reference `gemv` on in-range arguments -/
theorem gemv_ok [NonUnitalNonAssocSemiring α] (trans : Bool) (m n : Nat) (alpha beta : α)
    (A : List α) (oA : Nat) (x y : Win α) (a : Nat → Nat → α) (xs : Nat → α)
    (ha : ∀ i j, i < m → j < n → A[oA + (i * n + j)]? = some (a i j))
    (hx : ∀ j, j < (if trans then m else n) → x.get j = .ok (xs j)) (hy : y.Ok)
    (hys : y.size = if trans then n else m) :
    ∃ y', gemv trans m n alpha A oA n x beta y = .ok y' ∧ y.Updated y' ∧
      ∀ i u, i < y.size → y.get i = .ok u →
        y'.get i = .ok (alpha * (if trans then mulVec m (fun i j => a j i) xs i
          else mulVec n a xs i) + beta * u) := by
  unfold Win.Ok at hy
  obtain ⟨r, hr, hrl, h1, h2⟩ := forN_update y.size y.off
    (fun i u => alpha * (if trans then mulVec m (fun i j => a j i) xs i
          else mulVec n a xs i) + beta * u) (s := y.buf) hy
    (body := fun i b => do
      let t ← forN (if trans then m else n) (fun j acc => do
        let u ← rd A (oA + (if trans then j * n + i else i * n + j))
        let v ← rd x.buf (x.off + j)
        .ok (acc + u * v)) 0
      let o ← rd b (y.off + i)
      wr b (y.off + i) (alpha * t + beta * o))
    (by
      intro i t u hi ht hu
      have hdot : forN (if trans then m else n) (fun j acc => do
          let u ← rd A (oA + (if trans then j * n + i else i * n + j))
          let v ← rd x.buf (x.off + j)
          .ok (acc + u * v)) 0 =
          .ok (if trans then mulVec m (fun i j => a j i) xs i else mulVec n a xs i) := by
        cases trans with
        | false =>
          simp only [Bool.false_eq_true, if_false] at hx hys ⊢
          rw [forN_acc (fun j => a i j * xs j)]
          · simp [mulVec]
          · intro j acc hj
            rw [rd_of_getElem? (ha i j (by omega) hj)]
            have := hx j hj; unfold Win.get at this
            simp only [Res.ok_bind, this]
        | true =>
          simp only [if_true] at hx hys ⊢
          rw [forN_acc (fun j => a j i * xs j)]
          · simp [mulVec]
          · intro j acc hj
            rw [rd_of_getElem? (ha j i hj (by omega))]
            have := hx j hj; unfold Win.get at this
            simp only [Res.ok_bind, this]
      rw [hdot, Res.ok_bind, rd_of_getElem? hu, Res.ok_bind])
  unfold gemv
  rw [hys] at hr
  simp only
  rw [hr, Res.ok_bind]
  refine ⟨_, rfl, ⟨rfl, rfl, hrl, fun k hk => h2 k hk⟩, ?_⟩
  intro i u hi hu
  unfold Win.get at hu ⊢
  rw [rd_eq_ok] at hu
  rw [rd_eq_ok]
  exact h1 i u hi hu

end Verif
