import Verif.Spec.GapSpec
import Mathlib.Tactic.Linarith
import Mathlib.Tactic.Ring
import Mathlib.Algebra.Order.BigOperators.Group.Finset
import Mathlib.Algebra.Order.BigOperators.Ring.Finset

/-!
Rounding errors of coupled updates of an approximation and its residual (C103).
-/

namespace Verif.Gap

open Verif.Spec Verif.Solver

variable {F : Type} [Zero F] [Add F] [Mul F] {R : Rounding F} {N : Num F} {n : Nat}

/-- `x' = fl(fl(a p) + x)` -/
theorem axpy_err (hN : RoundedNum R N) (hu : R.u ≤ 1 / 8) {a p x : F} (hf : R.Finite (N.add (N.mul a p) x)) {X : ℝ}
    (hx : |R.val x| ≤ X) (hx' : |R.val (N.add (N.mul a p) x)| ≤ X) :
    R.Finite a ∧ R.Finite p ∧ R.Finite x ∧
      |R.val (N.add (N.mul a p) x) - (R.val x + R.val a * R.val p)| ≤ 4 * R.u * X + 2 * R.η ∧
      |R.val a * R.val p| ≤ 3 * X + 2 * R.η := by
  rw [hN.add, hN.mul] at *
  have f1 := R.add_finite _ _ hf
  have f2 := R.mul_finite _ _ f1.1
  have e1 := R.add_err _ _ hf
  have e2 := R.mul_err _ _ f1.1
  refine ⟨f2.1, f2.2, f1.2, ?_⟩
  generalize R.val (a * p + x) = x' at *
  generalize R.val (a * p) = w at *
  generalize R.val a * R.val p = ap at *
  generalize R.val x = x0 at *
  have hu0 := R.u_nonneg
  have hη := R.η_nonneg
  have hX : 0 ≤ X := (abs_nonneg _).trans hx
  have h1 : R.u * |w + x0| ≤ 1 / 8 * |w + x0| := mul_le_mul_of_nonneg_right hu (abs_nonneg _)
  have h2 : R.u * |ap| ≤ 1 / 8 * |ap| := mul_le_mul_of_nonneg_right hu (abs_nonneg _)
  have h3 : |w + x0| ≤ |x'| + |x' - (w + x0)| := by
    have := abs_sub_abs_le_abs_sub (w + x0) x'
    rw [abs_sub_comm] at this
    linarith
  have h4 : |w + x0| ≤ 8 / 7 * X := by linarith
  have h5 : |w| ≤ |w + x0| + |x0| := by
    have := abs_sub (w + x0) x0
    rw [add_sub_cancel_right] at this
    exact this
  have h6 : |ap| ≤ |w| + |w - ap| := by
    have := abs_sub_abs_le_abs_sub ap w
    rw [abs_sub_comm] at this
    linarith
  have h7 : |ap| ≤ 120 / 49 * X + 8 / 7 * R.η := by linarith
  refine ⟨?_, by linarith⟩
  have h8 : |x' - (x0 + ap)| ≤ |x' - (w + x0)| + |w - ap| := by
    have := abs_add_le (x' - (w + x0)) (w - ap)
    have e : x' - (w + x0) + (w - ap) = x' - (x0 + ap) := by ring
    rw [e] at this
    exact this
  have h9 : R.u * |w + x0| ≤ R.u * (8 / 7 * X) := mul_le_mul_of_nonneg_left h4 hu0
  have h10 : R.u * |ap| ≤ R.u * (120 / 49 * X + 8 / 7 * R.η) := mul_le_mul_of_nonneg_left h7 hu0
  have h11 : R.u * R.η ≤ 1 / 8 * R.η := mul_le_mul_of_nonneg_right hu hη
  have h12 : 0 ≤ R.u * X := mul_nonneg hu0 hX
  nlinarith

/-- `r = fl(b - q)` -/
theorem sub_err' (hN : RoundedNum R N) (hu : R.u ≤ 1 / 8) {b q : F} (hf : R.Finite (N.sub b q)) {X : ℝ}
    (hx : |R.val (N.sub b q)| ≤ X) : |R.val (N.sub b q) - (R.val b - R.val q)| ≤ 4 * R.u * X := by
  have e := hN.sub_err _ _ hf
  generalize R.val (N.sub b q) = r at *
  generalize R.val b - R.val q = d at *
  have hu0 := R.u_nonneg
  have h1 : R.u * |d| ≤ 1 / 8 * |d| := mul_le_mul_of_nonneg_right hu (abs_nonneg _)
  have h3 : |d| ≤ |r| + |r - d| := by
    have := abs_sub_abs_le_abs_sub d r
    rw [abs_sub_comm] at this
    linarith
  have h4 : |d| ≤ 8 / 7 * X := by linarith
  have h5 := mul_le_mul_of_nonneg_left h4 hu0
  have hX : 0 ≤ X := (abs_nonneg _).trans hx
  have := mul_nonneg hu0 hX
  nlinarith

theorem vals_zipWith {f : F → F → F} {p x : List F} (hp : p.length = n) (hx : x.length = n) (i : Fin n) :
    vals R n (List.zipWith f p x) i = R.val (f ((p[(i : Nat)]?).getD 0) ((x[(i : Nat)]?).getD 0)) := by
  have h1 : (i : Nat) < p.length := by omega
  have h2 : (i : Nat) < x.length := by omega
  have h3 : (i : Nat) < (List.zipWith f p x).length := by rw [List.length_zipWith]; omega
  unfold vals
  rw [List.getElem?_eq_getElem h3, List.getElem?_eq_getElem h1, List.getElem?_eq_getElem h2, List.getElem_zipWith]
  rfl

theorem finite_zipWith {f : F → F → F} {p x : List F} (hp : p.length = n) (hx : x.length = n)
    (h : AllFinite R (List.zipWith f p x)) (i : Fin n) :
    R.Finite (f ((p[(i : Nat)]?).getD 0) ((x[(i : Nat)]?).getD 0)) := by
  have h1 : (i : Nat) < p.length := by omega
  have h2 : (i : Nat) < x.length := by omega
  have h3 : (i : Nat) < (List.zipWith f p x).length := by rw [List.length_zipWith]; omega
  rw [List.getElem?_eq_getElem h1, List.getElem?_eq_getElem h2]
  have := h _ (List.getElem_mem h3)
  rw [List.getElem_zipWith] at this
  exact this

theorem allFinite_of {l : List F} (hl : l.length = n) (h : ∀ i : Fin n, R.Finite ((l[(i : Nat)]?).getD 0)) :
    AllFinite R l := by
  intro a ha
  obtain ⟨i, hi, rfl⟩ := List.getElem_of_mem ha
  have := h ⟨i, by omega⟩
  rw [List.getElem?_eq_getElem hi] at this
  exact this

/-- difference of the true residual and `r` -/
noncomputable def gap (R : Rounding F) (M : Matrix (Fin n) (Fin n) ℝ) (b x r : List F) (i : Fin n) : ℝ :=
  vals R n b i - ∑ l, M i l * vals R n x l - vals R n r i

/-- **one coupled update** `q = A p`, `x' = x + a p`, `r' = r - a q` in floating-point arithmetic -/
theorem update (hN : RoundedNum R N) (hu : R.u ≤ 1 / 8) {A : Mat F} {M Ma : Matrix (Fin n) (Fin n) ℝ} {γ τ : ℝ}
    (hA : RoundedMat R A M Ma γ τ) {a : F} {p q x x' r r' b : List F} (hp : p.length = n) (hx : x.length = n)
    (hr : r.length = n) (hq : A.mv p = .ok q) (ex : x' = List.zipWith (fun u v => N.add (N.mul a u) v) p x)
    (er : r' = List.zipWith (fun u v => N.add (N.mul (N.neg a) u) v) q r)
    (fx : AllFinite R x') (fr : AllFinite R r') {X Y : Fin n → ℝ} {α : ℝ}
    (bx : ∀ i, |vals R n x i| ≤ X i) (bx' : ∀ i, |vals R n x' i| ≤ X i)
    (br : ∀ i, |vals R n r i| ≤ Y i) (br' : ∀ i, |vals R n r' i| ≤ Y i) (ba : |R.val a| ≤ α) :
    AllFinite R x ∧ AllFinite R r ∧
      ∀ i, |gap R M b x' r' i - gap R M b x r i| ≤ loss R Ma γ τ X Y α i := by
  obtain ⟨hql, hqe⟩ := hA.mv p q hp hq
  have kx : ∀ i : Fin n, _ := fun i => axpy_err hN hu (a := a) (p := (p[(i : Nat)]?).getD 0)
    (x := (x[(i : Nat)]?).getD 0) (X := X i) (by subst ex; exact finite_zipWith hp hx fx i) (bx i)
    (by have := bx' i; rw [ex, vals_zipWith hp hx] at this; exact this)
  have kr : ∀ i : Fin n, _ := fun i => axpy_err hN hu (a := N.neg a) (p := (q[(i : Nat)]?).getD 0)
    (x := (r[(i : Nat)]?).getD 0) (X := Y i) (by subst er; exact finite_zipWith hql hr fr i) (br i)
    (by have := br' i; rw [er, vals_zipWith hql hr] at this; exact this)
  have fq : AllFinite R q := allFinite_of hql (fun i => (kr i).2.1)
  refine ⟨allFinite_of hx (fun i => (kx i).2.2.1), allFinite_of hr (fun i => (kr i).2.2.1), fun i => ?_⟩
  -- errors
  have exi : ∀ l, |vals R n x' l - (vals R n x l + R.val a * vals R n p l)| ≤ 4 * R.u * X l + 2 * R.η := by
    intro l
    rw [ex, vals_zipWith hp hx]
    exact (kx l).2.2.2.1
  have eri : |vals R n r' i - (vals R n r i - R.val a * vals R n q i)| ≤ 4 * R.u * Y i + 2 * R.η := by
    rw [er, vals_zipWith hql hr]
    have := (kr i).2.2.2.1
    rw [hN.neg_val, neg_mul, ← sub_eq_add_neg] at this
    exact this
  have eqi := hqe fq i
  have hap : ∀ l, |R.val a * vals R n p l| ≤ 3 * X l + 2 * R.η := fun l => (kx l).2.2.2.2
  -- decomposition
  have hMa : ∀ l, 0 ≤ Ma i l := fun l => (abs_nonneg _).trans (hA.abs_le i l)
  have key : gap R M b x' r' i - gap R M b x r i =
      R.val a * (vals R n q i - ∑ l, M i l * vals R n p l)
      - (∑ l, M i l * (vals R n x' l - (vals R n x l + R.val a * vals R n p l)))
      - (vals R n r' i - (vals R n r i - R.val a * vals R n q i)) * 1
      - (R.val a * vals R n q i - R.val a * vals R n q i) := by
    unfold gap
    have e : ∑ l, M i l * (vals R n x' l - (vals R n x l + R.val a * vals R n p l)) =
        ∑ l, M i l * vals R n x' l - ∑ l, M i l * vals R n x l - R.val a * ∑ l, M i l * vals R n p l := by
      rw [Finset.mul_sum, ← Finset.sum_sub_distrib, ← Finset.sum_sub_distrib]
      refine Finset.sum_congr rfl (fun l _ => ?_)
      ring
    rw [e]
    ring
  rw [key, mul_one, sub_self, sub_zero]
  have h1 : |R.val a * (vals R n q i - ∑ l, M i l * vals R n p l)| ≤
      γ * (∑ l, Ma i l * (3 * X l + 2 * R.η)) + α * τ := by
    rw [abs_mul]
    calc |R.val a| * |vals R n q i - ∑ l, M i l * vals R n p l|
        ≤ |R.val a| * (γ * ∑ l, Ma i l * |vals R n p l| + τ) := mul_le_mul_of_nonneg_left eqi (abs_nonneg _)
      _ = γ * (∑ l, Ma i l * |R.val a * vals R n p l|) + |R.val a| * τ := by
          rw [mul_add, Finset.mul_sum, Finset.mul_sum, Finset.mul_sum]
          congr 1
          refine Finset.sum_congr rfl (fun l _ => ?_)
          rw [abs_mul]; ring
      _ ≤ _ := by
          refine add_le_add (mul_le_mul_of_nonneg_left ?_ hA.γ_nonneg) (mul_le_mul_of_nonneg_right ba hA.τ_nonneg)
          exact Finset.sum_le_sum (fun l _ => mul_le_mul_of_nonneg_left (hap l) (hMa l))
  have h2 : |∑ l, M i l * (vals R n x' l - (vals R n x l + R.val a * vals R n p l))| ≤
      ∑ l, Ma i l * (4 * R.u * X l + 2 * R.η) := by
    refine (Finset.abs_sum_le_sum_abs _ _).trans (Finset.sum_le_sum (fun l _ => ?_))
    rw [abs_mul]
    exact mul_le_mul (hA.abs_le i l) (exi l) (abs_nonneg _) (hMa l)
  have e1 : ∑ l, Ma i l * (3 * X l + 2 * R.η) = 3 * (∑ l, Ma i l * X l) + 2 * R.η * ∑ l, Ma i l := by
    rw [Finset.mul_sum, Finset.mul_sum, ← Finset.sum_add_distrib]
    refine Finset.sum_congr rfl (fun l _ => ?_)
    ring
  have e2 : ∑ l, Ma i l * (4 * R.u * X l + 2 * R.η) = 4 * R.u * (∑ l, Ma i l * X l) + 2 * R.η * ∑ l, Ma i l := by
    rw [Finset.mul_sum, Finset.mul_sum, ← Finset.sum_add_distrib]
    refine Finset.sum_congr rfl (fun l _ => ?_)
    ring
  rw [e1] at h1
  rw [e2] at h2
  have h3 := (abs_sub (R.val a * (vals R n q i - ∑ l, M i l * vals R n p l) -
    ∑ l, M i l * (vals R n x' l - (vals R n x l + R.val a * vals R n p l)))
    (vals R n r' i - (vals R n r i - R.val a * vals R n q i)))
  have h4 := abs_sub (R.val a * (vals R n q i - ∑ l, M i l * vals R n p l))
    (∑ l, M i l * (vals R n x' l - (vals R n x l + R.val a * vals R n p l)))
  unfold loss
  nlinarith

/-- the start `q = A x`, `r = b - q` -/
theorem start (hN : RoundedNum R N) (hu : R.u ≤ 1 / 8) {A : Mat F} {M Ma : Matrix (Fin n) (Fin n) ℝ} {γ τ : ℝ}
    (hA : RoundedMat R A M Ma γ τ) {x q r b : List F} (hx : x.length = n) (hb : b.length = n)
    (hq : A.mv x = .ok q) (er : r = List.zipWith N.sub b q) (fr : AllFinite R r) {X Y : Fin n → ℝ} {α : ℝ}
    (bx : ∀ i, |vals R n x i| ≤ X i) (br : ∀ i, |vals R n r i| ≤ Y i) (hα : 0 ≤ α) :
    ∀ i, |gap R M b x r i| ≤ loss R Ma γ τ X Y α i + τ := by
  intro i
  obtain ⟨hql, hqe⟩ := hA.mv x q hx hq
  have k : ∀ i : Fin n, R.Finite _ := fun i => by
    have := fr
    rw [er] at this
    exact finite_zipWith hb hql this i
  have fq : AllFinite R q := allFinite_of hql (fun i => (hN.sub_finite _ _ (k i)).2)
  have eqi := hqe fq i
  have eri : |vals R n r i - (vals R n b i - vals R n q i)| ≤ 4 * R.u * Y i := by
    have h := br i
    rw [er, vals_zipWith hb hql] at h ⊢
    exact sub_err' hN hu (k i) h
  have hMa : ∀ l, 0 ≤ Ma i l := fun l => (abs_nonneg _).trans (hA.abs_le i l)
  have h1 : γ * ∑ l, Ma i l * |vals R n x l| ≤ γ * ∑ l, Ma i l * X l :=
    mul_le_mul_of_nonneg_left (Finset.sum_le_sum (fun l _ => mul_le_mul_of_nonneg_left (bx l) (hMa l))) hA.γ_nonneg
  have hMX : 0 ≤ ∑ l, Ma i l * X l :=
    Finset.sum_nonneg (fun l _ => mul_nonneg (hMa l) ((abs_nonneg _).trans (bx l)))
  have hM1 : 0 ≤ ∑ l, Ma i l := Finset.sum_nonneg (fun l _ => hMa l)
  have key : gap R M b x r i = (vals R n q i - ∑ l, M i l * vals R n x l) -
      (vals R n r i - (vals R n b i - vals R n q i)) := by
    unfold gap; ring
  rw [key]
  have h2 := abs_sub (vals R n q i - ∑ l, M i l * vals R n x l) (vals R n r i - (vals R n b i - vals R n q i))
  have hγ := hA.γ_nonneg
  have hu0 := R.u_nonneg
  have hη := R.η_nonneg
  have hτ := hA.τ_nonneg
  have g1 := mul_nonneg hγ hMX
  have g2 := mul_nonneg hu0 hMX
  have g3 := mul_nonneg (mul_nonneg (add_nonneg hγ zero_le_one) hη) hM1
  have g4 := mul_nonneg hα hτ
  unfold loss
  nlinarith

end Verif.Gap
