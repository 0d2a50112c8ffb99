import Verif.Props.GapBi
import Verif.Props.CG
import Verif.Props.BiCG
import Verif.Lemmas.GapCrs
import Verif.Lemmas.FpNum
import Verif.Props.RoundMore
import Mathlib.Analysis.InnerProductSpace.PiL2

/-!
C103: what SUCCESS says about the true residual, in floating-point arithmetic.
-/

namespace Verif.Gap

open Verif.Spec Verif.Solver Verif.Round

variable {F : Type} [Zero F] [Add F] [Mul F] {R : Rounding F} {N : Num F} {n : Nat}

theorem euclid_eq (v : Fin n → ℝ) : euclid v = ‖WithLp.toLp 2 v‖ := by
  unfold euclid
  rw [EuclideanSpace.norm_eq]
  simp

theorem euclid_add (v w : Fin n → ℝ) : euclid (v + w) ≤ euclid v + euclid w := by
  simp only [euclid_eq, WithLp.toLp_add]
  exact norm_add_le _ _

theorem euclid_mono {v w : Fin n → ℝ} (h : ∀ i, |v i| ≤ w i) : euclid v ≤ euclid w := by
  apply Real.sqrt_le_sqrt
  refine Finset.sum_le_sum (fun i _ => ?_)
  rw [← sq_abs (v i)]
  exact pow_le_pow_left₀ (abs_nonneg _) (h i) 2

/-- the computed norm of a list of floating-point numbers -/
theorem norm_near (hN : RoundedNum R N) (hR : RoundedNorm R N)
    {r : List F} (hr : r.length = n) (hf : R.Finite (N.nrm2 r)) :
    AllFinite R r ∧ |R.val (N.nrm2 r) - euclid (vals R n r)| ≤ ((1 + R.u) ^ (n + 1) - 1) * euclid (vals R n r)
      + (1 + R.u) * √((1 + R.u) ^ (n - 1) * (n * R.η)) := by
  let f : Nat → F := fun i => (r[i]?).getD 0
  have hf' : ∀ i, i < n → r[0 + i]? = some (f i) := by
    intro i hi
    rw [Nat.zero_add]
    simp [f, List.getElem?_eq_getElem (show i < r.length by omega)]
  obtain ⟨t, ht, hs⟩ := hR.sum (List.zipWith N.mul r r)
  have hl : (List.zipWith N.mul r r).length = n := by simp [hr]
  rw [hl] at ht
  have hb : ∀ i, i < n → ∀ acc : F, (do let u ← rd (List.zipWith N.mul r r) (0 + i); Res.ok (acc + u)) =
      .ok (acc + (fun i => f i * f i) i) := by
    intro i hi acc
    have : (List.zipWith N.mul r r)[0 + i]? = some (f i * f i) := by
      rw [Nat.zero_add, List.getElem?_zipWith]
      have hi' : i < r.length := by omega
      simp [f, List.getElem?_eq_getElem hi', hN.mul]
    rw [rd_of_getElem? this, Res.ok_bind]
  have hfin := (hR.sqrt _ hf).1
  have key := reduction_near (R := R) ht hb hs hfin
  refine ⟨allFinite_of hr (fun i => (R.mul_finite _ _ (key.1 i i.2)).1), ?_⟩
  have near := near_dot (R := R) (l := List.range n) (a := f) (b := f) (fun i hi => key.1 i (by simpa using hi)) key.2
  unfold NearDot at near
  rw [List.map_map, List.length_map, List.length_range] at near
  obtain ⟨h1, h2, h3⟩ := hR.sqrt _ hf
  have h4 : |R.val (N.sum (List.zipWith N.mul r r)) - ∑ i ∈ Finset.range n, R.val (f i) ^ 2| ≤
      ((1 + R.u) ^ n - 1) * ∑ i ∈ Finset.range n, R.val (f i) ^ 2 + (1 + R.u) ^ (n - 1) * (n * R.η) := by
    have e : ∑ i ∈ Finset.range n, |R.val (f i) * R.val (f i)| = ∑ i ∈ Finset.range n, R.val (f i) ^ 2 :=
      Finset.sum_congr rfl (fun i _ => by rw [abs_mul_self, sq])
    have e' : ∑ i ∈ Finset.range n, R.val (f i) * R.val (f i) = ∑ i ∈ Finset.range n, R.val (f i) ^ 2 :=
      Finset.sum_congr rfl (fun i _ => by rw [sq])
    rw [← e']
    nth_rewrite 2 [e']
    rw [← e]
    exact near
  have en : euclid (vals R n r) = √(∑ i ∈ Finset.range n, R.val (f i) ^ 2) := by
    unfold euclid vals
    rw [Finset.sum_range]
  rw [en]
  have hS : 0 ≤ ∑ i ∈ Finset.range n, R.val (f i) ^ 2 := Finset.sum_nonneg (fun i _ => sq_nonneg _)
  have hu := R.u_nonneg
  have hη := R.η_nonneg
  have hw : 1 ≤ (1 + R.u) ^ n := one_le_pow₀ one_le_w
  have hh : 0 ≤ (1 + R.u) ^ (n - 1) * (n * R.η) := by positivity
  have key := sqrt_near hS h2 (by linarith) hh h4
  have p1 := Real.sqrt_nonneg (∑ i ∈ Finset.range n, R.val (f i) ^ 2)
  have p2 := Real.sqrt_nonneg ((1 + R.u) ^ (n - 1) * (n * R.η))
  rw [pow_succ]
  change |R.val (N.sqrt (N.sum (List.zipWith N.mul r r))) - _| ≤ _
  generalize √(∑ i ∈ Finset.range n, R.val (f i) ^ 2) = a at *
  generalize √(R.val (N.sum (List.zipWith N.mul r r))) = b at *
  generalize √((1 + R.u) ^ (n - 1) * (n * R.η)) = c at *
  generalize (1 + R.u) ^ n = W at *
  have hb : b ≤ W * a + c := by
    have := (abs_le.1 key).2
    linarith
  have t : |R.val (N.sqrt (N.sum (List.zipWith N.mul r r))) - a| ≤
      |R.val (N.sqrt (N.sum (List.zipWith N.mul r r))) - b| + |b - a| := by
    simpa using abs_add_le (R.val (N.sqrt (N.sum (List.zipWith N.mul r r))) - b) (b - a)
  have q := mul_le_mul_of_nonneg_left hb hu
  calc _ ≤ R.u * (W * a + c) + ((W - 1) * a + c) := by linarith
    _ = (W * (1 + R.u) - 1) * a + (1 + R.u) * c := by ring

/-- from the computed norm to the norm -/
theorem norm_le (hN : RoundedNum R N) (hR : RoundedNorm R N) {r : List F} (hr : r.length = n)
    (hf : R.Finite (N.nrm2 r)) (hε : (1 + R.u) ^ (n + 1) < 2) {tol : ℝ} (h : R.val (N.nrm2 r) ≤ tol) :
    euclid (vals R n r) ≤ (tol + (1 + R.u) * √((1 + R.u) ^ (n - 1) * (n * R.η))) / (2 - (1 + R.u) ^ (n + 1)) := by
  have h1 := (abs_le.1 (norm_near hN hR hr hf).2).1
  rw [le_div_iff₀ (by linarith)]
  generalize euclid (vals R n r) = a at *
  generalize (1 + R.u) ^ (n + 1) = W at *
  linarith

/-- the rounding errors of the test and of the recurrences together -/
theorem success (hN : RoundedNum R N) (hR : RoundedNorm R N) (hε : (1 + R.u) ^ (n + 1) < 2)
    {M : Matrix (Fin n) (Fin n) ℝ} {b x r : List F} (hr : r.length = n) (hf : R.Finite (N.nrm2 r)) {tol : ℝ}
    (h : R.val (N.nrm2 r) ≤ tol) {g : Fin n → ℝ}
    (hg : ∀ i, |vals R n b i - ∑ l, M i l * vals R n x l - vals R n r i| ≤ g i) :
    euclid (fun i => vals R n b i - ∑ l, M i l * vals R n x l) ≤
      (tol + (1 + R.u) * √((1 + R.u) ^ (n - 1) * (n * R.η))) / (2 - (1 + R.u) ^ (n + 1)) + euclid g := by
  have e : (fun i => vals R n b i - ∑ l, M i l * vals R n x l) =
      vals R n r + (fun i => vals R n b i - ∑ l, M i l * vals R n x l - vals R n r i) := by
    funext i
    simp
  rw [e]
  exact (euclid_add _ _).trans (add_le_add (norm_le hN hR hr hf hε h) (euclid_mono hg))

/-- **C103 (SUCCESS of CG, CRS matrices)**: if `CG::solve` returns SUCCESS in floating-point arithmetic, the norm of
the **true** residual `b - A x` is at most the tolerance, up to the rounding errors of `nrm2`, plus the norm of the
losses of the `k` iterations and of the first residual. -/
theorem C103_success [One F] (hN : RoundedNum R N) (hR : RoundedNorm R N) (hu : R.u ≤ 1 / 8)
    (hε : (1 + R.u) ^ (n + 1) < 2) (A : Crs F) (hA : A.Safe) (hr : A.rowN = n) (hc : A.colN = n)
    (order zo : List Nat) (ho : Order order A.rowN) (nz : Nat) (hnz : ∀ i, i < n → (A.rowEntries i).length ≤ nz)
    {pc : List F → Res (List F)} {x b : List F} (hx : x.length = n) (hb : b.length = n) {cfg : Cfg F}
    (hl : cfg.lib = 0) {out : Out F} (h : CG.solve N cfg (ofCrs order zo A) (.ok pc) x b = .ok out)
    (hs : out.status = SUCCESS) (fx : AllFinite R out.x) (fr : R.Finite out.finalResid) (ft : R.Finite cfg.tol) :
    ∃ s : Nat → CG.St F, CG.init N (ofCrs order zo A) pc x b = .ok (s 0) ∧
      (∀ j, j < out.finalIter → CG.step N (ofCrs order zo A) pc (s j) = .ok (s (j + 1))) ∧
      out.x = (s out.finalIter).x ∧ out.finalResid = N.nrm2 (s out.finalIter).r ∧
      ∀ (X Y : Fin n → ℝ) (a : ℝ), 0 ≤ a →
        (∀ j, j ≤ out.finalIter → ∀ i, |vals R n (s j).x i| ≤ X i) →
        (∀ j, j ≤ out.finalIter → ∀ i, |vals R n (s j).r i| ≤ Y i) →
        (∀ j q zr pq, j < out.finalIter → (ofCrs order zo A).mv (s j).p = .ok q → N.dot (s j).z (s j).r = .ok zr →
          N.dot (s j).p q = .ok pq → |R.val (N.div zr pq)| ≤ a) →
        euclid (fun i => vals R n b i - ∑ l, crsVal R A n i l * vals R n out.x l) ≤
          (R.val cfg.tol + (1 + R.u) * √((1 + R.u) ^ (n - 1) * (n * R.η))) / (2 - (1 + R.u) ^ (n + 1)) +
          euclid (fun i => (out.finalIter + 1) *
            loss R (crsAbs R A n) ((1 + R.u) ^ nz - 1) ((1 + R.u) ^ nz * (nz * R.η)) X Y a i +
            (1 + R.u) ^ nz * (nz * R.η)) := by
  have hM := rounded_crs R A hA hr hc order zo ho nz hnz
  obtain ⟨s, h1, h2, h3, h4, h5⟩ := C103_cg hN hu hM hx hb hl h
  refine ⟨s, h1, h2, h3, h4, fun X Y a ha bx br ba => ?_⟩
  have hlen : (s out.finalIter).r.length = n := (cg_len hM hx hb h1 h2 out.finalIter le_rfl).2
  rw [h4] at fr
  have hlt := (C29_status N cfg hl _ _ x b out h).success hs
  rw [h4] at hlt
  exact success hN hR hε hlen fr (hR.lt _ _ fr ft hlt.2.1).le
    (h5 fx (norm_near hN hR hlen fr).1 X Y a ha bx br ba)

end Verif.Gap
