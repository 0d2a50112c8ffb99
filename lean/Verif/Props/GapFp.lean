import Verif.Props.GapCrs
import Mathlib.Analysis.Complex.ExponentialBounds

/-!
C103 for BiCGSTAB, for the formats `float` and `double`, and a run that meets the hypotheses.
-/

namespace Verif.Gap

open Verif.Spec Verif.Solver Verif.Round

section
variable {F : Type} [Zero F] [Add F] [Mul F] {R : Rounding F} {N : Num F} {n : Nat}

/-- **C103 (SUCCESS of BiCGSTAB, CRS matrices)**: if `BiCGSTAB::solve` returns SUCCESS in floating-point arithmetic,
the norm of the **true** residual `b - A x` is at most the tolerance, up to the rounding errors of `nrm2`, plus the
norm of the losses of the `2k` updates and of the first residual. -/
theorem C103_bicgstab_success [One F] (hN : RoundedNum R N) (hR : RoundedNorm R N) (hu : R.u ≤ 1 / 8)
    (hε : (1 + R.u) ^ (n + 1) < 2) (A : Crs F) (hA : A.Safe) (hr : A.rowN = n) (hc : A.colN = n)
    (order zo : List Nat) (ho : Order order A.rowN) (nz : Nat) (hnz : ∀ i, i < n → (A.rowEntries i).length ≤ nz)
    {pc : List F → Res (List F)} {x b : List F} (hx : x.length = n) (hb : b.length = n) {cfg : Cfg F}
    (hl : cfg.lib = 0) {out : Out F} (h : BiCG.solve N cfg (ofCrs order zo A) (.ok pc) x b = .ok out)
    (hs : out.status = SUCCESS) (fx : AllFinite R out.x) (fr : R.Finite out.finalResid) (ft : R.Finite cfg.tol) :
    ∃ (q r0 : List F) (s : Nat → BiCG.St F) (h : Nat → BiMid F),
      (ofCrs order zo A).mv x = .ok q ∧ N.vsub b q n = .ok r0 ∧ (s 0).x = x ∧ (s 0).r = r0 ∧
      (∀ j, j < out.finalIter → BiStep N (ofCrs order zo A) pc r0 j (s j) (h j) (s (j + 1))) ∧
      out.x = (s out.finalIter).x ∧ out.finalResid = N.nrm2 (s out.finalIter).r ∧
      ∀ (X Y : Fin n → ℝ) (a : ℝ), 0 ≤ a →
        (∀ j, j ≤ out.finalIter → ∀ i, |vals R n (s j).x i| ≤ X i) →
        (∀ j, j ≤ out.finalIter → ∀ i, |vals R n (s j).r i| ≤ Y i) →
        (∀ j, j < out.finalIter → ∀ i, |vals R n (h j).x i| ≤ X i) →
        (∀ j, j < out.finalIter → ∀ i, |vals R n (h j).s i| ≤ Y i) →
        (∀ j, j < out.finalIter → |R.val (s (j + 1)).alpha| ≤ a ∧ |R.val (s (j + 1)).omega| ≤ a) →
        euclid (fun i => vals R n b i - ∑ l, crsVal R A n i l * vals R n out.x l) ≤
          (R.val cfg.tol + (1 + R.u) * √((1 + R.u) ^ (n - 1) * (n * R.η))) / (2 - (1 + R.u) ^ (n + 1)) +
          euclid (fun i => (2 * out.finalIter + 1) *
            loss R (crsAbs R A n) ((1 + R.u) ^ nz - 1) ((1 + R.u) ^ nz * (nz * R.η)) X Y a i +
            (1 + R.u) ^ nz * (nz * R.η)) := by
  have hM := rounded_crs R A hA hr hc order zo ho nz hnz
  obtain ⟨q, r0, s, hh, k, e1, e2, e3, e4, e5, e6, e7, e8, e9⟩ := C103_bicgstab hN hu hM hx hb hl h
  rw [if_neg (by rw [hs]; simp only [SUCCESS, BREAKDOWN]; decide)] at e1
  rw [← e1] at e6 e7 e8 e9
  refine ⟨q, r0, s, hh, e2, e3, e4, e5, e6, e7, e8, fun X Y a ha bx br bhx bhs ba => ?_⟩
  have hlen : ∀ j, j ≤ out.finalIter → (s j).r.length = n := by
    intro j
    induction j with
    | zero =>
      intro _
      obtain ⟨l1, l2⟩ := vsub_ok e3
      rw [e5, l2]
      simp [hb, ← l1]
    | succ j ih =>
      intro hj
      have st := e6 j hj
      obtain ⟨l1, l2⟩ := axpy_ok st.half
      obtain ⟨l3, l4⟩ := axpy_ok st.r
      rw [l4, List.length_zipWith, l3, l2, List.length_zipWith, l1, ih (by omega)]
      simp
  have hlen := hlen _ le_rfl
  rw [e8] at fr
  have hlt := (C30_status N cfg hl _ _ x b out h).success hs
  rw [e8] at hlt
  exact success hN hR hε hlen fr (hR.lt _ _ fr ft hlt.2.1).le
    (e9 fx (norm_near hN hR hlen fr).1 X Y a ha bx br bhx bhs ba)

end

/-! ### The binary formats -/

/-- the operations of every binary format with enough exponents meet the assumptions on the norm, whatever the
schedules of the sums are -/
theorem roundedNorm (f : Format) (hf : f.emin ≤ 2 - 2 * f.p) (tree : Nat → RTree) (ht : ∀ n, (tree n).Legal n) :
    RoundedNorm f.rounding (f.num tree) where
  sum L := by
    obtain ⟨r, h, _⟩ := C100_sum f.rounding (tree L.length) L.length (ht _) L 0 (fun i => (L[i]?).getD 0)
      (fun i hi => by simp [List.getElem?_eq_getElem hi])
    refine ⟨tree L.length, ht _, ?_⟩
    unfold Format.num
    dsimp only
    rw [h]
  sqrt a h := Format.sqrt_err hf a h
  lt a b _ _ h := (Format.lt_val a b h).2.2

/-- **C103 (formats)**: `float` and `double` meet the assumptions of the theorems, for every schedule of the sums and
up to `2^22` (`2^51`) unknowns -/
theorem C103_formats (tree : Nat → RTree) (ht : ∀ n, (tree n).Legal n) :
    (RoundedNum double.rounding (double.num tree) ∧ RoundedNorm double.rounding (double.num tree) ∧
      double.rounding.u ≤ 1 / 8 ∧ ∀ n : Nat, n < 2 ^ 51 → (1 + double.rounding.u) ^ (n + 1) < 2) ∧
    (RoundedNum single.rounding (single.num tree) ∧ RoundedNorm single.rounding (single.num tree) ∧
      single.rounding.u ≤ 1 / 8 ∧ ∀ n : Nat, n < 2 ^ 22 → (1 + single.rounding.u) ^ (n + 1) < 2) := by
  have grow : ∀ (u : ℝ) (m : Nat), 0 ≤ u → (m : ℝ) * u ≤ 1 / 2 → (1 + u) ^ m < 2 := by
    intro u m hu h
    have h1 : (1 + u) ^ m ≤ Real.exp (m * u) := by
      have := pow_le_pow_left₀ (by linarith) (Real.add_one_le_exp u) m
      rw [add_comm, Real.exp_nat_mul]
      exact this
    have h2 : Real.exp (m * u) ≤ Real.exp (1 / 2) := Real.exp_le_exp.mpr h
    have h3 : Real.exp (1 / 2) < 2 := by
      have e : Real.exp (1 / 2) ^ 2 = Real.exp 1 := by
        rw [← Real.exp_nat_mul]
        norm_num
      have := Real.exp_one_lt_d9
      have p := Real.exp_pos (1 / 2 : ℝ)
      nlinarith
    linarith
  have ud : double.rounding.u = (2 : ℝ) ^ (-53 : ℤ) := by simp [Format.rounding, double]
  have us : single.rounding.u = (2 : ℝ) ^ (-24 : ℤ) := by simp [Format.rounding, single]
  refine ⟨⟨Format.roundedNum _ _, roundedNorm _ (by unfold double; norm_num) _ ht, ?_, ?_⟩,
    ⟨Format.roundedNum _ _, roundedNorm _ (by unfold single; norm_num) _ ht, ?_, ?_⟩⟩
  · rw [ud]; norm_num
  · intro n hn
    apply grow _ _ double.rounding.u_nonneg
    rw [ud]
    have : ((n + 1 : Nat) : ℝ) ≤ 2 ^ 51 := by exact_mod_cast hn
    have := mul_le_mul_of_nonneg_right this (show (0 : ℝ) ≤ 2 ^ (-53 : ℤ) by positivity)
    refine this.trans ?_
    norm_num
  · rw [us]; norm_num
  · intro n hn
    apply grow _ _ single.rounding.u_nonneg
    rw [us]
    have : ((n + 1 : Nat) : ℝ) ≤ 2 ^ 22 := by exact_mod_cast hn
    have := mul_le_mul_of_nonneg_right this (show (0 : ℝ) ≤ 2 ^ (-24 : ℤ) by positivity)
    refine this.trans ?_
    norm_num

end Verif.Gap
