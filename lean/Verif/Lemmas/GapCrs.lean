import Verif.Props.Round
import Verif.Lemmas.CrsToCoo
import Verif.Lemmas.CrsRows
import Verif.Model.SolverMat
import Verif.Spec.GapSpec
import Mathlib.Algebra.BigOperators.Ring.Finset
import Mathlib.Tactic.ByContra
import Mathlib.Algebra.Order.BigOperators.Group.Finset

/-!
The product with a CRS matrix in floating-point arithmetic, as the solvers call it (C103).
-/

namespace Verif.Gap

open Verif.Spec Verif.Solver Verif.Round

variable {F : Type} [Zero F] [One F] [Add F] [Mul F]

omit [Zero F] [One F] [Add F] [Mul F] in
/-- grouping terms by column -/
theorem sum_group {n : Nat} (L : List (Nat × Nat × F)) (g : F → ℝ) (w : Nat → ℝ) (h : ∀ e ∈ L, e.2.1 < n) :
    (L.map (fun e => g e.2.2 * w e.2.1)).sum =
      ∑ l : Fin n, ((L.filter (fun e => e.2.1 == (l : Nat))).map (fun e => g e.2.2)).sum * w l := by
  induction L with
  | nil => simp
  | cons e L ih =>
    rw [List.map_cons, List.sum_cons, ih (fun e' he' => h e' (List.mem_cons_of_mem _ he'))]
    have he := h e List.mem_cons_self
    have : ∀ l : Fin n, (((e :: L).filter (fun e => e.2.1 == (l : Nat))).map (fun e => g e.2.2)).sum * w l =
        (if l = ⟨e.2.1, he⟩ then g e.2.2 * w e.2.1 else 0) +
          ((L.filter (fun e => e.2.1 == (l : Nat))).map (fun e => g e.2.2)).sum * w l := by
      intro l
      by_cases hl : l = ⟨e.2.1, he⟩
      · subst hl
        simp [add_mul]
      · have : ¬ e.2.1 = (l : Nat) := fun h' => hl (Fin.ext h'.symm)
        simp [hl, this]
    rw [Finset.sum_congr rfl (fun l _ => this l), Finset.sum_add_distrib]
    simp

omit [Zero F] [One F] [Add F] [Mul F] in
theorem row_col {A : Crs F} (hA : A.Safe) {i : Nat} (hi : i < A.rowN) {e : Entry F} (he : e ∈ A.rowEntries i) :
    e.2.1 < A.colN := by
  obtain ⟨t, ht, rfl⟩ := List.getElem_of_mem he
  obtain ⟨_, h⟩ := Crs.Safe.getElem_rowEntries hA hi (List.getElem?_eq_getElem ht)
  have hk : A.ptr i + t < A.pairs.length := by
    by_contra hc
    rw [List.getElem?_eq_none (by omega)] at h
    cases h
  rw [List.getElem?_eq_getElem hk] at h
  have h := Option.some.inj h
  rw [← h]
  have h1 := hA.length_pairs
  have h2 := hA.lenC
  have := hA.col_lt (A.ptr i + t) (by omega) (by omega)
  simpa [Crs.pairs] using this

/-- the product with a CRS matrix whose rows have at most `nz` entries -/
theorem rounded_crs (R : Rounding F) (A : Crs F) (hA : A.Safe) {n : Nat} (hr : A.rowN = n) (hc : A.colN = n)
    (order zo : List Nat) (ho : Order order A.rowN) (nz : Nat) (hnz : ∀ i, i < n → (A.rowEntries i).length ≤ nz) :
    RoundedMat R (ofCrs order zo A) (crsVal R A n) (crsAbs R A n) ((1 + R.u) ^ nz - 1)
      ((1 + R.u) ^ nz * (nz * R.η)) := by
  have hu := R.u_nonneg
  have hη := R.η_nonneg
  have one : ∀ m : Nat, 1 ≤ (1 + R.u) ^ m := fun m => one_le_pow₀ (by linarith)
  refine ⟨hr, by linarith [one nz], by have := one nz; positivity, ?_, ?_⟩
  · intro i l
    unfold crsVal crsAbs
    generalize (A.rowEntries i).filter _ = L
    induction L with
    | nil => simp
    | cons e L ih =>
      simp only [List.map_cons, List.sum_cons]
      exact (abs_add_le _ _).trans (by linarith)
  · intro p q hp h
    obtain ⟨y', h1, h2, h3⟩ := C100_matvec R A hA ⟨p, 0, p.length⟩ ⟨List.replicate A.rowN 0, 0, A.rowN⟩ (by simp [hp, hc])
      rfl (by simp [Win.Ok]) (fun j => (p[j]?).getD 0) (by
        intro j hj
        have hj : j < p.length := hj
        unfold Win.get
        simp [rd, List.getElem?_eq_getElem hj]) order ho
    simp only [ofCrs, h1, Res.ok_bind] at h
    have e := Res.ok.inj h
    subst e
    have hlen : y'.buf.length = n := by rw [h2.len]; simp [hr]
    refine ⟨hlen, fun hf i => ?_⟩
    obtain ⟨r, g1, g2⟩ := h3 i (by rw [hr]; exact i.2)
    have hoff : y'.off = 0 := h2.off
    unfold Win.get at g1
    rw [hoff, Nat.zero_add] at g1
    have hi : (i : Nat) < y'.buf.length := by rw [hlen]; exact i.2
    have er : y'.buf[(i : Nat)] = r := by
      simpa [rd, List.getElem?_eq_getElem hi] using g1
    have g3 := g2 (hf r (by rw [← er]; exact List.getElem_mem hi)) _ rfl
    have ev : vals R n y'.buf i = R.val r := by
      unfold vals
      rw [List.getElem?_eq_getElem hi, er]
      rfl
    have hcol : ∀ e ∈ A.rowEntries i, e.2.1 < n :=
      fun e he => lt_of_lt_of_eq (row_col hA (by rw [hr]; exact i.2) he) hc
    have s1 := sum_group (n := n) (A.rowEntries i) R.val (fun j => R.val ((p[j]?).getD 0)) hcol
    have s2 := sum_group (n := n) (A.rowEntries i) (fun v => |R.val v|) (fun j => |R.val ((p[j]?).getD 0)|) hcol
    simp only [abs_mul] at g3
    rw [s1, s2] at g3
    rw [ev]
    have hk := hnz i i.2
    refine g3.trans ?_
    have p1 : (1 + R.u) ^ (A.rowEntries i).length ≤ (1 + R.u) ^ nz := pow_le_pow_right₀ (by linarith) hk
    have p2 : (1 + R.u) ^ ((A.rowEntries i).length - 1) ≤ (1 + R.u) ^ nz := pow_le_pow_right₀ (by linarith) (by omega)
    have p3 : ((A.rowEntries i).length : ℝ) ≤ nz := by exact_mod_cast hk
    refine add_le_add (mul_le_mul_of_nonneg_right (by linarith) ?_) (mul_le_mul p2 (mul_le_mul_of_nonneg_right p3 hη) ?_ ?_)
    · refine Finset.sum_nonneg (fun l _ => mul_nonneg (List.sum_nonneg ?_) (abs_nonneg _))
      intro z hz
      obtain ⟨e, _, rfl⟩ := List.mem_map.mp hz
      exact abs_nonneg _
    · positivity
    · have := one nz
      positivity

end Verif.Gap
