import Verif.Props.DCExample
import Mathlib.LinearAlgebra.Matrix.NonsingularInverse

/-!
C115: the eigenvalues `generalized_eigen::DC` returns are all generalised eigenvalues, each with its multiplicity and in
ascending order, for the three problem types; the rows of `A` hold the normalised eigenvectors.
-/

namespace Verif.Lapack

open Matrix Polynomial

section

variable {α : Type} [Field α] [LinearOrder α]

/-- The normalisation `dsygvd` documents for its eigenvectors: `Z' B Z = I` for `ITYPE` 1 and 2, `Z' inv(B) Z = I` for
`ITYPE = 3` (where `B` is not singular). -/
def SygvdNormal (itype : Int) (upper : Bool) (n : Nat) (b : List α) (ldb : Nat) (lda : Nat)
    (r : List α × List α × List α × Int) : Prop :=
  r.2.2.2 = 0 →
    if itype = 3 then (mat n (sym upper b ldb)).det ≠ 0 ∧
      (mat n (cm r.1 lda))ᵀ * (mat n (sym upper b ldb))⁻¹ * mat n (cm r.1 lda) = 1
    else (mat n (cm r.1 lda))ᵀ * mat n (sym upper b ldb) * mat n (cm r.1 lda) = 1

/-- a LAPACK whose `dsygvd` normalises its eigenvectors as documented -/
def Lib.GvNormal (L : Lib α) : Prop :=
  ∀ itype upper n a lda b ldb, extent n n lda ≤ a.length → extent n n ldb ≤ b.length →
    SygvdNormal itype upper n b ldb lda (L.sygvd itype true upper n a lda b ldb)

/-- the polynomial whose roots are the generalised eigenvalues: `det (x B - A)`, `det (x - A B)`, `det (x - B A)` -/
noncomputable def pencil (itype : Int) {n : Nat} (A B : Matrix (Fin n) (Fin n) α) : α[X] :=
  if itype = 1 then ((X : α[X]) • B.map C - A.map C).det
  else if itype = 2 then (A * B).charpoly else (B * A).charpoly

omit [LinearOrder α] in
theorem pencil_diag {n : Nat} {A B Z : Matrix (Fin n) (Fin n) α} {w : Fin n → α} (h1 : Zᵀ * B * Z = 1)
    (h2 : A * Z = B * Z * diagonal w) :
    ((X : α[X]) • B.map C - A.map C).det = C B.det * ∏ k, (X - C (w k)) := by
  have hz : Zᵀ.det * B.det * Z.det = 1 := by
    rw [← Matrix.det_mul, ← Matrix.det_mul, h1, Matrix.det_one]
  have hA : Zᵀ * A * Z = diagonal w := by
    rw [Matrix.mul_assoc, h2, ← Matrix.mul_assoc, ← Matrix.mul_assoc, h1, Matrix.one_mul]
  have e : (Zᵀ.map C : Matrix (Fin n) (Fin n) α[X]) * ((X : α[X]) • B.map C - A.map C) * Z.map C =
      (X : α[X]) • 1 - (diagonal w).map C := by
    rw [Matrix.mul_sub, Matrix.sub_mul, Matrix.mul_smul, Matrix.smul_mul]
    rw [← Matrix.map_mul, ← Matrix.map_mul, ← Matrix.map_mul, ← Matrix.map_mul, h1, hA]
    rw [Matrix.map_one _ (map_zero _) (map_one _)]
  have e2 : ((X : α[X]) • (1 : Matrix (Fin n) (Fin n) α[X]) - (diagonal w).map C).det = ∏ k, (X - C (w k)) := by
    have : (X : α[X]) • (1 : Matrix (Fin n) (Fin n) α[X]) - (diagonal w).map C = diagonal fun k => X - C (w k) := by
      ext i j
      by_cases h : i = j
      · subst h; simp
      · simp [h]
    rw [this, Matrix.det_diagonal]
  have hd := congrArg Matrix.det e
  rw [e2, Matrix.det_mul, Matrix.det_mul] at hd
  have m1 : ∀ M : Matrix (Fin n) (Fin n) α, (M.map C : Matrix (Fin n) (Fin n) α[X]).det = C M.det := by
    intro M
    exact (RingHom.map_det C M).symm
  rw [m1, m1] at hd
  have hc : C Zᵀ.det * C B.det * C Z.det = (1 : α[X]) := by
    rw [← C_mul, ← C_mul, hz, C_1]
  rw [← hd]
  calc ((X : α[X]) • B.map C - A.map C).det
      = (C Zᵀ.det * C B.det * C Z.det) * ((X : α[X]) • B.map C - A.map C).det := by rw [hc, one_mul]
    _ = _ := by ring

omit [LinearOrder α] in
theorem charpoly_diag {n : Nat} {M Z W : Matrix (Fin n) (Fin n) α} {w : Fin n → α} (h1 : W * Z = 1)
    (h2 : M * Z = Z * diagonal w) : M.charpoly = ∏ k, (X - C (w k)) := by
  have h3 := mul_eq_one_comm.mp h1
  have e : M = Z * diagonal w * W := by rw [← h2, Matrix.mul_assoc, h3, Matrix.mul_one]
  rw [e, charpoly_mul_comm, ← Matrix.mul_assoc, h1, Matrix.one_mul, charpoly_diagonal]

/-- the three problems in matrix form -/
theorem GenEig.matrix {itype : Int} {n : Nat} {f g Z : Nat → Nat → α} {w : Nat → α}
    (h : ∀ k, k < n → GenEig itype n f g (w k) (fun j => Z j k)) :
    if itype = 1 then mat n f * mat n Z = mat n g * mat n Z * diagonal fun k : Fin n => w k
    else if itype = 2 then mat n f * mat n g * mat n Z = mat n Z * diagonal fun k : Fin n => w k
    else mat n g * mat n f * mat n Z = mat n Z * diagonal fun k : Fin n => w k := by
  have mv : ∀ (F : Nat → Nat → α) (v : Nat → α) (i : Fin n),
      Spec.mulVec n F v i = ∑ j : Fin n, F i j * v j := by
    intro F v i
    unfold Spec.mulVec
    rw [sum_fin]
  split
  · rename_i hit
    ext i k
    have e := h k k.2 i i.2
    rw [if_pos hit, mv, mv] at e
    rw [Matrix.mul_apply, Matrix.mul_diagonal, Matrix.mul_apply]
    simp only [mat, Matrix.of_apply]
    rw [e, mul_comm]
  · rename_i hit
    split
    · rename_i hit2
      ext i k
      have e := h k k.2 i i.2
      rw [if_neg hit, if_pos hit2, mv] at e
      rw [Matrix.mul_assoc, Matrix.mul_apply, Matrix.mul_diagonal]
      simp only [mat, Matrix.of_apply, Matrix.mul_apply]
      rw [mul_comm, ← e]
      exact Finset.sum_congr rfl fun j _ => by rw [mv]
    · rename_i hit2
      ext i k
      have e := h k k.2 i i.2
      rw [if_neg hit, if_neg hit2, mv] at e
      rw [Matrix.mul_assoc, Matrix.mul_apply, Matrix.mul_diagonal]
      simp only [mat, Matrix.of_apply, Matrix.mul_apply]
      rw [mul_comm, ← e]
      exact Finset.sum_congr rfl fun j _ => by rw [mv]

/-- **C115.** When `generalized_eigen::DC::solve` returns `SUCCESS` for symmetric `A` and `B`, `lambda` holds all roots of
`det (x B - A)` (of `det (x - A B)`, `det (x - B A)` for the other problem types), each as often as its multiplicity and
in ascending order, and the rows of `A` are eigenvectors for them, normalised with `B`. -/
theorem C115_spectrum {L : Lib α} (hL : L.GvOk) (hN : L.GvNormal) {A B : Dense α} (hA : A.WF) (h0 : A.first = 0)
    (hB : B.WF) (hB0 : B.first = 0) {n : Nat} (hr : A.rowN = n) (hc : A.colN = n) (hBr : B.rowN = n) (hBc : B.colN = n)
    {f g : Nat → Nat → α} (hf : A.Reads f) (hg : B.Reads g) (hs : ∀ i j, i < n → j < n → f i j = f j i)
    (hsg : ∀ i j, i < n → j < n → g i j = g j i) {lambda : Vec α} (hl : lambda.WF) (hln : lambda.nnz = n) (itype : Int)
    (hi : (L.sygvd itype true true n A.val n B.val n).2.2.2 = 0) :
    ∃ A' B' lambda' V w, DC.generalized L 0 A B lambda itype = .ok (success, A', B', lambda') ∧
      A'.Reads V ∧ VReads lambda' n w ∧ (∀ k l, k ≤ l → l < n → w k ≤ w l) ∧
      (∀ k, k < n → GenEig itype n f g (w k) (V k)) ∧
      (itype ≠ 3 → mat n V * mat n g * (mat n V)ᵀ = 1) ∧
      (itype = 3 → mat n V * (mat n g)⁻¹ * (mat n V)ᵀ = 1) ∧
      (mat n g).det ≠ 0 ∧
      (pencil itype (mat n f) (mat n g)).roots = Multiset.map (fun k : Fin n => w k) Finset.univ.val ∧
      pencil itype (mat n f) (mat n g) =
        C (if itype = 1 then (mat n g).det else 1) * ∏ k : Fin n, (X - C (w k)) := by
  have hext := extent_sq hA hr hc
  have hextB := extent_sq hB hBr hBc
  have hE := hL itype true n A.val n B.val n hext hextB
  have hO := hN itype true n A.val n B.val n hext hextB hi
  have hlle := hl.nnz_le
  have hll := hl.lenV
  have hgm : mat n (sym true B.val n) = mat n g := by
    ext i j
    exact sym_reads hB hB0 hBr hBc hg hsg i.2 j.2
  rw [hgm] at hO
  have hfm : ∀ k, k < n → GenEig itype n f g ((L.sygvd itype true true n A.val n B.val n).2.2.1.getD k 0)
      (fun j => cm (L.sygvd itype true true n A.val n B.val n).1 n j k) := fun k hk =>
    (hE.eigen hi k hk).congr (fun i j hi hj => sym_reads hA h0 hr hc hf hs hi hj)
      (fun i j hi hj => sym_reads hB hB0 hBr hBc hg hsg hi hj)
  have hM := GenEig.matrix hfm
  have hT : mat n (fun k i => cm (L.sygvd itype true true n A.val n B.val n).1 n i k) =
      (mat n (cm (L.sygvd itype true true n A.val n B.val n).1 n))ᵀ := rfl
  generalize hr' : L.sygvd itype true true n A.val n B.val n = r at *
  have hdet : (mat n g).det ≠ 0 := by
    split at hO
    · exact hO.1
    · intro h
      have := congrArg Matrix.det hO
      rw [Matrix.det_mul, Matrix.det_mul, h, mul_zero, zero_mul, Matrix.det_one] at this
      exact zero_ne_one this
  have hpen : pencil itype (mat n f) (mat n g) =
      C (if itype = 1 then (mat n g).det else 1) * ∏ k : Fin n, (X - C (r.2.2.1.getD k 0)) := by
    unfold pencil
    split
    · rename_i h1
      rw [if_pos h1] at hM
      rw [if_neg (by omega)] at hO
      exact pencil_diag hO hM
    · rename_i h1
      rw [if_neg h1] at hM
      rw [C_1, one_mul]
      split
      · rename_i h2
        rw [if_pos h2] at hM
        rw [if_neg (by omega)] at hO
        exact charpoly_diag hO hM
      · rename_i h2
        rw [if_neg h2] at hM
        by_cases h3 : itype = 3
        · rw [if_pos h3] at hO
          exact charpoly_diag hO.2 hM
        · exfalso
          have := hE.illegal (by omega)
          omega
  refine ⟨{ A with val := r.1 }, { B with val := r.2.1 }, { lambda with val := overwrite lambda.val r.2.2.1 },
    fun k i => cm r.1 n i k, fun k => r.2.2.1.getD k 0, ?_, reads_cm hA h0 hr hc hE.length.1,
    vreads_overwrite hl hln (hE.wLength hi), hE.sorted hi, hfm, ?_, ?_, hdet, ?_, hpen⟩
  · unfold DC.generalized sygvd
    rw [if_pos rfl]
    simp only [hr, hr']
    rw [touch_ok hext, Res.ok_bind, touch_ok hextB, Res.ok_bind, touch_ok (by omega), Res.ok_bind]
    simp only [Res.ok_bind, hi]
    rfl
  · intro h3
    rw [if_neg h3] at hO
    rw [hT, Matrix.transpose_transpose]
    exact hO
  · intro h3
    rw [if_pos h3] at hO
    rw [hT, Matrix.transpose_transpose]
    exact hO.2
  · rw [hpen, roots_C_mul _ (by split; exacts [hdet, one_ne_zero])]
    have := roots_multiset_prod_X_sub_C (Multiset.map (fun k : Fin n => r.2.2.1.getD k 0) Finset.univ.val)
    rw [Multiset.map_map] at this
    exact this

end

end Verif.Lapack
