import Verif.Props.GenSpectrum
import Verif.Spec.SolverSpec

/-!
C115, continued: a LAPACK meeting both contracts exists, whose `dsygvd` succeeds for every symmetric `A` and every
symmetric positive definite `B`; so the hypotheses of `C115_spectrum` are met.
-/

namespace Verif.Lapack

open Matrix

/-- a matrix as a function of two numbers -/
noncomputable def ext {n : Nat} (M : Matrix (Fin n) (Fin n) ℝ) (i j : Nat) : ℝ :=
  if h : i < n ∧ j < n then M ⟨i, h.1⟩ ⟨j, h.2⟩ else 0

theorem mat_ext {n : Nat} (M : Matrix (Fin n) (Fin n) ℝ) : mat n (ext M) = M := by
  ext i j
  simp [mat, ext]

/-- every symmetric matrix is diagonalised by an orthogonal one, eigenvalues ascending -/
theorem diagonalise {n : Nat} (M : Matrix (Fin n) (Fin n) ℝ) (hM : Mᵀ = M) :
    ∃ (w : Nat → ℝ) (V : Matrix (Fin n) (Fin n) ℝ), Vᵀ * V = 1 ∧ M * V = V * diagonal (fun k : Fin n => w k) ∧
      ∀ k l, k ≤ l → l < n → w k ≤ w l := by
  obtain ⟨w, V, h⟩ := exists_eigensystem n (ext M) (by
    intro i j
    unfold ext
    by_cases h : i < n ∧ j < n
    · rw [dif_pos h, dif_pos h.symm]
      have := congrFun (congrFun hM ⟨j, h.2⟩) ⟨i, h.1⟩
      rw [Matrix.transpose_apply] at this
      exact this
    · rw [dif_neg h, dif_neg (fun h' => h h'.symm)])
  obtain ⟨h1, h2⟩ := h.factor
  rw [mat_ext] at h2
  exact ⟨w, (mat n V)ᵀ, by rw [Matrix.transpose_transpose]; exact h1, h2, h.2.2⟩

/-- a symmetric positive definite matrix is congruent to the identity -/
theorem congruent {n : Nat} {B : Matrix (Fin n) (Fin n) ℝ} (hB : Spec.SPD B) :
    ∃ P : Matrix (Fin n) (Fin n) ℝ, Pᵀ * B * P = 1 := by
  obtain ⟨w, V, h1, h2, -⟩ := diagonalise B hB.1
  have hd : Vᵀ * B * V = diagonal fun k : Fin n => w k := by
    rw [Matrix.mul_assoc, h2, ← Matrix.mul_assoc, h1, Matrix.one_mul]
  have hw : ∀ k : Fin n, 0 < w k := by
    intro k
    have hne : V *ᵥ Pi.single k 1 ≠ 0 := by
      intro h
      have h3 := congrArg (Vᵀ *ᵥ ·) h
      rw [Matrix.mulVec_mulVec, h1, Matrix.one_mulVec, Matrix.mulVec_zero] at h3
      have := congrFun h3 k
      simp at this
    have h4 := hB.2 _ hne
    have h5 : (V *ᵥ Pi.single k 1) ⬝ᵥ (B *ᵥ (V *ᵥ Pi.single k 1)) =
        Pi.single k 1 ⬝ᵥ ((Vᵀ * B * V) *ᵥ Pi.single k (1 : ℝ)) := by
      rw [← Matrix.mulVec_mulVec, ← Matrix.mulVec_mulVec, Matrix.dotProduct_mulVec (Pi.single k 1) Vᵀ,
        Matrix.vecMul_transpose]
    rw [h5, hd, single_one_dotProduct, Matrix.mulVec_diagonal, Pi.single_eq_same, mul_one] at h4
    exact h4
  refine ⟨V * diagonal fun k : Fin n => (Real.sqrt (w k))⁻¹, ?_⟩
  rw [Matrix.transpose_mul, Matrix.diagonal_transpose]
  have : diagonal (fun k : Fin n => (Real.sqrt (w k))⁻¹) * Vᵀ * B * (V * diagonal fun k : Fin n => (Real.sqrt (w k))⁻¹) =
      diagonal (fun k : Fin n => (Real.sqrt (w k))⁻¹) * (Vᵀ * B * V) * diagonal fun k : Fin n => (Real.sqrt (w k))⁻¹ := by
    simp only [Matrix.mul_assoc]
  rw [this, hd, Matrix.diagonal_mul_diagonal, Matrix.diagonal_mul_diagonal, ← Matrix.diagonal_one]
  congr 1
  funext k
  have h := hw k
  have hs : Real.sqrt (w k) ≠ 0 := (Real.sqrt_pos.2 h).ne'
  have hq := Real.mul_self_sqrt h.le
  field_simp
  rw [pow_two]; exact hq.symm

/-- the three generalised problems have a complete normalised system of eigenvectors when `B` is positive definite -/
theorem exists_generalised (itype : Int) {n : Nat} {A B : Matrix (Fin n) (Fin n) ℝ} (hA : Aᵀ = A) (hB : Spec.SPD B) :
    ∃ (w : Nat → ℝ) (Z : Matrix (Fin n) (Fin n) ℝ), (∀ k l, k ≤ l → l < n → w k ≤ w l) ∧
      (if itype = 1 then A * Z = B * Z * diagonal fun k : Fin n => w k
       else if itype = 2 then A * B * Z = Z * diagonal fun k : Fin n => w k
       else B * A * Z = Z * diagonal fun k : Fin n => w k) ∧
      if itype = 3 then B.det ≠ 0 ∧ Zᵀ * B⁻¹ * Z = 1
      else (itype = 1 ∨ itype = 2) → Zᵀ * B * Z = 1 := by
  obtain ⟨P, hP⟩ := congruent hB
  have hPB : (Pᵀ * B) * P = 1 := hP
  have hPB' : P * (Pᵀ * B) = 1 := mul_eq_one_comm.mp hPB
  have hBP : (B * P) * Pᵀ = 1 := mul_eq_one_comm.mp (by rw [← Matrix.mul_assoc]; exact hP)
  have hinv : B⁻¹ = P * Pᵀ := Matrix.inv_eq_right_inv (by rw [← Matrix.mul_assoc]; exact hBP)
  have hdet : B.det ≠ 0 := by
    intro h
    have := congrArg Matrix.det hP
    rw [Matrix.det_mul, Matrix.det_mul, h, mul_zero, zero_mul, Matrix.det_one] at this
    exact zero_ne_one this
  by_cases h1 : itype = 1
  · obtain ⟨w, V, v1, v2, v3⟩ := diagonalise (Pᵀ * A * P) (by
      rw [Matrix.transpose_mul, Matrix.transpose_mul, hA, Matrix.transpose_transpose, Matrix.mul_assoc])
    refine ⟨w, P * V, v3, ?_, ?_⟩
    · rw [if_pos h1]
      calc A * (P * V) = ((B * P) * Pᵀ) * (A * (P * V)) := by rw [hBP, Matrix.one_mul]
        _ = B * P * ((Pᵀ * A * P) * V) := by simp only [Matrix.mul_assoc]
        _ = _ := by rw [v2]; simp only [Matrix.mul_assoc]
    · rw [if_neg (by omega)]
      intro _
      rw [Matrix.transpose_mul]
      calc Vᵀ * Pᵀ * B * (P * V) = Vᵀ * (Pᵀ * B * P) * V := by simp only [Matrix.mul_assoc]
        _ = 1 := by rw [hP, Matrix.mul_one, v1]
  · -- `Q = Pᵀ B = P⁻¹`
    have hBt : Bᵀ = B := hB.1
    obtain ⟨w, V, v1, v2, v3⟩ := diagonalise ((Pᵀ * B) * A * (B * P)) (by
      simp only [Matrix.transpose_mul, Matrix.transpose_transpose, hA, hBt, Matrix.mul_assoc])
    by_cases h2 : itype = 2
    · refine ⟨w, P * V, v3, ?_, ?_⟩
      · rw [if_neg h1, if_pos h2]
        calc A * B * (P * V) = (P * (Pᵀ * B)) * (A * B * (P * V)) := by rw [hPB', Matrix.one_mul]
          _ = P * (((Pᵀ * B) * A * (B * P)) * V) := by simp only [Matrix.mul_assoc]
          _ = _ := by rw [v2]; simp only [Matrix.mul_assoc]
      · rw [if_neg (by omega)]
        intro _
        rw [Matrix.transpose_mul]
        calc Vᵀ * Pᵀ * B * (P * V) = Vᵀ * (Pᵀ * B * P) * V := by simp only [Matrix.mul_assoc]
          _ = 1 := by rw [hP, Matrix.mul_one, v1]
    · refine ⟨w, B * P * V, v3, ?_, ?_⟩
      · rw [if_neg h1, if_neg h2]
        calc B * A * (B * P * V) = ((B * P) * Pᵀ) * (B * A * (B * P * V)) := by rw [hBP, Matrix.one_mul]
          _ = B * P * (((Pᵀ * B) * A * (B * P)) * V) := by simp only [Matrix.mul_assoc]
          _ = _ := by rw [v2]; simp only [Matrix.mul_assoc]
      · split
        · refine ⟨hdet, ?_⟩
          rw [Matrix.transpose_mul, Matrix.transpose_mul, hBt, hinv]
          calc Vᵀ * (Pᵀ * B) * (P * Pᵀ) * (B * P * V) = Vᵀ * (Pᵀ * B * P) * (Pᵀ * B * P) * V := by
                simp only [Matrix.mul_assoc]
            _ = 1 := by rw [hP, Matrix.mul_one, Matrix.mul_one, v1]
        · intro h; omega

/-- a matrix with the given elements satisfies the equations of `dsygvd` column by column -/
theorem genEig_of_matrix {itype : Int} {n : Nat} {f g Z : Nat → Nat → ℝ} {w : Nat → ℝ}
    (h : if itype = 1 then mat n f * mat n Z = mat n g * mat n Z * diagonal fun k : Fin n => w k
      else if itype = 2 then mat n f * mat n g * mat n Z = mat n Z * diagonal fun k : Fin n => w k
      else mat n g * mat n f * mat n Z = mat n Z * diagonal fun k : Fin n => w k) :
    ∀ k, k < n → GenEig itype n f g (w k) (fun j => Z j k) := by
  intro k hk i hi
  have mv : ∀ (F : Nat → Nat → ℝ) (v : Nat → ℝ) (i : Nat),
      Spec.mulVec n F v i = ∑ j : Fin n, F i j * v j := by
    intro F v i
    unfold Spec.mulVec
    rw [sum_fin]
  split
  · rename_i h1
    rw [if_pos h1] at h
    have e := congrFun (congrFun h ⟨i, hi⟩) ⟨k, hk⟩
    rw [Matrix.mul_apply, Matrix.mul_diagonal, Matrix.mul_apply] at e
    simp only [mat, Matrix.of_apply] at e
    rw [mv, mv, e, mul_comm]
  · rename_i h1
    rw [if_neg h1] at h
    split
    · rename_i h2
      rw [if_pos h2] at h
      have e := congrFun (congrFun h ⟨i, hi⟩) ⟨k, hk⟩
      rw [Matrix.mul_assoc, Matrix.mul_apply, Matrix.mul_diagonal] at e
      simp only [mat, Matrix.of_apply, Matrix.mul_apply] at e
      rw [mul_comm, ← e, mv]
      exact Finset.sum_congr rfl fun j _ => by rw [mv]
    · rename_i h2
      rw [if_neg h2] at h
      have e := congrFun (congrFun h ⟨i, hi⟩) ⟨k, hk⟩
      rw [Matrix.mul_assoc, Matrix.mul_apply, Matrix.mul_diagonal] at e
      simp only [mat, Matrix.of_apply, Matrix.mul_apply] at e
      rw [mul_comm, ← e, mv]
      exact Finset.sum_congr rfl fun j _ => by rw [mv]

/-- a result of `dsygvd` that meets both contracts, successful whenever `B` is positive definite -/
theorem exists_sygvd_spd (itype : Int) (upper : Bool) (n : Nat) (a : List ℝ) (lda : Nat) (b : List ℝ)
    (ldb : Nat) (ha : extent n n lda ≤ a.length) :
    ∃ r, SygvdOk itype upper n a lda b ldb r ∧ SygvdNormal itype upper n b ldb lda r ∧
      (1 ≤ itype → itype ≤ 3 → max 1 n ≤ lda → max 1 n ≤ ldb → Spec.SPD (mat n (sym upper b ldb)) → r.2.2.2 = 0) := by
  classical
  by_cases hg : (1 ≤ itype ∧ itype ≤ 3) ∧ max 1 n ≤ lda ∧ max 1 n ≤ ldb ∧ Spec.SPD (mat n (sym upper b ldb))
  · obtain ⟨hit, hl, hlb, hB⟩ := hg
    obtain ⟨w, Z, h1, h2, h3⟩ := exists_generalised itype (A := mat n (sym upper a lda)) (by
      ext i j; exact sym_symm upper a lda j i) hB
    have hcm : mat n (cm (store n n lda (ext Z) a) lda) = Z := by
      ext i j
      show cm (store n n lda (ext Z) a) lda i j = _
      rw [cm_store (ext Z) (by omega) ha i.2 j.2]
      simp [ext]
    have hw : ∀ k, k < n → (List.ofFn (fun i : Fin n => w i)).getD k 0 = w k := by
      intro k hk
      simp [List.getD, hk]
    have hn : SygvdNormal itype upper n b ldb lda
        (store n n lda (ext Z) a, b, List.ofFn (fun i : Fin n => w i), 0) := by
      intro _
      dsimp only
      rw [hcm]
      split
      · rename_i h; rw [if_pos h] at h3; exact h3
      · rename_i h; rw [if_neg h] at h3; exact h3 (by omega)
    refine ⟨_, ⟨⟨by simp, rfl⟩, fun h => absurd h (by omega), fun _ => by simp, fun _ k hk => ?_, fun _ k hk => ?_,
      fun _ k l hkl hl' => ?_⟩, hn, fun _ _ _ _ _ => rfl⟩
    · dsimp only
      rw [hw k hk]
      exact genEig_of_matrix (Z := cm (store n n lda (ext Z) a) lda) (by rw [hcm]; exact h2) k hk
    · by_contra hc
      dsimp only at hc
      have hz : ∀ i : Fin n, Z i ⟨k, hk⟩ = 0 := by
        intro i
        by_contra hne
        refine hc ⟨i, i.2, ?_⟩
        rw [← congrFun (congrFun hcm i) ⟨k, hk⟩] at hne
        exact hne
      have hcol : ∀ M : Matrix (Fin n) (Fin n) ℝ, (M * Z) ⟨k, hk⟩ ⟨k, hk⟩ = 0 := by
        intro M
        rw [Matrix.mul_apply]
        exact Finset.sum_eq_zero fun i _ => by rw [hz i, mul_zero]
      split at h3
      · have := hcol (Zᵀ * (mat n (sym upper b ldb))⁻¹)
        rw [h3.2] at this
        simp at this
      · have := hcol (Zᵀ * (mat n (sym upper b ldb)))
        rw [h3 (by omega)] at this
        simp at this
    · dsimp only
      rw [hw k (by omega), hw l hl']
      exact h1 k l hkl hl'
  · by_cases hi : itype < 1 ∨ 3 < itype ∨ lda < max 1 n ∨ ldb < max 1 n
    · have hne : ¬ (-1 : Int) = 0 := by decide
      exact ⟨(a, b, [], -1), ⟨⟨rfl, rfl⟩, fun _ => show (-1 : Int) < 0 by decide,
        fun h => absurd h hne, fun h => absurd h hne, fun h => absurd h hne, fun h => absurd h hne⟩,
        fun h => absurd h hne, fun h1 h2 h3 h4 h5 => absurd ⟨⟨h1, h2⟩, h3, h4, h5⟩ hg⟩
    · have hne : ¬ (1 : Int) = 0 := by decide
      exact ⟨(a, b, [], 1), ⟨⟨rfl, rfl⟩, fun h => absurd h hi,
        fun h => absurd h hne, fun h => absurd h hne, fun h => absurd h hne, fun h => absurd h hne⟩,
        fun h => absurd h hne, fun h1 h2 h3 h4 h5 => absurd ⟨⟨h1, h2⟩, h3, h4, h5⟩ hg⟩

/-- A LAPACK that meets both contracts exists; its `dsygvd` succeeds for every positive definite `B`. -/
theorem exists_lib_gv : ∃ L : Lib ℝ, L.GvOk ∧ L.GvNormal ∧
    ∀ itype n a b, 1 ≤ itype → itype ≤ 3 → 0 < n → extent n n n ≤ a.length → Spec.SPD (mat n (sym true b n)) →
      (L.sygvd itype true true n a n b n).2.2.2 = 0 := by
  classical
  obtain ⟨L, -⟩ := exists_lib_real
  refine ⟨{ L with
    sygvd := fun itype _ upper n a lda b ldb =>
      if h : extent n n lda ≤ a.length then (exists_sygvd_spd itype upper n a lda b ldb h).choose
      else (a, b, [], 0) }, ?_, ?_, ?_⟩
  · intro itype upper n a lda b ldb h _
    simp only [h, dif_pos]
    exact (exists_sygvd_spd itype upper n a lda b ldb h).choose_spec.1
  · intro itype upper n a lda b ldb h _
    simp only [h, dif_pos]
    exact (exists_sygvd_spd itype upper n a lda b ldb h).choose_spec.2.1
  · intro itype n a b h1 h3 hn h hB
    simp only [h, dif_pos]
    exact (exists_sygvd_spd itype true n a n b n h).choose_spec.2.2 h1 h3 (by omega) (by omega) hB

/-- **C115 (positive definite `B`).** With such a LAPACK the whole generalised spectrum is returned for every symmetric
`A` and every symmetric positive definite `B` of any size. -/
theorem C115_definite : ∃ L : Lib ℝ, L.GvOk ∧ L.GvNormal ∧ ∀ (A B : Dense ℝ) (_ : A.WF) (_ : A.first = 0)
    (_ : B.WF) (_ : B.first = 0) (n : Nat) (_ : 0 < n) (_ : A.rowN = n) (_ : A.colN = n) (_ : B.rowN = n)
    (_ : B.colN = n) (f g : Nat → Nat → ℝ) (_ : A.Reads f) (_ : B.Reads g)
    (_ : ∀ i j, i < n → j < n → f i j = f j i) (_ : Spec.SPD (mat n g)) (lambda : Vec ℝ) (_ : lambda.WF)
    (_ : lambda.nnz = n) (itype : Int) (_ : 1 ≤ itype) (_ : itype ≤ 3),
    ∃ A' B' lambda' w, DC.generalized L 0 A B lambda itype = .ok (success, A', B', lambda') ∧ VReads lambda' n w ∧
      (∀ k l, k ≤ l → l < n → w k ≤ w l) ∧
      (pencil itype (mat n f) (mat n g)).roots = Multiset.map (fun k : Fin n => w k) Finset.univ.val := by
  obtain ⟨L, h1, h2, h3⟩ := exists_lib_gv
  refine ⟨L, h1, h2, ?_⟩
  intro A B hA h0 hB hB0 n hn hr hc hBr hBc f g hf hg hs hspd lambda hl hln itype i1 i3
  have hsg : ∀ i j, i < n → j < n → g i j = g j i := by
    intro i j hi hj
    have := congrFun (congrFun hspd.1 ⟨j, hj⟩) ⟨i, hi⟩
    exact this
  have hgm : mat n (sym true B.val n) = mat n g := by
    ext i j
    exact sym_reads hB hB0 hBr hBc hg hsg i.2 j.2
  have hi := h3 itype n A.val B.val i1 i3 hn (extent_sq hA hr hc) (by rw [hgm]; exact hspd)
  obtain ⟨A', B', l', V, w, e1, -, e3, e4, -, -, -, -, e9, -⟩ :=
    C115_spectrum h1 h2 hA h0 hB hB0 hr hc hBr hBc hf hg hs hsg hl hln itype hi
  exact ⟨A', B', l', w, e1, e3, e4, e9⟩

end Verif.Lapack
