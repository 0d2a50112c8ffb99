import Verif.Lemmas.LobpcgGram
import Verif.Spec.DsygvdSpec
import Mathlib.Analysis.Matrix.Spectrum
import Mathlib.LinearAlgebra.Matrix.PosDef
import Mathlib.Data.Fin.Tuple.Sort

/-!
Over the real numbers there is a `dsygvd` that does what its documentation says: for a symmetric matrix and a positive
definite one the generalised eigenproblem has a complete solution. So the hypotheses `Dsygvd` and `DsygvdCompletes` can
be met together.
-/

namespace Verif.Lobpcg

open Spec Lapack Matrix

/-- symmetric matrices are orthogonally diagonalisable -/
theorem exists_orth {k : Nat} (S : Matrix (Fin k) (Fin k) ℝ) (hS : Sᵀ = S) :
    ∃ (V : Matrix (Fin k) (Fin k) ℝ) (d : Fin k → ℝ), Vᵀ * V = 1 ∧ Vᵀ * S * V = diagonal d := by
  have hH : S.IsHermitian := by
    rw [Matrix.IsHermitian, Matrix.conjTranspose_eq_transpose_of_trivial]; exact hS
  refine ⟨(hH.eigenvectorUnitary : Matrix (Fin k) (Fin k) ℝ), hH.eigenvalues, ?_, ?_⟩
  · have := Matrix.UnitaryGroup.star_mul_self hH.eigenvectorUnitary
    rw [Matrix.star_eq_conjTranspose, Matrix.conjTranspose_eq_transpose_of_trivial] at this
    exact this
  · have h1 := hH.spectral_theorem
    have h2 := Matrix.UnitaryGroup.star_mul_self hH.eigenvectorUnitary
    rw [Matrix.star_eq_conjTranspose, Matrix.conjTranspose_eq_transpose_of_trivial] at h2
    rw [Unitary.conjStarAlgAut_apply] at h1
    rw [Matrix.star_eq_conjTranspose, Matrix.conjTranspose_eq_transpose_of_trivial] at h1
    have key : ∀ V E : Matrix (Fin k) (Fin k) ℝ, S = V * E * Vᵀ → Vᵀ * V = 1 → Vᵀ * S * V = E := by
      intro V E h h2
      rw [h]
      simp only [Matrix.mul_assoc, h2, Matrix.mul_one]
      rw [← Matrix.mul_assoc, h2, Matrix.one_mul]
    exact key _ _ h1 h2

/-- the generalised problem with a positive definite matrix -/
theorem exists_gen {k : Nat} (S B : Matrix (Fin k) (Fin k) ℝ) (hS : Sᵀ = S) (hB : Bᵀ = B)
    (hpos : ∀ c : Fin k → ℝ, c ≠ 0 → 0 < c ⬝ᵥ (B *ᵥ c)) :
    ∃ (Z : Matrix (Fin k) (Fin k) ℝ) (w : Fin k → ℝ), Zᵀ * B * Z = 1 ∧ S * Z = B * Z * diagonal w ∧
      ∀ i j, i ≤ j → w i ≤ w j := by
  obtain ⟨V, β, hV, hVB⟩ := exists_orth B hB
  have hβ : ∀ i, 0 < β i := by
    intro i
    have h1 : V *ᵥ Pi.single i 1 ≠ 0 := by
      intro h0
      have h2 : Vᵀ *ᵥ (V *ᵥ Pi.single i 1) = 0 := by rw [h0, Matrix.mulVec_zero]
      rw [Matrix.mulVec_mulVec, hV, Matrix.one_mulVec] at h2
      have := congrFun h2 i
      simp at this
    have h2 := hpos _ h1
    have h3 : (V *ᵥ Pi.single i 1) ⬝ᵥ (B *ᵥ (V *ᵥ Pi.single i 1)) = β i := by
      have : (V *ᵥ Pi.single i (1 : ℝ)) ⬝ᵥ (B *ᵥ (V *ᵥ Pi.single i 1)) =
          Pi.single i 1 ⬝ᵥ ((Vᵀ * B * V) *ᵥ Pi.single i 1) := by
        rw [Matrix.mul_assoc, ← Matrix.mulVec_mulVec, ← Matrix.mulVec_mulVec, Matrix.dotProduct_mulVec (Pi.single i 1),
          Matrix.vecMul_transpose]
      rw [this, hVB]
      simp
    linarith
  have hP : (V * diagonal fun i => (Real.sqrt (β i))⁻¹)ᵀ * B * (V * diagonal fun i => (Real.sqrt (β i))⁻¹) = 1 := by
    rw [Matrix.transpose_mul, Matrix.diagonal_transpose]
    have : (diagonal fun i => (Real.sqrt (β i))⁻¹) * Vᵀ * B * (V * diagonal fun i => (Real.sqrt (β i))⁻¹) =
        (diagonal fun i => (Real.sqrt (β i))⁻¹) * (Vᵀ * B * V) * diagonal fun i => (Real.sqrt (β i))⁻¹ := by
      simp only [Matrix.mul_assoc]
    rw [this, hVB, Matrix.diagonal_mul_diagonal, Matrix.diagonal_mul_diagonal, ← Matrix.diagonal_one]
    congr 1
    funext i
    have h0 := (Real.sqrt_pos.mpr (hβ i)).ne'
    have h1 := Real.mul_self_sqrt (hβ i).le
    field_simp
    rw [pow_two, h1]
  generalize V * diagonal (fun i => (Real.sqrt (β i))⁻¹) = P at hP
  have hC : (Pᵀ * S * P)ᵀ = Pᵀ * S * P := by
    simp only [Matrix.transpose_mul, Matrix.transpose_transpose, hS, Matrix.mul_assoc]
  obtain ⟨W, γ, hW, hWC⟩ := exists_orth _ hC
  let σ := Tuple.sort γ
  let W' : Matrix (Fin k) (Fin k) ℝ := W.submatrix id σ
  have hW1 : W'ᵀ * W' = 1 := by
    have : W'ᵀ * W' = (Wᵀ * W).submatrix σ σ := by
      rw [Matrix.submatrix_mul Wᵀ W σ id σ Function.bijective_id]
      rfl
    rw [this, hW, Matrix.submatrix_one_equiv]
  have hW2 : W'ᵀ * (Pᵀ * S * P) * W' = diagonal (γ ∘ σ) := by
    have : W'ᵀ * (Pᵀ * S * P) * W' = (Wᵀ * (Pᵀ * S * P) * W).submatrix σ σ := by
      rw [Matrix.submatrix_mul (Wᵀ * (Pᵀ * S * P)) W σ id σ Function.bijective_id,
        Matrix.submatrix_mul Wᵀ (Pᵀ * S * P) σ id id Function.bijective_id]
      rfl
    rw [this, hWC, Matrix.submatrix_diagonal_equiv]
  refine ⟨P * W', γ ∘ σ, ?_, ?_, ?_⟩
  · have : (P * W')ᵀ * B * (P * W') = W'ᵀ * (Pᵀ * B * P) * W' := by
      simp only [Matrix.transpose_mul, Matrix.mul_assoc]
    rw [this, hP, Matrix.mul_one, hW1]
  · have hZB : (P * W')ᵀ * (B * (P * W')) = 1 := by
      have : (P * W')ᵀ * (B * (P * W')) = W'ᵀ * (Pᵀ * B * P) * W' := by
        simp only [Matrix.transpose_mul, Matrix.mul_assoc]
      rw [this, hP, Matrix.mul_one, hW1]
    have hinv := mul_eq_one_comm.mp hZB
    have hd : (P * W')ᵀ * (S * (P * W')) = diagonal (γ ∘ σ) := by
      have : (P * W')ᵀ * (S * (P * W')) = W'ᵀ * (Pᵀ * S * P) * W' := by
        simp only [Matrix.transpose_mul, Matrix.mul_assoc]
      rw [this, hW2]
    rw [← hd, ← Matrix.mul_assoc (B * (P * W')), hinv, Matrix.one_mul]
  · intro i j hij
    exact Tuple.monotone_sort γ hij

/-- the array that holds a matrix, column by column -/
def cols {k : Nat} (Z : Matrix (Fin k) (Fin k) ℝ) : List ℝ :=
  (List.ofFn (id : Fin k → Fin k)).flatMap fun j => List.ofFn fun i => Z i j

theorem cols_length {k : Nat} (Z : Matrix (Fin k) (Fin k) ℝ) : (cols Z).length = k * k := by
  unfold cols
  rw [List.length_flatMap]
  simp [Function.comp_def, List.ofFn_const]

theorem cm_cols {k : Nat} (Z : Matrix (Fin k) (Fin k) ℝ) (i j : Fin k) : cm (cols Z) k i j = Z i j := by
  unfold cm cols
  rw [List.getD, getElem?_flatMap _ k _ (by simp) j i j i.2 (by simp [List.getElem?_ofFn])]
  simp [List.getElem?_ofFn]

theorem mat_cols {k : Nat} (Z : Matrix (Fin k) (Fin k) ℝ) : mat k (cm (cols Z) k) = Z := by
  ext i j
  exact cm_cols Z i j

theorem mat_sym {k : Nat} (a : List ℝ) : (mat k (sym false a k))ᵀ = mat k (sym false a k) := by
  ext i j
  simp only [mat, Matrix.transpose_apply, Matrix.of_apply, sym, Bool.false_eq_true, if_false]
  split
  · split
    · have : i = j := Fin.ext (by omega)
      rw [this]
    · rfl
  · split
    · rfl
    · omega

/-- a correct answer of `dsygvd` -/
def Answer (k : Nat) (a b z e w : List ℝ) : Prop :=
  SygvdOk 1 false k a k b k (z, e, w, 0) ∧ SygvdNormal 1 false k b k k (z, e, w, 0)

theorem exists_answer {k : Nat} (hk : 0 < k) {a b : List ℝ} (ha : a.length = k * k) (hb : b.length = k * k)
    (hpos : ∀ c : Fin k → ℝ, c ≠ 0 → 0 < c ⬝ᵥ (mat k (sym false b k) *ᵥ c)) : ∃ z e w, Answer k a b z e w := by
  obtain ⟨Z, w, h1, h2, h3⟩ := exists_gen (mat k (sym false a k)) (mat k (sym false b k)) (mat_sym a) (mat_sym b) hpos
  have hw : ∀ i : Fin k, (List.ofFn w).getD i 0 = w i := by
    intro i
    simp [List.getD, List.getElem?_ofFn]
  refine ⟨cols Z, b, List.ofFn w, ⟨⟨?_, rfl⟩, ?_, fun _ => by simp, ?_, ?_, ?_⟩, ?_⟩
  · rw [cols_length, ha]
  · intro h
    exfalso
    rcases h with h | h | h | h
    · omega
    · omega
    · rw [max_eq_right (by omega)] at h; omega
    · rw [max_eq_right (by omega)] at h; omega
  · intro _ l hl i hi
    rw [if_pos rfl]
    have e := congrFun (congrFun h2 ⟨i, hi⟩) ⟨l, hl⟩
    rw [Matrix.mul_diagonal, Matrix.mul_apply, Matrix.mul_apply] at e
    have mv : ∀ (F : Nat → Nat → ℝ), Spec.mulVec k F (fun j => cm (cols Z) k j l) i =
        ∑ j : Fin k, F i j * Z j ⟨l, hl⟩ := by
      intro F
      unfold Spec.mulVec
      rw [Finset.sum_range]
      refine Finset.sum_congr rfl fun j _ => ?_
      rw [← cm_cols Z j ⟨l, hl⟩]
    dsimp only
    rw [mv, mv, hw ⟨l, hl⟩, mul_comm]
    exact e
  · intro _ l hl
    by_contra hno
    have hz : ∀ i : Fin k, Z i ⟨l, hl⟩ = 0 := by
      intro i
      by_contra hne
      exact hno ⟨i, i.2, by dsimp only; rw [cm_cols Z i ⟨l, hl⟩]; exact hne⟩
    have := congrFun (congrFun h1 ⟨l, hl⟩) ⟨l, hl⟩
    rw [Matrix.mul_apply, Matrix.one_apply_eq] at this
    simp [hz] at this
  · intro _ i j hij hj
    have := h3 ⟨i, by omega⟩ ⟨j, hj⟩ hij
    dsimp only
    rw [hw ⟨i, by omega⟩, hw ⟨j, hj⟩]
    exact this
  · intro _
    rw [if_neg (by decide)]
    dsimp only
    rw [mat_cols]
    exact h1

open Classical in
/-- a `dsygvd` over the real numbers -/
noncomputable def realLib : Lib (Ext ℝ) where
  getrf _ _ a _ := (a, [], 0)
  getrs _ _ _ _ _ _ b _ := (b, 0)
  sytrf _ _ a _ _ := (a, [], 0)
  sytrs _ _ _ _ _ _ b _ := (b, 0)
  syevd _ _ _ a _ := (a, [], 0)
  sygvd _ _ _ k a _ b _ :=
    if h : ∃ t : List ℝ × List ℝ × List ℝ × List ℝ × List ℝ, a = t.1.map Ext.fin ∧ b = t.2.1.map Ext.fin ∧
        Answer k t.1 t.2.1 t.2.2.1 t.2.2.2.1 t.2.2.2.2 then
      (h.choose.2.2.1.map Ext.fin, h.choose.2.2.2.1.map Ext.fin, h.choose.2.2.2.2.map Ext.fin, 0)
    else ([], [], [], if k = 0 then -6 else 2 * k)

theorem realLib_dsygvd : Dsygvd realLib := by
  intro k a b _ _ h0
  have hinj : ∀ x y : List ℝ, x.map Ext.fin = y.map Ext.fin → x = y := by
    intro x y hxy
    exact List.map_injective_iff.mpr (fun _ _ hh => Ext.fin.inj hh) hxy
  simp only [realLib] at h0 ⊢
  split at h0
  · rename_i h
    simp only [dif_pos h]
    obtain ⟨h1, h2, h3⟩ := h.choose_spec
    rw [← hinj _ _ h1, ← hinj _ _ h2] at h3
    exact ⟨_, _, _, rfl, rfl, h3.1, h3.2⟩
  · exfalso
    dsimp only at h0
    split at h0 <;> omega

theorem realLib_completes : DsygvdCompletes realLib := by
  intro k a b hk ha hb
  by_cases hpos : ∀ c : Fin k → ℝ, c ≠ 0 → 0 < c ⬝ᵥ (mat k (sym false b k) *ᵥ c)
  · left
    obtain ⟨z, e, w, h⟩ := exists_answer hk ha hb hpos
    simp only [realLib]
    rw [dif_pos ⟨(a, b, z, e, w), rfl, rfl, h⟩]
  · by_cases h0 : (realLib.sygvd 1 true false k (a.map Ext.fin) k (b.map Ext.fin) k).2.2.2 = 0
    · exact .inl h0
    · right
      push Not at hpos
      obtain ⟨c, hc0, hc⟩ := hpos
      refine ⟨k, hk, Nat.le_refl _, ?_, c, hc0, fun j hj => absurd j.2 (by omega), hc⟩
      simp only [realLib] at h0 ⊢
      split at h0
      · exact absurd rfl h0
      · rename_i hn
        rw [dif_neg hn]
        dsimp only
        rw [if_neg (by omega)]
        omega

end Verif.Lobpcg
