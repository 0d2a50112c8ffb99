import Verif.Spec.IncompleteSpec
import Verif.Props.CGTerm
import Verif.Props.SolverMat
import Verif.Props.Reduce
import Mathlib.LinearAlgebra.Matrix.Block

/-!
C113: the incomplete factorisations `equation::ILU` and `equation::IC`.
-/

namespace Verif.Incomplete

open Verif.Spec Verif.Solver Matrix

variable {K : Type} [Field K] {n : Nat}

/-! ### The stored positions -/

theorem zip_fst {α β : Type} : ∀ (l : List Nat) (v : List α) (w : List β), v.length = w.length →
    (l.zip v).map (·.1) = (l.zip w).map (·.1) := by
  intro l
  induction l with
  | nil => intro v w _; rfl
  | cons a l ih =>
    intro v w h
    cases v with
    | nil => cases w with
      | nil => rfl
      | cons => simp at h
    | cons x v => cases w with
      | nil => simp at h
      | cons y w => simpa using ih v w (by simpa using h)

theorem rowEntries_pos {α : Type} (A : Crs α) (v : List α) (h : v.length = A.val.length) (i : Nat) :
    (Crs.rowEntries { A with val := v } i).map (fun e => (e.1, e.2.1)) =
      (A.rowEntries i).map (fun e => (e.1, e.2.1)) := by
  have e := zip_fst A.colInd v A.val h
  unfold Crs.rowEntries
  simp only [List.map_map, Function.comp_def]
  have q : ∀ (L : List (Nat × α)), L.map (fun x => (i, x.1)) = (L.map (·.1)).map fun c => (i, c) := by
    intro L; simp [List.map_map]
  rw [q, q]
  congr 1
  rw [List.map_drop, List.map_take, List.map_drop, List.map_take, e]
  rfl

theorem stored_of (A : Crs K) (v : List K) (h : v.length = A.val.length) {i j : Nat} :
    Stored { A with val := v } i j ↔ Stored A i j := by
  have key : ∀ (B : Crs K), Stored B i j ↔ (i, j) ∈ B.entries.map (fun e => (e.1, e.2.1)) := by
    intro B
    unfold Stored
    constructor
    · rintro ⟨v, hv⟩; exact List.mem_map.mpr ⟨_, hv, rfl⟩
    · intro hm
      obtain ⟨⟨a, b, c⟩, he, e⟩ := List.mem_map.mp hm
      cases e
      exact ⟨c, he⟩
  rw [key, key]
  unfold Crs.entries
  simp only [List.map_flatMap, rowEntries_pos A v h]

theorem crsMat_absent (A : Crs K) {i j : Fin n} (h : ¬ Stored A i j) : crsMat n A i j = 0 := by
  show sumAt A.entries i j = 0
  unfold sumAt
  have : A.entries.filter (fun x => x.1 == i.val && x.2.1 == j.val) = [] := by
    rw [List.filter_eq_nil_iff]
    intro e he hc
    simp only [Bool.and_eq_true, beq_iff_eq] at hc
    refine h ⟨e.2.2, ?_⟩
    rw [← hc.1, ← hc.2]; exact he
  rw [this]; rfl

/-- only the first `nnz` values count -/
theorem entries_take {A : Crs K} (hA : A.Safe) : Crs.entries { A with val := A.val.take A.nnz } = A.entries := by
  unfold Crs.entries
  apply List.flatMap_congr
  intro i hi
  have hi' : i < A.rowN := List.mem_range.mp hi
  have hp := hA.ptr_le (i + 1) (by omega)
  unfold Crs.rowEntries
  congr 2
  show (A.colInd.zip (A.val.take A.nnz)).take (A.ptr (i + 1)) = (A.colInd.zip A.val).take (A.ptr (i + 1))
  simp only [List.zip, List.take_zipWith, List.take_take, Nat.min_eq_left hp]

/-! ### Exactness without fill-in -/

theorem ilu_exact {S : Nat → Nat → Prop} {A F : Matrix (Fin n) (Fin n) K} (h : IsIlu0 S A F) (hS : NoFill n S)
    (hA : ∀ i j : Fin n, ¬ S i j → A i j = 0) (hF : ∀ i j : Fin n, ¬ S i j → F i j = 0) :
    unitLower F * upperPart F = A := by
  ext i j
  by_cases hs : S i j
  · exact h.2 i j hs
  rw [hA i j hs, Matrix.mul_apply]
  apply Finset.sum_eq_zero
  intro k _
  simp only [unitLower, upperPart, Matrix.of_apply]
  rcases lt_trichotomy k i with hki | hki | hki
  · rw [if_pos hki]
    rcases lt_trichotomy k j with hkj | hkj | hkj
    · rw [if_pos (le_of_lt hkj)]
      by_cases h1 : S i k
      · by_cases h2 : S k j
        · exact absurd (hS i j k i.2 j.2 hki hkj h1 h2) hs
        · rw [hF k j h2, mul_zero]
      · rw [hF i k h1, zero_mul]
    · subst hkj; rw [hF i k hs, zero_mul]
    · rw [if_neg (not_le.mpr hkj), mul_zero]
  · subst hki
    rw [if_neg (lt_irrefl _), if_pos rfl]
    by_cases hkj : k ≤ j
    · rw [if_pos hkj, hF k j hs, mul_zero]
    · rw [if_neg hkj, mul_zero]
  · rw [if_neg (not_lt.mpr (le_of_lt hki)), if_neg (ne_of_lt hki), zero_mul]

theorem ic_exact {S : Nat → Nat → Prop} {A F : Matrix (Fin n) (Fin n) K} (h : IsIc0 S A F) (hS : NoFill n S)
    (hsym : ∀ i j, S i j → S j i) (hAt : Aᵀ = A)
    (hA : ∀ i j : Fin n, ¬ S i j → A i j = 0) (hF : ∀ i j : Fin n, ¬ S i j → F i j = 0) :
    lowerPart F * (lowerPart F)ᵀ = A := by
  have low : ∀ i j : Fin n, j ≤ i → (lowerPart F * (lowerPart F)ᵀ) i j = A i j := by
    intro i j hij
    by_cases hs : S i j
    · exact h.2 i j hij hs
    rw [hA i j hs, Matrix.mul_apply]
    apply Finset.sum_eq_zero
    intro k _
    simp only [lowerPart, Matrix.of_apply, Matrix.transpose_apply]
    rcases lt_trichotomy k j with hkj | hkj | hkj
    · have hki : k < i := lt_of_lt_of_le hkj hij
      by_cases h1 : S i k
      · by_cases h2 : S j k
        · exact absurd (hS i j k i.2 j.2 hki hkj h1 (hsym _ _ h2)) hs
        · rw [hF j k h2]; simp
      · rw [hF i k h1]; simp
    · subst hkj; rw [hF i k hs]; simp
    · rw [if_neg (not_le.mpr hkj) (c := k ≤ j), mul_zero]
  have hT : (lowerPart F * (lowerPart F)ᵀ)ᵀ = lowerPart F * (lowerPart F)ᵀ := by
    rw [Matrix.transpose_mul, Matrix.transpose_transpose]
  ext i j
  rcases le_total j i with hij | hij
  · exact low i j hij
  · have := low j i hij
    rw [← Matrix.transpose_apply (lowerPart F * (lowerPart F)ᵀ) i j, hT] at this
    rw [this, ← Matrix.transpose_apply A i j, hAt]

/-! ### Triangular matrices can be inverted -/

theorem det_unitLower (F : Matrix (Fin n) (Fin n) K) : (unitLower F).det = 1 := by
  rw [Matrix.det_of_lowerTriangular]
  · apply Finset.prod_eq_one
    intro i _
    simp [unitLower]
  · intro i j hij
    have hij' : i < j := hij
    simp only [unitLower, Matrix.of_apply]
    rw [if_neg (not_lt.mpr (le_of_lt hij')), if_neg (ne_of_lt hij')]

theorem det_upperPart {F : Matrix (Fin n) (Fin n) K} (h : ∀ i, F i i ≠ 0) : (upperPart F).det ≠ 0 := by
  rw [Matrix.det_of_upperTriangular]
  · rw [Finset.prod_ne_zero_iff]
    intro i _
    simpa [upperPart] using h i
  · intro i j hij
    have hij' : j < i := hij
    simp only [upperPart, Matrix.of_apply]
    rw [if_neg (not_le.mpr hij')]

theorem det_lowerPart {F : Matrix (Fin n) (Fin n) K} (h : ∀ i, F i i ≠ 0) : (lowerPart F).det ≠ 0 := by
  rw [Matrix.det_of_lowerTriangular]
  · rw [Finset.prod_ne_zero_iff]
    intro i _
    simpa [lowerPart] using h i
  · intro i j hij
    have hij' : i < j := hij
    simp only [lowerPart, Matrix.of_apply]
    rw [if_neg (not_le.mpr hij')]

/-- the solution of a system with an invertible matrix -/
theorem eq_inv_mulVec {M : Matrix (Fin n) (Fin n) K} (h : M.det ≠ 0) {y b : Fin n → K} (e : M *ᵥ y = b) :
    y = M⁻¹ *ᵥ b := by
  rw [← e, Matrix.mulVec_mulVec, Matrix.nonsing_inv_mul _ (isUnit_iff_ne_zero.mpr h), Matrix.one_mulVec]

/-! ### The factorisation and the two triangular solves -/

/-- what cuSPARSE is given -/
theorem given {A : DCrs K} (hA : A.mat.Safe) :
    valuesOf A = .ok (A.mat.val.take A.mat.nnz) ∧ Readable { A.mat with val := A.mat.val.take A.mat.nnz } ∧
      crsMat n { A.mat with val := A.mat.val.take A.mat.nnz } = crsMat n A.mat ∧
      ∀ i j, Stored { A.mat with val := A.mat.val.take A.mat.nnz } i j ↔ Stored A.mat i j := by
  have hlen : A.mat.nnz ≤ A.mat.val.length := by have := hA.nnz_le; have := hA.lenV; omega
  refine ⟨readN_ok hlen, ⟨hA.lenP, hA.ptr_le, hA.lenC, ?_, hA.col_lt⟩, ?_, ?_⟩
  · simp only [List.length_take]; omega
  · unfold crsMat crsAt; rw [entries_take hA]
  · intro i j; unfold Stored; rw [entries_take hA]

/-- the factors cuSPARSE returns when it reports no zero pivot -/
theorem ilu_factors {cu : CuSparse K} (hcu : CuSparseOk cu) {A : DCrs K} (hA : A.mat.Safe) (hr : A.mat.rowN = n)
    (hc : A.mat.colN = n) {m : List K} (hm : cu.ilu0 { A.mat with val := A.mat.val.take A.mat.nnz } = (m, false)) :
    IsIlu0 (Stored A.mat) (crsMat n A.mat) (crsMat n { A.mat with val := m }) ∧
      (NoFill n (Stored A.mat) →
        unitLower (crsMat n { A.mat with val := m }) * upperPart (crsMat n { A.mat with val := m }) =
          crsMat n A.mat) := by
  obtain ⟨-, hR, hM, hS⟩ := given (n := n) hA
  obtain ⟨h1, h2⟩ := hcu.ilu _ n m hR hr hc hm
  rw [hM] at h2
  have hst : ∀ i j, Stored { A.mat with val := m } i j ↔ Stored A.mat i j := fun i j =>
    (stored_of { A.mat with val := A.mat.val.take A.mat.nnz } m h1).trans (hS i j)
  have h3 : IsIlu0 (Stored A.mat) (crsMat n A.mat) (crsMat n { A.mat with val := m }) :=
    ⟨h2.1, fun i j hs => h2.2 i j ((hS i j).mpr hs)⟩
  exact ⟨h3, fun hN => ilu_exact h3 hN (fun i j h => crsMat_absent _ h)
    fun i j h => crsMat_absent _ (fun h' => h ((hst i j).mp h'))⟩

theorem ic_factors {cu : CuSparse K} (hcu : CuSparseOk cu) {A : DCrs K} (hA : A.mat.Safe) (hr : A.mat.rowN = n)
    (hc : A.mat.colN = n) {m : List K} (hm : cu.ic0 { A.mat with val := A.mat.val.take A.mat.nnz } = (m, false)) :
    IsIc0 (Stored A.mat) (crsMat n A.mat) (crsMat n { A.mat with val := m }) ∧
      (NoFill n (Stored A.mat) → (∀ i j, Stored A.mat i j → Stored A.mat j i) →
        (crsMat n A.mat)ᵀ = crsMat n A.mat →
        lowerPart (crsMat n { A.mat with val := m }) * (lowerPart (crsMat n { A.mat with val := m }))ᵀ =
          crsMat n A.mat) := by
  obtain ⟨-, hR, hM, hS⟩ := given (n := n) hA
  obtain ⟨h1, h2⟩ := hcu.ic _ n m hR hr hc hm
  rw [hM] at h2
  have hst : ∀ i j, Stored { A.mat with val := m } i j ↔ Stored A.mat i j := fun i j =>
    (stored_of { A.mat with val := A.mat.val.take A.mat.nnz } m h1).trans (hS i j)
  have h3 : IsIc0 (Stored A.mat) (crsMat n A.mat) (crsMat n { A.mat with val := m }) :=
    ⟨h2.1, fun i j hij hs => h2.2 i j hij ((hS i j).mpr hs)⟩
  exact ⟨h3, fun hN hsym hT => ic_exact h3 hN hsym hT (fun i j h => crsMat_absent _ h)
    fun i j h => crsMat_absent _ (fun h' => h ((hst i j).mp h'))⟩

theorem ilu_triangles {cu : CuSparse K} (hcu : CuSparseOk cu) {A : Crs K} (hr : A.rowN = n) {m : List K}
    (hF : ∀ i, crsMat n { A with val := m } i i ≠ 0) (x b : DVec K) (hx : x.on = true) (hb : b.on = true)
    (hxl : x.dev.length = n) (bv : Fin n → K) (hbv : b.dev = List.ofFn bv) :
    iluTriangles cu A m x b = .ok { x with dev := (List.ofFn
        ((unitLower (crsMat n { A with val := m }) * upperPart (crsMat n { A with val := m }))⁻¹ *ᵥ bv)) } := by
  subst hr
  obtain ⟨t, e1, e2⟩ := hcu.unitLower { A with val := m } bv
  obtain ⟨y, e3, e4⟩ := hcu.upper { A with val := m } t hF
  have hd : devicePtrs A.rowN x b = .ok () := by
    unfold devicePtrs
    rw [hx, hb, hbv]
    simp [hxl]
  unfold iluTriangles
  rw [hd, hbv]
  simp only [Res.ok_bind, e1, e3]
  have hy : y = (unitLower (crsMat A.rowN { A with val := m }) * upperPart (crsMat A.rowN { A with val := m }))⁻¹ *ᵥ bv := by
    apply eq_inv_mulVec
    · rw [Matrix.det_mul, det_unitLower, one_mul]; exact det_upperPart hF
    · rw [← Matrix.mulVec_mulVec, e4, e2]
  rw [← hy]

theorem ic_triangles {cu : CuSparse K} (hcu : CuSparseOk cu) {A : Crs K} (hr : A.rowN = n) {m : List K}
    (hF : ∀ i, crsMat n { A with val := m } i i ≠ 0) (x b : DVec K) (hx : x.on = true) (hb : b.on = true)
    (hxl : x.dev.length = n) (bv : Fin n → K) (hbv : b.dev = List.ofFn bv) :
    icTriangles cu A m x b = .ok { x with dev := (List.ofFn
        ((lowerPart (crsMat n { A with val := m }) * (lowerPart (crsMat n { A with val := m }))ᵀ)⁻¹ *ᵥ bv)) } := by
  subst hr
  obtain ⟨t, e1, e2⟩ := hcu.lower { A with val := m } bv hF
  obtain ⟨y, e3, e4⟩ := hcu.lowerT { A with val := m } t hF
  have hd : devicePtrs A.rowN x b = .ok () := by
    unfold devicePtrs
    rw [hx, hb, hbv]
    simp [hxl]
  unfold icTriangles
  rw [hd, hbv]
  simp only [Res.ok_bind, e1, e3]
  have hy : y = (lowerPart (crsMat A.rowN { A with val := m }) * (lowerPart (crsMat A.rowN { A with val := m }))ᵀ)⁻¹ *ᵥ bv := by
    apply eq_inv_mulVec
    · rw [Matrix.det_mul, Matrix.det_transpose]; exact mul_ne_zero (det_lowerPart hF) (det_lowerPart hF)
    · rw [← Matrix.mulVec_mulVec, e4, e2]
  rw [← hy]

/-! ### The property -/

/-- the matrix as it is on the device -/
def onDevice (A : DCrs K) : Crs K := { A.mat with val := A.dev }

/-- the data of a GPU run: square matrix and vectors on the device, host and device values of the matrix equal -/
structure Ready (n : Nat) (A : DCrs K) : Prop where
  safe : A.mat.Safe
  row : A.mat.rowN = n
  col : A.mat.colN = n
  on : A.on = true
  synced : A.dev = A.mat.val

omit [Field K] in
theorem Ready.onDevice {A : DCrs K} (h : Ready n A) : onDevice A = A.mat := by
  unfold Incomplete.onDevice; rw [h.synced]

/-- no zero pivot is reported for the values on the host -/
def IluPivots (cu : CuSparse K) (A : DCrs K) : Prop :=
  (cu.ilu0 { A.mat with val := A.mat.val.take A.mat.nnz }).2 = false

def IcPivots (cu : CuSparse K) (A : DCrs K) : Prop :=
  (cu.ic0 { A.mat with val := A.mat.val.take A.mat.nnz }).2 = false

/-- **C113 (ILU).** `ILU::solve` in a GPU build, everything on the device and the host copy of the matrix up to date:
either an exception because a zero pivot was met, or SUCCESS and the `x` with `L U x = b`, where `L U` is an incomplete factorisation of the matrix
without fill-in; if elimination produces no new positions, `A x = b`. In double precision provided no zero pivot is
met. -/
theorem C113_ilu_solve_partial (cu : CuSparse K) (hcu : CuSparseOk cu) (dbl : Bool) (A : DCrs K) (hA : Ready n A)
    (hp : dbl = true → IluPivots cu A) (x b : DVec K) (hx : x.on = true) (hb : b.on = true)
    (hxl : x.dev.length = n) (bv : Fin n → K) (hbv : b.dev = List.ofFn bv) :
    (¬ IluPivots cu A ∧ ∃ e, iluSolve true dbl cu 0 A x b = .throw e) ∨
    ∃ y F, iluSolve true dbl cu 0 A x b = .ok (SUCCESS, { x with dev := List.ofFn y }) ∧
      IsIlu0 (Stored (onDevice A)) (crsMat n (onDevice A)) F ∧ (unitLower F * upperPart F) *ᵥ y = bv ∧
      (NoFill n (Stored (onDevice A)) → crsMat n (onDevice A) *ᵥ y = bv) := by
  have hck : solveChecks true A x b = .ok () := by
    unfold solveChecks
    rw [if_neg (by rw [hA.row, hA.col]; simp), hA.on, hx, hb]
    simp
  obtain ⟨hv, -⟩ := given (n := n) hA.safe
  rw [hA.onDevice]
  unfold iluSolve
  rw [if_pos rfl, hck, hv]
  simp only [Res.ok_bind]
  cases hm : cu.ilu0 { A.mat with val := A.mat.val.take A.mat.nnz } with
  | mk m z =>
    cases z with
    | true =>
      cases dbl with
      | true => have := hp rfl; unfold IluPivots at this; rw [hm] at this; exact absurd this (by simp)
      | false => exact Or.inl ⟨by unfold IluPivots; rw [hm]; simp, "ILU error.", rfl⟩
    | false =>
      right
      obtain ⟨h1, h2⟩ := ilu_factors hcu hA.safe hA.row hA.col hm
      have ht := ilu_triangles hcu hA.row h1.1 x b hx hb hxl bv hbv
      have hpv : pivots dbl "ILU error." (m, false) = .ok m := rfl
      have hdet : (unitLower (crsMat n { A.mat with val := m }) * upperPart (crsMat n { A.mat with val := m })).det ≠ 0 := by
        rw [Matrix.det_mul, det_unitLower, one_mul]; exact det_upperPart h1.1
      have hsol : (unitLower (crsMat n { A.mat with val := m }) * upperPart (crsMat n { A.mat with val := m })) *ᵥ
          ((unitLower (crsMat n { A.mat with val := m }) * upperPart (crsMat n { A.mat with val := m }))⁻¹ *ᵥ bv) = bv := by
        rw [Matrix.mulVec_mulVec, Matrix.mul_nonsing_inv _ (isUnit_iff_ne_zero.mpr hdet), Matrix.one_mulVec]
      refine ⟨_, crsMat n { A.mat with val := m }, ?_, h1, hsol, fun hN => ?_⟩
      · rw [hpv]; simp only [Res.ok_bind, ht]
      · rw [h2 hN] at hsol ⊢; exact hsol

/-- **C113 (IC).** The same for `IC::solve` and a symmetric matrix: `L Lᵀ x = b`. -/
theorem C113_ic_solve_partial (cu : CuSparse K) (hcu : CuSparseOk cu) (dbl : Bool) (A : DCrs K) (hA : Ready n A)
    (hp : dbl = true → IcPivots cu A) (x b : DVec K) (hx : x.on = true) (hb : b.on = true)
    (hxl : x.dev.length = n) (bv : Fin n → K) (hbv : b.dev = List.ofFn bv) :
    (¬ IcPivots cu A ∧ ∃ e, icSolve true dbl cu 0 A x b = .throw e) ∨
    ∃ y F, icSolve true dbl cu 0 A x b = .ok (SUCCESS, { x with dev := List.ofFn y }) ∧
      IsIc0 (Stored (onDevice A)) (crsMat n (onDevice A)) F ∧ (lowerPart F * (lowerPart F)ᵀ) *ᵥ y = bv ∧
      (NoFill n (Stored (onDevice A)) → (∀ i j, Stored (onDevice A) i j → Stored (onDevice A) j i) →
        (crsMat n (onDevice A))ᵀ = crsMat n (onDevice A) → crsMat n (onDevice A) *ᵥ y = bv) := by
  have hck : solveChecks true A x b = .ok () := by
    unfold solveChecks
    rw [if_neg (by rw [hA.row, hA.col]; simp), hA.on, hx, hb]
    simp
  obtain ⟨hv, -⟩ := given (n := n) hA.safe
  rw [hA.onDevice]
  unfold icSolve
  rw [if_pos rfl, hck, hv]
  simp only [Res.ok_bind]
  cases hm : cu.ic0 { A.mat with val := A.mat.val.take A.mat.nnz } with
  | mk m z =>
    cases z with
    | true =>
      cases dbl with
      | true => have := hp rfl; unfold IcPivots at this; rw [hm] at this; exact absurd this (by simp)
      | false => exact Or.inl ⟨by unfold IcPivots; rw [hm]; simp, "IC error.", rfl⟩
    | false =>
      right
      obtain ⟨h1, h2⟩ := ic_factors hcu hA.safe hA.row hA.col hm
      have ht := ic_triangles hcu hA.row h1.1 x b hx hb hxl bv hbv
      have hpv : pivots dbl "IC error." (m, false) = .ok m := rfl
      have hdet : (lowerPart (crsMat n { A.mat with val := m }) * (lowerPart (crsMat n { A.mat with val := m }))ᵀ).det ≠ 0 := by
        rw [Matrix.det_mul, Matrix.det_transpose]; exact mul_ne_zero (det_lowerPart h1.1) (det_lowerPart h1.1)
      have hsol : (lowerPart (crsMat n { A.mat with val := m }) * (lowerPart (crsMat n { A.mat with val := m }))ᵀ) *ᵥ
          ((lowerPart (crsMat n { A.mat with val := m }) * (lowerPart (crsMat n { A.mat with val := m }))ᵀ)⁻¹ *ᵥ bv) = bv := by
        rw [Matrix.mulVec_mulVec, Matrix.mul_nonsing_inv _ (isUnit_iff_ne_zero.mpr hdet), Matrix.one_mulVec]
      refine ⟨_, crsMat n { A.mat with val := m }, ?_, h1, hsol, fun hN hs hT => ?_⟩
      · rw [hpv]; simp only [Res.ok_bind, ht]
      · rw [h2 hN hs hT] at hsol ⊢; exact hsol

end Verif.Incomplete
