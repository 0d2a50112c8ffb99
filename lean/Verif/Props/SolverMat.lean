import Verif.Model.SolverMat
import Verif.Props.Matvec
import Verif.Props.Getvec
import Verif.Props.Reduce
import Verif.Props.CGTerm
import Mathlib.Tactic.FinCases
import Mathlib.Tactic.Linarith
import Mathlib.Tactic.NormNum
import Mathlib.Algebra.Order.Field.Rat
import Mathlib.Data.Rat.Cast.Order

/-! CRS and Dense objects meet the matrix hypothesis of the solver theorems, so these theorems are
about the real matrix formats, for every schedule of the parallel loops. -/

set_option linter.unusedSectionVars false

namespace Verif.Solver

open Verif.Spec Matrix

variable {α K : Type} {n : Nat} [Field K] [LinearOrder K]

theorem buf_eq_vec {w : Win K} {f : Fin n → K} (hoff : w.off = 0) (hlen : w.buf.length = n)
    (h : ∀ i : Fin n, w.get i = .ok (f i)) : w.buf = vec id f := by
  apply List.ext_getElem
  · rw [hlen, vec_length]
  · intro i h1 h2
    have := h ⟨i, by omega⟩
    simp only [Win.get, hoff, Nat.zero_add] at this
    rw [rd_eq_ok] at this
    rw [List.getElem?_eq_getElem h1] at this
    injection this with this
    rw [this]
    simp [vec]

/-- an arbitrary extension of a vector to all indices -/
def ext (v : Fin n → K) : Nat → K := fun j => if h : j < n then v ⟨j, h⟩ else 0

theorem ext_get (v : Fin n → K) (j : Nat) (hj : j < (vec id v).length) :
    (⟨vec id v, 0, (vec id v).length⟩ : Win K).get j = .ok (ext v j) := by
  have hj' : j < n := by simpa [vec_length] using hj
  simp only [Win.get, Nat.zero_add]
  rw [rd_eq_ok, List.getElem?_eq_getElem hj]
  simp [vec, ext, hj']

theorem mulVec_ext (f : Nat → Nat → K) (v : Fin n → K) (i : Fin n) :
    Spec.mulVec n f (ext v) i = (Matrix.of (fun i j : Fin n => f i j) *ᵥ v) i := by
  simp only [Spec.mulVec, Matrix.mulVec, dotProduct, Matrix.of_apply]
  rw [Finset.sum_range]
  apply Finset.sum_congr rfl
  intro j _
  simp [ext]

theorem lastAt_eq_crsAt {A : Crs K} (hd : DistinctPos A.entries) (i j : Nat) :
    lastAt A.entries i j = crsAt A i j := by
  by_cases h : ∃ e ∈ A.entries, e.1 = i ∧ e.2.1 = j
  · obtain ⟨e, he, h1, h2⟩ := h
    subst h1; subst h2
    rw [lastAt_of_mem hd he]
    exact (sumAt_distinct hd he).symm
  · have hn : ∀ e ∈ A.entries, ¬ (e.1 = i ∧ e.2.1 = j) := fun e he hc => h ⟨e, he, hc⟩
    rw [lastAt_of_not_mem hn]
    exact (sumAt_absent hn).symm

/-- every square CRS matrix without repeated positions, every schedule -/
theorem isMat_crs (A : Crs K) (hA : A.Safe) (hd : DistinctPos A.entries) (hr : A.rowN = n)
    (hc : A.colN = n) (order zo : List Nat) (ho : Order order n) (hz : Order zo n) :
    IsMat (ofCrs order zo A) id (Matrix.of (fun i j : Fin n => crsAt A i j)) where
  row := hr
  col := hc
  mv v := by
    have hy : (⟨List.replicate A.rowN (0 : K), 0, A.rowN⟩ : Win K).Ok := by simp [Win.Ok]
    obtain ⟨y, h1, h2, h3⟩ := C16_matvec A hA ⟨vec id v, 0, (vec id v).length⟩
      ⟨List.replicate A.rowN 0, 0, A.rowN⟩ (by simp [vec_length, hc]) rfl hy (ext v) (ext_get v)
      order (by rw [hr]; exact ho)
    simp only [ofCrs, h1, Res.ok_bind]
    congr 1
    refine buf_eq_vec h2.off (by rw [h2.len]; simp [hr]) (fun i => ?_)
    rw [h3 i (by have := i.2; omega), hc]
    rw [mulVec_ext]
  diag := by
    have hy : (⟨List.replicate A.rowN (0 : K), 0, A.rowN⟩ : Win K).Ok := by simp [Win.Ok]
    have hm : min A.rowN A.colN = n := by omega
    obtain ⟨d, h1, h2, h3⟩ := C19_crs_diag_partial hA (zo := zo) (order := order)
      (by rw [hm]; exact hz) (by rw [hm]; exact ho) hy rfl (by show A.rowN = _; omega)
    simp only [ofCrs, h1, Res.ok_bind]
    congr 1
    refine buf_eq_vec h2.off (by rw [h2.len]; simp [hr]) (fun i => ?_)
    rw [h3 i (by have := i.2; omega), lastAt_eq_crsAt hd]
    rfl

/-- every square Dense matrix at offset 0, every schedule -/
theorem isMat_dense (A : Dense K) (hA : A.WF) (h0 : A.first = 0) (f : Nat → Nat → K)
    (hf : A.Reads f) (hr : A.rowN = n)
    (hc : A.colN = n) (order : List Nat) (ho : Order order n) :
    IsMat (ofDense order A) id (Matrix.of (fun i j : Fin n => f i j)) where
  row := hr
  col := hc
  mv v := by
    have hy : (⟨List.replicate A.rowN (0 : K), 0, A.rowN⟩ : Win K).Ok := by simp [Win.Ok]
    obtain ⟨y, h1, h2, h3⟩ := (C17_dense A hA ⟨vec id v, 0, (vec id v).length⟩
      ⟨List.replicate A.rowN 0, 0, A.rowN⟩ 1 0 f hf hy (ext v) (ext_get v)).1
      (by simp [vec_length, hc]) rfl
    simp only [ofDense, h1, Res.ok_bind]
    congr 1
    refine buf_eq_vec h2.off (by rw [h2.len]; simp [hr]) (fun i => ?_)
    have hi : (i : Nat) < A.rowN := by have := i.2; omega
    rw [h3 i 0 hi (by
      simp only [Win.get, Nat.zero_add]
      rw [rd_eq_ok]
      simp [hi]), hc, mulVec_ext]
    simp
  diag := by
    have hy : (⟨List.replicate A.rowN (0 : K), 0, A.rowN⟩ : Win K).Ok := by simp [Win.Ok]
    obtain ⟨d, h1, h2, h3⟩ := (C19_dense_partial hA h0 hf hy rfl (order := order)
      (by show Order order A.rowN; rw [hr]; exact ho)).1 (by show A.rowN = _; omega)
    simp only [ofDense, h1, Res.ok_bind]
    congr 1
    refine buf_eq_vec h2.off (by rw [h2.len]; simp [hr]) (fun i => ?_)
    rw [h3 i (by show (i : Nat) < A.rowN; have := i.2; omega)]
    rfl

/-! ### CRS over an extended number type -/

/-- the same matrix with its values read in a larger number type -/
def crsMap (ι : K → α) (A : Crs K) : Crs α :=
  { rowN := A.rowN, colN := A.colN, rowPtr := A.rowPtr, colInd := A.colInd, val := A.val.map ι,
    nnz := A.nnz, alloc := A.alloc, created := A.created }

theorem crsMap_safe (ι : K → α) {A : Crs K} (h : A.Safe) : (crsMap ι A).Safe where
  created := h.created
  lenV := by simp [crsMap, h.lenV]
  nnz_le := h.nnz_le
  lenP := h.lenP
  ptr_le := h.ptr_le
  lenC := h.lenC
  col_lt := h.col_lt

theorem crsMap_rowEntries (ι : K → α) (A : Crs K) (i : Nat) :
    (crsMap ι A).rowEntries i = (A.rowEntries i).map (fun e => (e.1, e.2.1, ι e.2.2)) := by
  simp only [Crs.rowEntries, crsMap, Crs.ptr]
  rw [List.zip_map_right, List.map_map, ← List.map_take, ← List.map_drop, List.map_map]
  rfl

theorem lastAt_map [Zero α] (ι : K → α) (h0 : (0 : α) = ι 0) (L : List (Entry K)) (i j : Nat) :
    lastAt (L.map (fun e => (e.1, e.2.1, ι e.2.2))) i j = ι (lastAt L i j) := by
  induction L using List.reverseRecOn with
  | nil => simp [lastAt_nil, h0]
  | append_singleton L e ih =>
    rw [List.map_append, List.map_singleton, lastAt_append_singleton, lastAt_append_singleton, ih]
    split <;> rfl

/-- every square CRS matrix without repeated positions, every schedule, in a number type that
extends the field (for example by infinities and NaN) -/
theorem isMat_crsMap [Zero α] [One α] [Add α] [Mul α] (ι : K → α) (h0 : (0 : α) = ι 0)
    (hadd : ∀ a b, ι a + ι b = ι (a + b)) (hmul : ∀ a b, ι a * ι b = ι (a * b))
    (A : Crs K) (hA : A.Safe) (hd : DistinctPos A.entries) (hr : A.rowN = n)
    (hc : A.colN = n) (order zo : List Nat) (ho : Order order n) (hz : Order zo n) :
    IsMat (ofCrs order zo (crsMap ι A)) ι (Matrix.of (fun i j : Fin n => crsAt A i j)) where
  row := hr
  col := hc
  mv v := by
    have hy : (⟨List.replicate A.rowN (0 : α), 0, A.rowN⟩ : Win α).Ok := by simp [Win.Ok]
    have hget : ∀ j, j < (vec ι v).length →
        (⟨vec ι v, 0, (vec ι v).length⟩ : Win α).get j = .ok (ι (ext v j)) := by
      intro j hj
      have hj' : j < n := by simpa [vec_length] using hj
      simp only [Win.get, Nat.zero_add]
      rw [rd_eq_ok, List.getElem?_eq_getElem hj]
      simp [vec, ext, hj']
    obtain ⟨y, h1, h2, h3⟩ := C16_matvec_exact (crsMap ι A) (crsMap_safe ι hA)
      ⟨vec ι v, 0, (vec ι v).length⟩
      ⟨List.replicate A.rowN 0, 0, A.rowN⟩ (by simp [vec_length, hc, crsMap]) rfl hy
      (fun j => ι (ext v j)) hget order (by show Order order A.rowN; rw [hr]; exact ho)
    have h1' : (ofCrs order zo (crsMap ι A)).mv (vec ι v) = .ok y.buf := by
      show Res.bind _ _ = _
      have : (crsMap ι A).rowN = A.rowN := rfl
      simp only [this, h1, Res.bind]
    rw [h1']
    congr 1
    apply List.ext_getElem
    · rw [h2.len, vec_length]; simp [hr]
    · intro i hi1 hi2
      have hin : i < n := by simpa [vec_length] using hi2
      have := h3 i (by show i < A.rowN; omega)
      simp only [Win.get, h2.off, Nat.zero_add] at this
      rw [rd_eq_ok, List.getElem?_eq_getElem hi1] at this
      injection this with this
      rw [this, crsMap_rowEntries, List.foldl_map, h0]
      have hfold : ∀ (L : List (Entry K)) (a : K),
          L.foldl (fun (acc : α) e => acc + ι e.2.2 * ι (ext v e.2.1)) (ι a) =
            ι (L.foldl (fun acc e => acc + e.2.2 * ext v e.2.1) a) := by
        intro L
        induction L with
        | nil => intro a; rfl
        | cons e L ih => intro a; rw [List.foldl_cons, List.foldl_cons, hmul, hadd, ih]
      rw [hfold, foldl_add_eq, zero_add, row_sum_eq _ i A.colN (ext v) (A.rowEntries_fst i)
        (hA.rowEntries_col (by omega))]
      have hm := mulVec_ext (crsAt A) v ⟨i, hin⟩
      simp only [Spec.mulVec, crsAt, A.sumAt_entries (show i < A.rowN by omega)] at hm
      rw [hc, hm]
      simp [vec, crsAt]
  diag := by
    have hy : (⟨List.replicate A.rowN (0 : α), 0, A.rowN⟩ : Win α).Ok := by simp [Win.Ok]
    have hm : min A.rowN A.colN = n := by omega
    obtain ⟨d, h1, h2, h3⟩ := C19_crs_diag_partial (crsMap_safe ι hA) (zo := zo) (order := order)
      (by show Order zo (min A.rowN A.colN); rw [hm]; exact hz)
      (by show Order order (min A.rowN A.colN); rw [hm]; exact ho) hy rfl
      (by show A.rowN = min A.rowN A.colN; omega)
    have h1' : (ofCrs order zo (crsMap ι A)).diag = .ok d.buf := by
      show Res.bind _ _ = _
      have : (crsMap ι A).rowN = A.rowN := rfl
      simp only [this, h1, Res.bind]
    rw [h1']
    congr 1
    apply List.ext_getElem
    · rw [h2.len, vec_length]; simp [hr]
    · intro i hi1 hi2
      have hin : i < n := by simpa [vec_length] using hi2
      have := h3 i (by show i < min A.rowN A.colN; omega)
      simp only [Win.get, h2.off, Nat.zero_add] at this
      rw [rd_eq_ok, List.getElem?_eq_getElem hi1] at this
      injection this with this
      rw [this, Crs.lastAt_entries (crsMap ι A) (show i < (crsMap ι A).rowN by show i < A.rowN; omega),
        crsMap_rowEntries, lastAt_map ι h0, ← Crs.lastAt_entries A (show i < A.rowN by omega),
        lastAt_eq_crsAt hd]
      simp [vec]

theorem noPrecond_is (ι : K → α) : IsPrecond (n := n) (noPrecond : Res (List α → Res (List α))) ι
    (byMatrix 1) :=
  ⟨_, rfl, fun v => by simp [byMatrix]⟩

variable [IsStrictOrderedRing K]

theorem spd_one : SPD (1 : Matrix (Fin n) (Fin n) K) := by
  refine ⟨Matrix.transpose_one, fun v hv => ?_⟩
  rw [one_mulVec]
  have hnn : 0 ≤ v ⬝ᵥ v := Finset.sum_nonneg (fun i _ => mul_self_nonneg _)
  refine lt_of_le_of_ne hnn (fun h => hv ?_)
  have := (Finset.sum_eq_zero_iff_of_nonneg (fun i _ => mul_self_nonneg (v i))).1 h.symm
  funext i
  exact mul_self_eq_zero.1 (this i (Finset.mem_univ _))

/-- The Jacobi preconditioner of a matrix with positive diagonal is symmetric positive definite. -/
theorem spd_diagonal (d : Fin n → K) (hd : ∀ i, 0 < d i) : SPD (Matrix.diagonal d) := by
  refine ⟨Matrix.diagonal_transpose _, fun v hv => ?_⟩
  have hnn : ∀ i ∈ (Finset.univ : Finset (Fin n)), 0 ≤ v i * (Matrix.diagonal d *ᵥ v) i := by
    intro i _
    rw [mulVec_diagonal]
    have := mul_nonneg (le_of_lt (hd i)) (mul_self_nonneg (v i))
    nlinarith
  refine lt_of_le_of_ne (Finset.sum_nonneg hnn) (fun h => hv ?_)
  have := (Finset.sum_eq_zero_iff_of_nonneg hnn).1 h.symm
  funext i
  have hi := this i (Finset.mem_univ _)
  rw [mulVec_diagonal, mul_left_comm] at hi
  exact mul_self_eq_zero.1 ((mul_eq_zero.1 hi).resolve_left (ne_of_gt (hd i)))

/-- `Jacobi::create_precond`/`apply_precond` multiply by the inverse diagonal. -/
theorem jacobiPrecond_is {N : Num α} {ι : K → α} {sq : K → K} (hE : Exact N ι sq) {A : Mat α}
    {M : Matrix (Fin n) (Fin n) K} (hA : IsMat A ι M) (hd : ∀ i, M i i ≠ 0) :
    IsPrecond (jacobiPrecond N A) ι (byMatrix (Matrix.diagonal (fun i => 1 / M i i))) := by
  refine ⟨fun r => N.vmul (N.reciprocal (vec ι M.diag)) r r.length, ?_, fun v => ?_⟩
  · simp [jacobiPrecond, hA.row, hA.col, hA.diag]
  · simp only [vec_length]
    rw [reciprocal_vec hE M.diag (fun i => hd i), vmul_vec hE]
    congr 2
    funext i
    simp [byMatrix, mulVec_diagonal, Matrix.diag]

/-- C34 for CRS matrices: any symmetric positive definite CRS matrix, any schedule of the parallel
loops of `matvec` and `diag`, without a preconditioner or with the Jacobi preconditioner. -/
theorem C34_crs (sq : K → K) (hsq : sq 0 = 0) (cfg : Cfg K) (htol : 0 < cfg.tol)
    (hlib : cfg.lib = 0) (hm : cfg.residMethod = 0) (hmin : cfg.miniter = 0) (hmax : n ≤ cfg.maxiter)
    (A : Crs K) (hA : A.Safe) (hd : DistinctPos A.entries) (hr : A.rowN = n) (hc : A.colN = n)
    (order zo : List Nat) (ho : Order order n) (hz : Order zo n)
    (hM : SPD (Matrix.of (fun i j : Fin n => crsAt A i j)))
    (create : Res (List K → Res (List K)))
    (hP : create = noPrecond ∨ create = jacobiPrecond (fieldNum sq) (ofCrs order zo A))
    (x b : Fin n → K) (hx : Matrix.of (fun i j : Fin n => crsAt A i j) *ᵥ x ≠ b) :
    ∃ k y, 1 ≤ k ∧ k ≤ n ∧
      norm2 sq (b - Matrix.of (fun i j : Fin n => crsAt A i j) *ᵥ y) < cfg.tol ∧
      CG.solve (fieldNum sq) cfg (ofCrs order zo A) create (List.ofFn x) (List.ofFn b) =
        .ok { status := SUCCESS, x := List.ofFn y, finalIter := k,
              finalResid := norm2 sq (b - Matrix.of (fun i j : Fin n => crsAt A i j) *ᵥ y) } := by
  have hI := isMat_crs A hA hd hr hc order zo ho hz
  have hdiag : ∀ i, 0 < Matrix.of (fun i j : Fin n => crsAt A i j) i i := by
    intro i
    have h1 := hM.2 (Pi.single i 1) (by
      intro h
      have := congrFun h i
      simp at this)
    simpa [mulVec_single_one, single_one_dotProduct] using h1
  rcases hP with rfl | rfl
  · exact C34_terminates (fieldNum_exact sq) hsq cfg cfg.tol htol rfl hlib hm hmin hmax _ _ hI hM _ 1
      spd_one (noPrecond_is id) x b hx
  · exact C34_terminates (fieldNum_exact sq) hsq cfg cfg.tol htol rfl hlib hm hmin hmax _ _ hI hM _ _
      (spd_diagonal _ (fun i => div_pos one_pos (hdiag i)))
      (jacobiPrecond_is (fieldNum_exact sq) hI (fun i => ne_of_gt (hdiag i))) x b hx

/-- a CRS matrix read over the extended numbers -/
theorem isMat_crsExt (A : Crs K) (hA : A.Safe) (hd : DistinctPos A.entries) (hr : A.rowN = n)
    (hc : A.colN = n) (order zo : List Nat) (ho : Order order n) (hz : Order zo n) :
    IsMat (ofCrs order zo (crsMap Ext.fin A)) Ext.fin
      (Matrix.of (fun i j : Fin n => crsAt A i j)) :=
  isMat_crsMap Ext.fin rfl (fun _ _ => rfl) (fun _ _ => rfl) A hA hd hr hc order zo ho hz

/-- C33 for CRS matrices, no preconditioner: **every** exact initial guess is destroyed. -/
theorem C33_crs_violated (sq : K → K) (cfg : Cfg (Ext K)) (tol : K) (ht : cfg.tol = .fin tol)
    (hlib : cfg.lib = 0) (hm : cfg.residMethod = 0) (hmax : 0 < cfg.maxiter) (hn : 0 < n)
    (A : Crs K) (hA : A.Safe) (hd : DistinctPos A.entries) (hr : A.rowN = n) (hc : A.colN = n)
    (order zo : List Nat) (ho : Order order n) (hz : Order zo n) (x : Fin n → K) :
    CG.solve (Ext.num sq) cfg (ofCrs order zo (crsMap Ext.fin A)) noPrecond
      (List.ofFn (fun i => Ext.fin (x i)))
      (List.ofFn (fun i => Ext.fin ((Matrix.of (fun i j : Fin n => crsAt A i j) *ᵥ x) i))) =
      .ok { status := RESIDUAL_NAN, x := List.replicate n .nan, finalIter := 1,
            finalResid := .nan } :=
  C33_violated sq cfg tol ht hlib hm _ _ (isMat_crsExt A hA hd hr hc order zo ho hz) hn
    (fun r => .ok r) (fun v => v) (fun _ => rfl) rfl ⟨nans K n, rfl, by simp [nans]⟩ x _ 0 hmax rfl
    (fun j hj => absurd hj (by omega)) (fun i h1 h2 => absurd h1 (by omega))

/-! ### A concrete system -/

/-- the matrix `[[2, 1], [1, 2]]` -/
def exA : Crs ℚ := ⟨2, 2, [0, 2, 4], [0, 1, 0, 1], [2, 1, 1, 2], 4, 4, true⟩

def exCfg : Cfg ℚ := { tol := 1 / 100, maxiter := 10, omega := 1, prevResid := 0 }

theorem exA_safe : exA.Safe :=
  { created := rfl, lenV := rfl, nnz_le := by decide, lenP := rfl, ptr_le := by decide,
    lenC := by decide, col_lt := by decide }

theorem exA_distinct : DistinctPos exA.entries := by decide

theorem exA_spd : SPD (Matrix.of (fun i j : Fin 2 => crsAt exA i j)) := by
  constructor
  · ext i j
    fin_cases i <;> fin_cases j <;> rfl
  · intro v hv
    have h : v ⬝ᵥ ((Matrix.of (fun i j : Fin 2 => crsAt exA i j)) *ᵥ v) =
        2 * v 0 ^ 2 + 2 * v 0 * v 1 + 2 * v 1 ^ 2 := by
      simp only [dotProduct, Matrix.mulVec, Fin.sum_univ_two, Matrix.of_apply]
      have h00 : crsAt exA ((0 : Fin 2) : Nat) ((0 : Fin 2) : Nat) = 2 := by decide +kernel
      have h01 : crsAt exA ((0 : Fin 2) : Nat) ((1 : Fin 2) : Nat) = 1 := by decide +kernel
      have h10 : crsAt exA ((1 : Fin 2) : Nat) ((0 : Fin 2) : Nat) = 1 := by decide +kernel
      have h11 : crsAt exA ((1 : Fin 2) : Nat) ((1 : Fin 2) : Nat) = 2 := by decide +kernel
      rw [h00, h01, h10, h11]; ring
    rw [h]
    have : v 0 ≠ 0 ∨ v 1 ≠ 0 := by
      by_contra hc
      push Not at hc
      exact hv (by funext i; fin_cases i; exact hc.1; exact hc.2)
    rcases this with h | h
    · have := sq_pos_of_ne_zero h; nlinarith [sq_nonneg (v 0 + 2 * v 1)]
    · have := sq_pos_of_ne_zero h; nlinarith [sq_nonneg (2 * v 0 + v 1)]

/-- all hypotheses of `C34_crs` (hence of `C34_terminates` and `C29_exact`) hold for this system -/
example : ∃ (k : Nat) (y : Fin 2 → ℚ) (r : ℚ), 1 ≤ k ∧ k ≤ 2 ∧ r < 1 / 100 ∧
    CG.solve (fieldNum id) exCfg (ofCrs [1, 0] [0, 1] exA) noPrecond (List.ofFn ![0, 0])
      (List.ofFn ![1, 0]) =
        .ok { status := SUCCESS, x := List.ofFn y, finalIter := k, finalResid := r } := by
  obtain ⟨k, y, h1, h2, h3, h4⟩ :=
    C34_crs (n := 2) id rfl exCfg (by norm_num [exCfg]) rfl rfl rfl (by decide) exA exA_safe
      exA_distinct rfl rfl [1, 0] [0, 1] (by unfold Order; decide) (by unfold Order; decide) exA_spd noPrecond (.inl rfl) ![0, 0] ![1, 0] (by
        intro h
        have h := congrFun h 0
        simp [Matrix.mulVec] at h)
  exact ⟨k, y, _, h1, h2, h3, h4⟩

example : CG.solve (fieldNum id) exCfg (ofCrs [1, 0] [0, 1] exA) noPrecond [0, 0] [1, 0] =
    .ok { status := SUCCESS, x := [2/3, -1/3], finalIter := 2, finalResid := 0 } := by decide +kernel

/-- the initial guess (1, 1) solves the system with right-hand side (3, 3); the call returns NaNs -/
example : CG.solve (Ext.num (id : ℚ → ℚ))
    { tol := .fin (1 / 100), maxiter := 10, omega := .fin 1, prevResid := .fin 0 }
    (ofCrs [1, 0] [0, 1] (crsMap Ext.fin exA)) noPrecond [.fin 1, .fin 1] [.fin 3, .fin 3] =
    .ok { status := RESIDUAL_NAN, x := [.nan, .nan], finalIter := 1, finalResid := .nan } := by
  decide +kernel

/-- `miniter = 3` on a 2 × 2 system: the solution found after two iterations is destroyed -/
example : CG.solve (Ext.num (id : ℚ → ℚ))
    { tol := .fin (1 / 100), maxiter := 10, miniter := 3, omega := .fin 1, prevResid := .fin 0 }
    (ofCrs [1, 0] [0, 1] (crsMap Ext.fin exA)) noPrecond [.fin 0, .fin 0] [.fin 1, .fin 0] =
    .ok { status := RESIDUAL_NAN, x := [.nan, .nan], finalIter := 3, finalResid := .nan } := by
  decide +kernel

end Verif.Solver
