import Verif.Props.Direct
import Mathlib.Analysis.Matrix.Spectrum
import Mathlib.Data.Fin.Tuple.Sort

/-!
C69: the divide-and-conquer eigensolvers `standard_eigen::DC` and `generalized_eigen::DC` on a dense
matrix return eigenvalues in ascending order in `lambda` and the eigenvectors in the *rows* of `A`. Stated
for every LAPACK that meets the contract in `Verif/Spec/LapackSpec.lean`.
-/

namespace Verif.Lapack

variable {α : Type} [Field α]

/-- a LAPACK whose `dsyevd` meets the contract -/
def Lib.EvOk [LinearOrder α] (L : Lib α) : Prop :=
  ∀ upper n a lda, extent n n lda ≤ a.length → SyevdOk upper n a lda (L.syevd true upper n a lda)

/-- a LAPACK whose `dsygvd` meets the contract -/
def Lib.GvOk [LinearOrder α] (L : Lib α) : Prop :=
  ∀ itype upper n a lda b ldb, extent n n lda ≤ a.length → extent n n ldb ≤ b.length →
    SygvdOk itype upper n a lda b ldb (L.sygvd itype true upper n a lda b ldb)

/-- Row `k` of `V` is a unit eigenvector of `A` for `w k`, the rows are orthonormal and the eigenvalues
ascend. -/
def EigenSystem [LinearOrder α] (n : Nat) (A : Nat → Nat → α) (w : Nat → α) (V : Nat → Nat → α) :
    Prop :=
  (∀ k, k < n → ∀ i, i < n → Spec.mulVec n A (V k) i = w k * V k i) ∧
  (∀ k l, k < n → l < n →
    (∑ i ∈ Finset.range n, V k i * V l i) = if k = l then 1 else 0) ∧
  (∀ k l, k ≤ l → l < n → w k ≤ w l)

theorem sym_reads {A : Dense α} (hA : A.WF) (h0 : A.first = 0) {n : Nat} (hr : A.rowN = n)
    (hc : A.colN = n) {f : Nat → Nat → α} (hf : A.Reads f)
    (hs : ∀ i j, i < n → j < n → f i j = f j i) {i j : Nat} (hi : i < n) (hj : j < n) :
    sym true A.val n i j = f i j := by
  unfold sym
  rw [if_pos rfl]
  split
  · rw [cm_reads hA h0 hr hc hf hi hj]; exact hs j i hj hi
  · rw [cm_reads hA h0 hr hc hf hj hi]

theorem reads_cm {A : Dense α} (hA : A.WF) (h0 : A.first = 0) {n : Nat} (hr : A.rowN = n)
    (hc : A.colN = n) {a : List α} (ha : a.length = A.val.length) :
    ({ A with val := a } : Dense α).Reads (fun k i => cm a n i k) := by
  have hW : ({ A with val := a } : Dense α).WF :=
    ⟨by simp only; rw [ha]; exact hA.lenV, hA.nnz_eq, hA.window⟩
  intro k i hk hi
  have h1 := hA.lenV
  have h2 := hA.nnz_eq
  have h3 := hA.window
  have hk' : k < n := by rw [← hr]; exact hk
  have hi' : i < n := by rw [← hc]; exact hi
  have hext : i + n * k < a.length := by
    have := pos_lt_extent (lda := n) hi' hk'
    have h4 := extent_sq hA hr hc
    omega
  refine Dense.at_of_getElem? hW hk hi ?_
  simp only [h0, hc, Nat.zero_add]
  rw [Nat.add_comm, List.getElem?_eq_getElem hext]
  simp [cm, List.getD, List.getElem?_eq_getElem hext]

omit [Field α] in
theorem vreads_overwrite [Zero α] {v : Vec α} (hv : v.WF) {n : Nat} (hn : v.nnz = n) {w : List α}
    (hw : w.length = n) :
    ({ v with val := overwrite v.val w } : Vec α).nnz = n ∧
      ∀ i, i < n → ({ v with val := overwrite v.val w } : Vec α).get i = .ok (w.getD i 0) := by
  refine ⟨hn, fun i hi => ?_⟩
  unfold Vec.get
  simp only [hv.first0, Nat.zero_add]
  rw [rd_eq_ok]
  unfold overwrite
  rw [List.getElem?_append_left (by omega)]
  simp [List.getD, List.getElem?_eq_getElem (show i < w.length by omega)]

/-- **C69**. For every symmetric `A` and every `lambda` of matching size, `standard_eigen::DC::solve`
returns; when it returns `SUCCESS` the rows of `A` and `lambda` are a complete orthonormal eigensystem of
the matrix that was in `A`; it returns `SUCCESS` whenever LAPACK reports no error. -/
theorem C69_dc_standard [LinearOrder α] {L : Lib α} (hL : L.EvOk) {A : Dense α} (hA : A.WF)
    (h0 : A.first = 0) {n : Nat} (hr : A.rowN = n) (hc : A.colN = n) {f : Nat → Nat → α}
    (hf : A.Reads f) (hs : ∀ i j, i < n → j < n → f i j = f j i) {lambda : Vec α} (hl : lambda.WF)
    (hln : lambda.nnz = n) :
    ∃ ret A' lambda', DC.standard L 0 A lambda = .ok (ret, A', lambda') ∧
      (ret = success ↔ (L.syevd true true n A.val n).2.2 = 0) ∧
      (ret = success → ∃ V w, A'.Reads V ∧ VReads lambda' n w ∧ EigenSystem n f w V) := by
  have hext := extent_sq hA hr hc
  have hE := hL true n A.val n hext
  have hll := hl.lenV
  have hlle := hl.nnz_le
  refine ⟨if (L.syevd true true n A.val n).2.2 > 0 then breakdown
      else if (L.syevd true true n A.val n).2.2 < 0 then residualNan else success,
    { A with val := (L.syevd true true n A.val n).1 },
    { lambda with val := overwrite lambda.val (L.syevd true true n A.val n).2.1 }, ?_, ?_, ?_⟩
  · unfold DC.standard syevd
    rw [if_pos rfl]
    simp only [hr]
    rw [touch_ok hext, Res.ok_bind, touch_ok (by omega), Res.ok_bind]
    rfl
  · unfold success breakdown residualNan
    split
    · constructor <;> intro h <;> omega
    · split
      · constructor <;> intro h <;> omega
      · constructor
        · intro _; omega
        · intro _; rfl
  · intro hret
    have hz : (L.syevd true true n A.val n).2.2 = 0 := by
      unfold success breakdown residualNan at hret
      split at hret
      · omega
      · split at hret
        · omega
        · omega
    refine ⟨fun k i => cm (L.syevd true true n A.val n).1 n i k,
      fun k => (L.syevd true true n A.val n).2.1.getD k 0, reads_cm hA h0 hr hc hE.length,
      vreads_overwrite hl hln (hE.wLength hz), ?_, hE.ortho hz, hE.sorted hz⟩
    intro k hk i hi
    rw [← hE.eigen hz k hk i hi]
    exact mulVec_congr (fun j hj => (sym_reads hA h0 hr hc hf hs hi hj).symm) (fun _ _ => rfl)

theorem mulVec_congr' {n : Nat} {A B : Nat → Nat → α} {x : Nat → α}
    (hA : ∀ i j, i < n → j < n → A i j = B i j) {i : Nat} (hi : i < n) :
    Spec.mulVec n A x i = Spec.mulVec n B x i :=
  mulVec_congr (fun j hj => hA i j hi hj) (fun _ _ => rfl)

theorem GenEig.congr {itype : Int} {n : Nat} {A B A' B' : Nat → Nat → α} {w : α} {v : Nat → α}
    (hA : ∀ i j, i < n → j < n → A i j = A' i j) (hB : ∀ i j, i < n → j < n → B i j = B' i j)
    (h : GenEig itype n A B w v) : GenEig itype n A' B' w v := by
  intro i hi
  have := h i hi
  split
  · rename_i h1
    rw [if_pos h1] at this
    rw [← mulVec_congr' hA hi, ← mulVec_congr' hB hi]
    exact this
  · rename_i h1
    rw [if_neg h1] at this
    split
    · rename_i h2
      rw [if_pos h2] at this
      rw [← this]
      exact mulVec_congr (fun j hj => (hA i j hi hj).symm) (fun j hj => (mulVec_congr' hB hj).symm)
    · rename_i h2
      rw [if_neg h2] at this
      rw [← this]
      exact mulVec_congr (fun j hj => (hB i j hi hj).symm) (fun j hj => (mulVec_congr' hA hj).symm)

/-- **C69**, generalised problem. For all symmetric `A` and `B` of the same size and every `itype`: the
call returns; on `SUCCESS` row `k` of `A` is a non-zero solution of `A x = λ B x` (`itype` 1),
`A B x = λ x` (2) or `B A x = λ x` (3) for `λ = lambda[k]`, and the `lambda[k]` ascend; any other
`itype` gives `RESIDUAL_NAN`. -/
theorem C69_dc_generalized [LinearOrder α] {L : Lib α} (hL : L.GvOk) {A B : Dense α} (hA : A.WF)
    (h0 : A.first = 0) (hB : B.WF) (hB0 : B.first = 0) {n : Nat} (hr : A.rowN = n) (hc : A.colN = n)
    (hBr : B.rowN = n) (hBc : B.colN = n) {f g : Nat → Nat → α} (hf : A.Reads f) (hg : B.Reads g)
    (hs : ∀ i j, i < n → j < n → f i j = f j i) (hsg : ∀ i j, i < n → j < n → g i j = g j i)
    {lambda : Vec α} (hl : lambda.WF) (hln : lambda.nnz = n) (itype : Int) :
    ∃ ret A' B' lambda', DC.generalized L 0 A B lambda itype = .ok (ret, A', B', lambda') ∧
      (ret = success ↔ (L.sygvd itype true true n A.val n B.val n).2.2.2 = 0) ∧
      ((itype < 1 ∨ 3 < itype) → ret = residualNan) ∧
      (ret = success → ∃ V w, A'.Reads V ∧ VReads lambda' n w ∧
        (∀ k, k < n → GenEig itype n f g (w k) (V k) ∧ ∃ i, i < n ∧ V k i ≠ 0) ∧
        ∀ k l, k ≤ l → l < n → w k ≤ w l) := by
  have hext := extent_sq hA hr hc
  have hextB := extent_sq hB hBr hBc
  have hE := hL itype true n A.val n B.val n hext hextB
  have hll := hl.lenV
  have hlle := hl.nnz_le
  refine ⟨if (L.sygvd itype true true n A.val n B.val n).2.2.2 > 0 then breakdown
      else if (L.sygvd itype true true n A.val n B.val n).2.2.2 < 0 then residualNan else success,
    { A with val := (L.sygvd itype true true n A.val n B.val n).1 },
    { B with val := (L.sygvd itype true true n A.val n B.val n).2.1 },
    { lambda with val := overwrite lambda.val (L.sygvd itype true true n A.val n B.val n).2.2.1 },
    ?_, ?_, ?_, ?_⟩
  · unfold DC.generalized sygvd
    rw [if_pos rfl]
    simp only [hr]
    rw [touch_ok hext, Res.ok_bind, touch_ok hextB, Res.ok_bind, touch_ok (by omega), Res.ok_bind]
    rfl
  · unfold success breakdown residualNan
    split
    · constructor <;> intro h <;> omega
    · split
      · constructor <;> intro h <;> omega
      · constructor
        · intro _; omega
        · intro _; rfl
  · intro hit
    have := hE.illegal (by omega)
    rw [if_neg (by omega), if_pos (by omega)]
  · intro hret
    have hz : (L.sygvd itype true true n A.val n B.val n).2.2.2 = 0 := by
      unfold success breakdown residualNan at hret
      split at hret
      · omega
      · split at hret
        · omega
        · omega
    refine ⟨fun k i => cm (L.sygvd itype true true n A.val n B.val n).1 n i k,
      fun k => (L.sygvd itype true true n A.val n B.val n).2.2.1.getD k 0,
      reads_cm hA h0 hr hc hE.length.1, vreads_overwrite hl hln (hE.wLength hz), ?_, hE.sorted hz⟩
    intro k hk
    refine ⟨?_, hE.nonzero hz k hk⟩
    exact (hE.eigen hz k hk).congr (fun i j hi hj => sym_reads hA h0 hr hc hf hs hi hj)
      (fun i j hi hj => sym_reads hB hB0 hBr hBc hg hsg hi hj)

/-- With any other library number than 0 nothing is computed, and the call still reports `SUCCESS`. -/
theorem C69_other_lib_violated (L : Lib α) {lib : Int} (h : lib ≠ 0) (A : Dense α) (lambda : Vec α) :
    DC.standard L lib A lambda = .ok (success, A, lambda) := if_neg h

/-- The size of `lambda` is not checked: a shorter one is written out of bounds. -/
theorem C69_short_lambda_ub (L : Lib α) {A : Dense α} (hA : A.WF) {n : Nat} (hr : A.rowN = n)
    (hc : A.colN = n) {lambda : Vec α} (hl : lambda.val.length < n) :
    ∃ m, DC.standard L 0 A lambda = .ub m := by
  refine ⟨"LAPACK: out of bounds", ?_⟩
  unfold DC.standard syevd
  rw [if_pos rfl]
  simp only [hr]
  rw [touch_ok (extent_sq hA hr hc), Res.ok_bind, touch, if_neg (by omega)]
  rfl

/-- the upper triangle of `A` is not read either: for a matrix that is not symmetric the eigensystem is
that of the mirrored lower triangle -/
theorem sym_reads_lower {A : Dense α} (hA : A.WF) (h0 : A.first = 0) {n : Nat} (hr : A.rowN = n)
    (hc : A.colN = n) {f : Nat → Nat → α} (hf : A.Reads f) {i j : Nat} (hi : i < n) (hj : j < n) :
    sym true A.val n i j = if j ≤ i then f i j else f j i := by
  unfold sym
  rw [if_pos rfl]
  by_cases hij : i ≤ j
  · rw [if_pos hij, cm_reads hA h0 hr hc hf hi hj]
    by_cases hji : j ≤ i
    · have : i = j := by omega
      subst this; rw [if_pos hji]
    · rw [if_neg hji]
  · rw [if_neg hij, if_pos (by omega), cm_reads hA h0 hr hc hf hj hi]

/-! ### The contract can be met -/

theorem sym_symm (upper : Bool) (a : List α) (lda i j : Nat) :
    sym upper a lda i j = sym upper a lda j i := by
  unfold sym
  by_cases h : i = j
  · subst h; rfl
  · cases upper <;> simp only [Bool.false_eq_true, if_false, if_true]
    · by_cases h1 : j ≤ i
      · rw [if_pos h1, if_neg (by omega)]
      · rw [if_neg h1, if_pos (by omega)]
    · by_cases h1 : i ≤ j
      · rw [if_pos h1, if_neg (by omega)]
      · rw [if_neg h1, if_pos (by omega)]

open Matrix in
/-- Every real symmetric matrix has an eigensystem in the form in which `dsyevd` returns it. -/
theorem exists_eigensystem (n : Nat) (A : Nat → Nat → ℝ) (hA : ∀ i j, A i j = A j i) :
    ∃ w : Nat → ℝ, ∃ V : Nat → Nat → ℝ, EigenSystem n A w V := by
  let Am : Matrix (Fin n) (Fin n) ℝ := Matrix.of fun i j => A i j
  have hH : Am.IsHermitian := by
    ext i j
    simp [Am, Matrix.conjTranspose_apply, hA]
  let σ := Tuple.sort hH.eigenvalues
  let v : Fin n → Fin n → ℝ := fun k i => hH.eigenvectorBasis (σ k) i
  refine ⟨fun k => if hk : k < n then hH.eigenvalues (σ ⟨k, hk⟩) else 0,
    fun k i => if hk : k < n then (if hi : i < n then v ⟨k, hk⟩ ⟨i, hi⟩ else 0) else 0, ?_, ?_, ?_⟩
  · intro k hk i hi
    have := congrFun (hH.mulVec_eigenvectorBasis (σ ⟨k, hk⟩)) ⟨i, hi⟩
    simp only [Spec.mulVec, Finset.sum_range, hk, dif_pos, hi]
    simp only [Matrix.mulVec, dotProduct, Am, Matrix.of_apply, Pi.smul_apply, smul_eq_mul] at this
    simpa [v] using this
  · intro k l hk hl
    have ho := hH.eigenvectorBasis.orthonormal
    have := (orthonormal_iff_ite.mp ho) (σ ⟨k, hk⟩) (σ ⟨l, hl⟩)
    simp only [Finset.sum_range, hk, hl, dif_pos]
    simp only [EmbeddingLike.apply_eq_iff_eq, Fin.mk.injEq] at this
    rw [← this, EuclideanSpace.inner_eq_star_dotProduct]
    simp [dotProduct, v, mul_comm]
  · intro k l hkl hl
    have hk : k < n := by omega
    simp only [hk, hl, dif_pos]
    exact Tuple.monotone_sort hH.eigenvalues (show (⟨k, hk⟩ : Fin n) ≤ ⟨l, hl⟩ from hkl)

theorem exists_syevd (upper : Bool) (n : Nat) (a : List ℝ) (lda : Nat)
    (ha : extent n n lda ≤ a.length) :
    ∃ r, SyevdOk upper n a lda r ∧ (max 1 n ≤ lda → r.2.2 = 0) := by
  by_cases hl : max 1 n ≤ lda
  · obtain ⟨w, V, h1, h2, h3⟩ := exists_eigensystem n (sym upper a lda) (sym_symm upper a lda)
    have hcm : ∀ i k, i < n → k < n →
        cm (store n n lda (fun i k => V k i) a) lda i k = V k i :=
      fun i k hi hk => cm_store (fun i k => V k i) (by omega) ha hi hk
    have hw : ∀ k, k < n → (List.ofFn (fun i : Fin n => w i)).getD k 0 = w k := by
      intro k hk
      simp [List.getD, hk]
    refine ⟨(store n n lda (fun i k => V k i) a, List.ofFn (fun i : Fin n => w i), 0),
      ⟨by simp, fun h => absurd h (by omega), fun _ => by simp, fun _ k hk i hi => ?_,
        fun _ k l hk hl' => ?_, fun _ k l hkl hl' => ?_⟩, fun _ => rfl⟩
    · rw [hw k hk, hcm i k hi hk, ← h1 k hk i hi]
      exact mulVec_congr (fun _ _ => rfl) (fun j hj => hcm j k hj hk)
    · rw [← h2 k l hk hl']
      apply Finset.sum_congr rfl
      intro i hi
      rw [Finset.mem_range] at hi
      rw [hcm i k hi hk, hcm i l hi hl']
    · rw [hw k (by omega), hw l hl']
      exact h3 k l hkl hl'
  · have hne : ¬ (-5 : Int) = 0 := by decide
    refine ⟨(a, [], -5), ⟨rfl, fun _ => show (-5 : Int) < 0 by decide, fun h => absurd h hne,
      fun h => absurd h hne, fun h => absurd h hne, fun h => absurd h hne⟩, fun h => absurd h hl⟩

theorem mulVec_one (n : Nat) {B : Nat → Nat → α} (x : Nat → α)
    (hB : ∀ i j, i < n → j < n → B i j = if i = j then 1 else 0) {i : Nat} (hi : i < n) :
    Spec.mulVec n B x i = x i := by
  unfold Spec.mulVec
  rw [Finset.sum_eq_single i]
  · rw [hB i i hi hi, if_pos rfl, one_mul]
  · intro j hj hji
    rw [Finset.mem_range] at hj
    rw [hB i j hi hj, if_neg (fun h => hji h.symm), zero_mul]
  · intro h
    exact absurd (Finset.mem_range.mpr hi) h

theorem exists_sygvd (itype : Int) (upper : Bool) (n : Nat) (a : List ℝ) (lda : Nat) (b : List ℝ)
    (ldb : Nat) (ha : extent n n lda ≤ a.length) :
    ∃ r, SygvdOk itype upper n a lda b ldb r ∧
      (1 ≤ itype → itype ≤ 3 → max 1 n ≤ lda → max 1 n ≤ ldb →
        (∀ i j, i < n → j < n → sym upper b ldb i j = if i = j then 1 else 0) → r.2.2.2 = 0) := by
  classical
  by_cases hg : (1 ≤ itype ∧ itype ≤ 3) ∧ max 1 n ≤ lda ∧ max 1 n ≤ ldb ∧
      (∀ i j, i < n → j < n → sym upper b ldb i j = if i = j then 1 else 0)
  · obtain ⟨hit, hl, hlb, hB⟩ := hg
    obtain ⟨r, hr, hr0⟩ := exists_syevd upper n a lda ha
    have hz := hr0 hl
    refine ⟨(r.1, b, r.2.1, 0), ⟨⟨hr.length, rfl⟩, fun h => absurd h (by omega),
      fun _ => hr.wLength hz, fun _ k hk => ?_, fun _ k hk => ?_, fun _ => hr.sorted hz⟩,
      fun _ _ _ _ _ => rfl⟩
    · intro i hi
      have e := hr.eigen hz k hk
      split
      · rw [e i hi, mulVec_one n _ hB hi]
      · split
        · rw [← e i hi]
          exact mulVec_congr (fun _ _ => rfl) (fun j hj => mulVec_one n _ hB hj)
        · rw [← e i hi, mulVec_one n _ hB hi]
    · by_contra hc
      have h1 := hr.ortho hz k k hk hk
      rw [if_pos rfl] at h1
      have h0 : (∑ i ∈ Finset.range n, cm r.1 lda i k * cm r.1 lda i k) = 0 := by
        apply Finset.sum_eq_zero
        intro i hi
        rw [Finset.mem_range] at hi
        by_cases hz : cm r.1 lda i k = 0
        · rw [hz, zero_mul]
        · exact absurd ⟨i, hi, hz⟩ hc
      rw [h0] at h1
      exact zero_ne_one h1
  · by_cases hi : itype < 1 ∨ 3 < itype ∨ lda < max 1 n ∨ ldb < max 1 n
    · have hne : ¬ (-1 : Int) = 0 := by decide
      exact ⟨(a, b, [], -1), ⟨⟨rfl, rfl⟩, fun _ => show (-1 : Int) < 0 by decide,
        fun h => absurd h hne, fun h => absurd h hne, fun h => absurd h hne, fun h => absurd h hne⟩,
        fun h1 h2 h3 h4 h5 => absurd ⟨⟨h1, h2⟩, h3, h4, h5⟩ hg⟩
    · have hne : ¬ (1 : Int) = 0 := by decide
      exact ⟨(a, b, [], 1), ⟨⟨rfl, rfl⟩, fun h => absurd h hi,
        fun h => absurd h hne, fun h => absurd h hne, fun h => absurd h hne, fun h => absurd h hne⟩,
        fun h1 h2 h3 h4 h5 => absurd ⟨⟨h1, h2⟩, h3, h4, h5⟩ hg⟩

/-- A LAPACK that meets the whole contract exists; its symmetric eigensolver never fails on legal
arguments. -/
theorem exists_lib_real : ∃ L : Lib ℝ, L.LUOk ∧ L.SyOk ∧ L.EvOk ∧ L.GvOk ∧
    (∀ n a, 0 < n → extent n n n ≤ a.length → (L.syevd true true n a n).2.2 = 0) := by
  classical
  obtain ⟨L, h1, h2⟩ := exists_lib (α := ℝ)
  refine ⟨{ L with
    syevd := fun _ upper n a lda =>
      if h : extent n n lda ≤ a.length then (exists_syevd upper n a lda h).choose else (a, [], 0)
    sygvd := fun itype _ upper n a lda b ldb =>
      if h : extent n n lda ≤ a.length then (exists_sygvd itype upper n a lda b ldb h).choose
      else (a, b, [], 0) }, ⟨h1.getrf, h1.getrs⟩, h2, ?_, ?_, ?_⟩
  · intro upper n a lda h
    simp only [h, dif_pos]
    exact (exists_syevd upper n a lda h).choose_spec.1
  · intro itype upper n a lda b ldb h _
    simp only [h, dif_pos]
    exact (exists_sygvd itype upper n a lda b ldb h).choose_spec.1
  · intro n a hn h
    simp only [h, dif_pos]
    exact (exists_syevd true n a n h).choose_spec.2 (by omega)

/-- the hypotheses of C69 can be met, with result `SUCCESS`: the matrix `(2 1; 1 2)` -/
example : ∃ L : Lib ℝ, L.EvOk ∧ ∃ A' lambda', DC.standard L 0 ⟨2, 2, [2, 1, 1, 2], 4, 4, 0, true⟩
    ⟨[0, 0], 2, 2, 0, true⟩ = .ok (success, A', lambda') := by
  obtain ⟨L, _, _, hE, _, hS⟩ := exists_lib_real
  refine ⟨L, hE, ?_⟩
  obtain ⟨ret, A', l', h1, h2, _⟩ := C69_dc_standard hE (A := ⟨2, 2, [2, 1, 1, 2], 4, 4, 0, true⟩)
    ⟨rfl, rfl, by decide⟩ rfl (n := 2) rfl rfl (f := fun i j => if i = j then 2 else 1)
    (by
      intro i j hi hj
      have hi : i < 2 := hi
      have hj : j < 2 := hj
      interval_cases i <;> interval_cases j <;> rfl)
    (by intro i j _ _; simp only [eq_comm]) (lambda := ⟨[0, 0], 2, 2, 0, true⟩)
    ⟨rfl, rfl, by decide, rfl⟩ rfl
  rw [h2.mpr (hS 2 _ (by decide) (by decide))] at h1
  exact ⟨A', l', h1⟩

end Verif.Lapack
