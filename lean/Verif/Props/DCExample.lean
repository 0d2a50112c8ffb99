import Verif.Model.ProgEig
import Verif.Props.DC
import Verif.Props.GenEig
import Verif.Props.Print
import Verif.Props.Vector
import Verif.Props.SolverMisc
import Mathlib.LinearAlgebra.Matrix.Charpoly.Basic
import Mathlib.Algebra.Polynomial.Roots

/-!
C91: the eigenvalues `standard_eigen::DC` returns are all eigenvalues of the matrix, each with its multiplicity and in
ascending order; and the example program `examples/eigen/DC/DC.cpp` prints the closed-form spectrum of its matrix.
-/

namespace Verif.Lapack

open Matrix Polynomial

section

variable {α : Type} [Field α] [LinearOrder α]

/-- the `n × n` matrix with elements `f i j` -/
def mat (n : Nat) (f : Nat → Nat → α) : Matrix (Fin n) (Fin n) α := Matrix.of fun i j => f i j

omit [LinearOrder α] in
theorem sum_fin (n : Nat) (g : Nat → α) : (∑ i ∈ Finset.range n, g i) = ∑ i : Fin n, g i :=
  Finset.sum_range g

theorem EigenSystem.factor {n : Nat} {f V : Nat → Nat → α} {w : Nat → α} (h : EigenSystem n f w V) :
    mat n V * (mat n V)ᵀ = 1 ∧ mat n f * (mat n V)ᵀ = (mat n V)ᵀ * diagonal fun k : Fin n => w k := by
  constructor
  · ext k l
    have := h.2.1 k l k.2 l.2
    rw [sum_fin] at this
    rw [Matrix.mul_apply, Matrix.one_apply]
    simp only [mat, Matrix.of_apply, Matrix.transpose_apply]
    rw [this]
    simp [Fin.ext_iff]
  · ext i k
    have := h.1 k k.2 i i.2
    unfold Spec.mulVec at this
    rw [sum_fin] at this
    rw [Matrix.mul_apply, Matrix.mul_diagonal]
    simp only [mat, Matrix.of_apply, Matrix.transpose_apply]
    rw [this, mul_comm]

/-- An orthonormal eigensystem lists every eigenvalue with its multiplicity. -/
theorem EigenSystem.roots {n : Nat} {f V : Nat → Nat → α} {w : Nat → α} (h : EigenSystem n f w V) :
    (mat n f).charpoly.roots = Multiset.map (fun k : Fin n => w k) Finset.univ.val := by
  obtain ⟨h1, h2⟩ := h.factor
  have h3 := mul_eq_one_comm.mp h1
  have e : mat n f = ((mat n V)ᵀ * diagonal fun k : Fin n => w k) * mat n V := by
    rw [← h2, Matrix.mul_assoc, h3, Matrix.mul_one]
  rw [e, charpoly_mul_comm, ← Matrix.mul_assoc, h1, Matrix.one_mul, charpoly_diagonal]
  have := roots_multiset_prod_X_sub_C (Multiset.map (fun k : Fin n => w k) Finset.univ.val)
  rw [Multiset.map_map] at this
  exact this

/-- every eigenvalue is in the list -/
theorem EigenSystem.complete {n : Nat} {f V : Nat → Nat → α} {w : Nat → α} (h : EigenSystem n f w V) {lam : α}
    {v : Nat → α} (hv : ∃ i, i < n ∧ v i ≠ 0)
    (he : ∀ i, i < n → ∑ j ∈ Finset.range n, f i j * v j = lam * v i) : ∃ k, k < n ∧ lam = w k := by
  obtain ⟨h1, h2⟩ := h.factor
  have h3 := mul_eq_one_comm.mp h1
  have e : mat n f = ((mat n V)ᵀ * diagonal fun k : Fin n => w k) * mat n V := by
    rw [← h2, Matrix.mul_assoc, h3, Matrix.mul_one]
  have e2 : mat n V * mat n f = (diagonal fun k : Fin n => w k) * mat n V := by
    rw [e, ← Matrix.mul_assoc, ← Matrix.mul_assoc, h1, Matrix.one_mul]
  set x : Fin n → α := fun i => v i with hx
  have hfx : mat n f *ᵥ x = lam • x := by
    funext i
    have := he i i.2
    rw [sum_fin] at this
    simpa [Matrix.mulVec, dotProduct, mat] using this
  set c := mat n V *ᵥ x with hc
  have hcx : x = (mat n V)ᵀ *ᵥ c := by rw [hc, Matrix.mulVec_mulVec, h3, Matrix.one_mulVec]
  have hcc : ∀ k : Fin n, w k * c k = lam * c k := by
    intro k
    have : mat n V *ᵥ (mat n f *ᵥ x) = (diagonal fun k : Fin n => w k) *ᵥ c := by
      rw [Matrix.mulVec_mulVec, e2, ← Matrix.mulVec_mulVec]
    rw [hfx, Matrix.mulVec_smul] at this
    have := congrFun this k
    rw [Matrix.mulVec_diagonal] at this
    rw [← this]; rfl
  by_cases hz : c = 0
  · exfalso
    obtain ⟨i, hi, hne⟩ := hv
    apply hne
    have : x = 0 := by rw [hcx, hz, Matrix.mulVec_zero]
    exact congrFun this ⟨i, hi⟩
  · obtain ⟨k, hk⟩ := Function.ne_iff.mp hz
    exact ⟨k, k.2, (mul_right_cancel₀ hk (hcc k)).symm⟩

/-- **C91 (solver).** When `standard_eigen::DC::solve` returns `SUCCESS` for a symmetric matrix, `lambda` holds exactly
the roots of the characteristic polynomial, each as often as its multiplicity, in ascending order. -/
theorem C91_spectrum {L : Lib α} (hL : L.EvOk) {A : Dense α} (hA : A.WF)
    (h0 : A.first = 0) {n : Nat} (hr : A.rowN = n) (hc : A.colN = n) {f : Nat → Nat → α}
    (hf : A.Reads f) (hs : ∀ i j, i < n → j < n → f i j = f j i) {lambda : Vec α} (hl : lambda.WF)
    (hln : lambda.nnz = n) (hi : (L.syevd true true n A.val n).2.2 = 0) :
    ∃ A' lambda' w, DC.standard L 0 A lambda = .ok (success, A', lambda') ∧ VReads lambda' n w ∧
      (∀ k l, k ≤ l → l < n → w k ≤ w l) ∧
      (mat n f).charpoly.roots = Multiset.map (fun k : Fin n => w k) Finset.univ.val ∧
      (mat n f).charpoly = ∏ k : Fin n, (X - C (w k)) := by
  obtain ⟨ret, A', lambda', h1, h2, h3⟩ := C69_dc_standard hL hA h0 hr hc hf hs hl hln
  have hret := h2.mpr hi
  subst hret
  obtain ⟨V, w, -, hw, hE⟩ := h3 rfl
  refine ⟨A', lambda', w, h1, hw, hE.2.2, hE.roots, ?_⟩
  obtain ⟨e1, e2⟩ := hE.factor
  have e3 := mul_eq_one_comm.mp e1
  have e : mat n f = ((mat n V)ᵀ * diagonal fun k : Fin n => w k) * mat n V := by
    rw [← e2, Matrix.mul_assoc, e3, Matrix.mul_one]
  rw [e, charpoly_mul_comm, ← Matrix.mul_assoc, e1, Matrix.one_mul, charpoly_diagonal]

end

/-- the sorted list of eigenvalues is unique when they are distinct -/
theorem sorted_unique {n : Nat} {w e : Nat → ℝ} (hw : ∀ k l, k ≤ l → l < n → w k ≤ w l)
    (he : ∀ k l, k < l → l < n → e k < e l) (h1 : ∀ k, k < n → ∃ N, N < n ∧ w k = e N)
    (h2 : ∀ N, N < n → ∃ k, k < n ∧ e N = w k) : ∀ k, k < n → w k = e k := by
  have hes : StrictMono fun i : Fin n => e i := fun i j hij => he i j hij j.2
  have hwm : Monotone fun i : Fin n => w i := fun i j hij => hw i j hij j.2
  have hr : Set.range (fun i : Fin n => w i) = Set.range fun i : Fin n => e i := by
    ext x
    constructor
    · rintro ⟨k, rfl⟩
      obtain ⟨N, hN, hh⟩ := h1 k k.2
      exact ⟨⟨N, hN⟩, hh.symm⟩
    · rintro ⟨N, rfl⟩
      obtain ⟨k, hk, hh⟩ := h2 N N.2
      exact ⟨⟨k, hk⟩, hh.symm⟩
  have hinj : Function.Injective fun i : Fin n => w i := by
    classical
    have hc : (Finset.univ.image fun i : Fin n => w i).card = (Finset.univ : Finset (Fin n)).card := by
      have : (Finset.univ.image fun i : Fin n => w i) = Finset.univ.image fun i : Fin n => e i := by
        apply Finset.coe_injective
        simpa using hr
      rw [this, Finset.card_image_of_injective _ hes.injective]
    have := Finset.card_image_iff.mp hc
    intro i j hij
    exact this (by simp) (by simp) hij
  have hws := hwm.strictMono_of_injective hinj
  have := (hws.range_inj hes).mp hr
  intro k hk
  exact congrFun this ⟨k, hk⟩

theorem print_reads {v : Vec ℝ} {n : Nat} {w : Nat → ℝ} (h : VReads v n w) (h0 : v.first = 0) :
    ∃ out, v.print = .ok out ∧ out.length = n ∧ ∀ k, k < n → out[k]? = some ([], w k) := by
  obtain ⟨hn, hg⟩ := h
  obtain ⟨ys, e1, e2, e3⟩ := forN_lines (n := v.nnz) (body := fun i out => do
      let x ← rd v.val i
      .ok (out ++ [(([] : List Nat), x)])) (fun i y => y = ([], w i))
    (by
      intro i hi
      refine ⟨_, rfl, fun out => ?_⟩
      have := hg i (by omega)
      unfold Vec.get at this
      rw [h0, Nat.zero_add] at this
      rw [this, Res.ok_bind]) []
  refine ⟨ys, e1, by omega, fun k hk => ?_⟩
  obtain ⟨_, rfl, hy⟩ := e3 k (by omega)
  exact hy

theorem standard_first (L : Lib ℝ) (A : Dense ℝ) (v : Vec ℝ) {r : Int} {A' : Dense ℝ} {v' : Vec ℝ}
    (h : DC.standard L 0 A v = .ok (r, A', v')) : v'.first = v.first := by
  unfold DC.standard syevd at h
  rw [if_pos rfl] at h
  obtain ⟨⟨A1, v1, i1⟩, h1, h2⟩ := Res.bind_eq_ok.mp h
  obtain ⟨_, _, h1⟩ := Res.bind_eq_ok.mp h1
  obtain ⟨_, _, h1⟩ := Res.bind_eq_ok.mp h1
  cases h2
  cases h1
  rfl

theorem dense_of_tridiagonal (n : Nat) (h2 : 2 ≤ n) (hn : n < 2147483648) (a b : ℝ) :
    ∃ coo D, Gen.tridiagonal n a b = .ok coo ∧ Dense.convertCoo Dense.empty coo = .ok D ∧ D.WF ∧ D.first = 0 ∧
      D.rowN = n ∧ D.colN = n ∧ D.Reads (Spec.elem coo) ∧
      ∀ i j, i < n → j < n → Spec.elem coo i j = Spec.elem coo j i := by
  obtain ⟨coo, hc, hM⟩ := Gen.C26_tridiagonal n a b h2 hn
  have hw : Spec.Within coo.rowN coo.colN coo.entries := by
    intro e he
    obtain ⟨i, j, v⟩ := e
    obtain ⟨h1, h2, _, _⟩ := (hM.stored i j v).mp he
    exact ⟨by rw [hM.rows]; exact h1, by rw [hM.cols]; exact h2⟩
  obtain ⟨D, hD, hW, hf, hr, hcl, hat⟩ := Dense.convertCoo_ok (Dense.empty_own (α := ℝ)) hM.wf hw
  refine ⟨coo, D, hc, hD, hW, hf, by rw [hr, hM.rows], by rw [hcl, hM.cols], ?_, ?_⟩
  · intro i j hi hj
    rw [hr] at hi
    rw [hcl] at hj
    rw [hat i j hi hj]
    congr 1
    unfold Spec.elem
    rw [Coo.at_ok hM.wf hi.le hj.le]
  · intro i j hi hj
    rw [Gen.elem_of hM hi hj, Gen.elem_of hM hj hi]
    have e1 : Spec.InBand 1 i j ↔ Spec.InBand 1 j i := ⟨fun h => ⟨h.2, h.1⟩, fun h => ⟨h.2, h.1⟩⟩
    have e2 : (i = j) ↔ (j = i) := eq_comm
    simp only [e1, e2]

/-- **C91 (program).** For every size and every pair of matrix values the example program, if LAPACK reports no error,
ends with code 0 and prints in line `k` the `k`-th smallest eigenvalue in closed form,
`tridiagonal_toeplitz_matrix_eigenvalue(n, k, a, b)`. -/
theorem C91_example {L : Lib ℝ} (hL : L.EvOk) (n : Nat) (h2 : 2 ≤ n) (hn : n < 2147483648) (a b : ℝ)
    (hi : ∀ coo A, Gen.tridiagonal n a b = .ok coo → Dense.convertCoo Dense.empty coo = .ok A →
      (L.syevd true true n A.val n).2.2 = 0) :
    ∃ out, Prog.dcExample L n a b = .ok (0, out) ∧ out.length = n ∧
      ∀ k : Nat, k < n → out[k]? = some ([], Gen.tridiagonalEig n k a b) := by
  obtain ⟨coo, D, hc, hD, hW, hf, hr, hcl, hR, hS⟩ := dense_of_tridiagonal n h2 hn a b
  obtain ⟨lam, hl, hlw, hlc⟩ := Vec.resize_ok (Vec.empty_wf (α := ℝ)) n 0
  have hln : lam.nnz = n := by
    unfold Vec.resize Vec.empty at hl
    simp only [if_true] at hl
    rw [reallocCopy_ok (by simp), Res.ok_bind] at hl
    cases hl; rfl
  obtain ⟨ret, A', lam', h1, h2', h3⟩ := C69_dc_standard hL hW hf hr hcl hR hS hlw hln
  have hret := h2'.mpr (hi coo D hc hD)
  subst hret
  obtain ⟨V, w, -, hw, hE⟩ := h3 rfl
  obtain ⟨coo', hc', hT1, hT2, hT3⟩ := Gen.C60_tridiagonal n a b h2 hn
  rw [hc] at hc'
  cases hc'
  have hwe : ∀ k : Nat, k < n → w k = Gen.tridiagonalEig n k a b := by
    have hA : ∀ k, k < n → ∃ N : Nat, N < n ∧ w k = Gen.tridiagonalEig n N a b := by
      intro k hk
      refine (hT1 (w k)).mp ⟨V k, ?_, fun i hi => hE.1 k hk i hi⟩
      by_contra hz
      have hone := hE.2.1 k k hk hk
      rw [if_pos rfl, Finset.sum_eq_zero] at hone
      · exact zero_ne_one hone
      · intro i hi
        have : V k i = 0 := by
          by_contra hne
          exact hz ⟨i, Finset.mem_range.mp hi, hne⟩
        rw [this, zero_mul]
    by_cases hb : b = 0
    · intro k hk
      obtain ⟨N, -, hN⟩ := hA k hk
      rw [hN, hb]
      unfold Gen.tridiagonalEig
      simp
    · refine sorted_unique (e := fun N => Gen.tridiagonalEig n N a b) hE.2.2 (hT3 hb) hA ?_
      intro N hN
      obtain ⟨v, hv1, hv2⟩ := (hT1 (Gen.tridiagonalEig n N a b)).mpr ⟨N, hN, rfl⟩
      exact hE.complete hv1 hv2
  obtain ⟨out, ho1, ho2, ho3⟩ := print_reads hw (by rw [standard_first L D lam h1, hlw.first0])
  refine ⟨out, ?_, ho2, fun k hk => by rw [ho3 k hk, hwe k hk]⟩
  unfold Prog.dcExample Vec.new
  rw [hc, Res.ok_bind, hD, Res.ok_bind, hl, Res.ok_bind, h1, Res.ok_bind]
  simp only [Solver.C42_constant]
  show ((lam'.print).bind _ : Res _) = _
  rw [ho1]; rfl

/-- a LAPACK exists for which the hypotheses of `C91_example` hold at every size -/
example : ∃ L : Lib ℝ, L.EvOk ∧ ∀ n, 2 ≤ n → n < 2147483648 → ∀ a b, ∃ out, Prog.dcExample L n a b = .ok (0, out) ∧
    out.length = n ∧ ∀ k : Nat, k < n → out[k]? = some ([], Gen.tridiagonalEig n k a b) := by
  obtain ⟨L, -, -, h3, -, h5⟩ := exists_lib_real
  refine ⟨L, h3, fun n h2 hn a b => C91_example h3 n h2 hn a b ?_⟩
  intro coo A hc hA
  obtain ⟨coo', D, hc', hD, hW, hf, hr, hcl, -⟩ := dense_of_tridiagonal n h2 hn a b
  rw [hc] at hc'; cases hc'
  rw [hA] at hD; cases hD
  exact h5 n A.val (by omega) (extent_sq hW hr hcl)

/-- **C91 (violated).** When LAPACK fails, the program's error branch is not taken (`solver_check` is constant, C42): it
still prints `n` numbers and ends with code 0. -/
theorem C91_failure_violated : ∃ L : Lib ℝ, L.EvOk ∧ (∀ n v lda, (L.syevd true true n v lda).2.2 ≠ 0) ∧
    ∀ n, 2 ≤ n → n < 2147483648 → ∀ a b, ∃ out, Prog.dcExample L n a b = .ok (0, out) ∧ out.length = n := by
  obtain ⟨L0, -⟩ := exists_lib_real
  let L : Lib ℝ := { L0 with
    syevd := fun _ _ n a lda => (a, [], if lda < max 1 n then -1 else 1) }
  have hne : ∀ n lda : Nat, (if lda < max 1 n then (-1 : Int) else 1) ≠ 0 := by
    intro n lda; split <;> decide
  have hL : L.EvOk := by
    intro upper n a lda _
    have hn : (if lda < max 1 n then (-1 : Int) else 1) ≠ 0 := hne n lda
    exact ⟨rfl, fun h => by show (if lda < max 1 n then (-1 : Int) else 1) < 0; rw [if_pos h]; decide,
      fun h => absurd h hn, fun h => absurd h hn, fun h => absurd h hn, fun h => absurd h hn⟩
  refine ⟨L, hL, fun n v lda => hne n lda, fun n h2 hn a b => ?_⟩
  obtain ⟨coo, D, hc, hD, hW, hf, hr, hcl, hR, hS⟩ := dense_of_tridiagonal n h2 hn a b
  obtain ⟨lam, hl, hlw, hlc⟩ := Vec.resize_ok (Vec.empty_wf (α := ℝ)) n 0
  have hln : lam.nnz = n := by
    unfold Vec.resize Vec.empty at hl
    simp only [if_true] at hl
    rw [reallocCopy_ok (by simp), Res.ok_bind] at hl
    cases hl; rfl
  have h1 := hlw.lenV
  have h3 := hlw.nnz_le
  have hst : DC.standard L 0 D lam = .ok (breakdown, D, lam) := by
    unfold DC.standard syevd
    rw [if_pos rfl]
    simp only [hr]
    rw [touch_ok (extent_sq hW hr hcl), Res.ok_bind, touch_ok (by omega), Res.ok_bind]
    have hlt : ¬ n < max 1 n := by omega
    show Res.ok _ = _
    simp only [L, hlt, if_false]
    rw [← hr, if_pos (by decide)]
    simp [overwrite]
  obtain ⟨out, ho1, ho2, -⟩ := C90_vector lam hlw
  refine ⟨out, ?_, by omega⟩
  unfold Prog.dcExample Vec.new
  rw [hc, Res.ok_bind, hD, Res.ok_bind, hl, Res.ok_bind, hst, Res.ok_bind]
  simp only [Solver.C42_constant]
  show ((lam.print).bind _ : Res _) = _
  rw [ho1]; rfl

end Verif.Lapack
