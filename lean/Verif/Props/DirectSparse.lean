import Verif.Props.DirectDev
import Verif.Props.DC
import Mathlib.LinearAlgebra.Matrix.NonsingularInverse
import Mathlib.Data.Real.Basic
import Mathlib.LinearAlgebra.Matrix.ToLinearEquiv

/-!
C116: `QR`, `Cholesky` and `LU` on CRS matrices.
-/

namespace Verif.Direct

open Verif.Lapack

variable {α : Type}

/-- the matrix the user sees -/
def DCrs.cur (A : DCrs α) : Crs α := if A.on then { A.mat with val := A.dev } else A.mat

/-- **C116** (sparse). In builds without GPU `QR` and `Cholesky` on a CRS matrix are refused, `LU` in all builds. -/
theorem C116_sparse_refused (cu : CuSp α) (A : DCrs α) (x b : DVec α) :
    qrCrs false cu A x b = .throw "error Cholesky on CPU does not impl." ∧
      choleskyCrs false cu A x b = .throw "error Cholesky on CPU does not impl." ∧
      LU.crs A.mat x b = .throw "error sparse Lu is not impl." := ⟨rfl, rfl, rfl⟩

theorem cusolver_run [Field α] {g : Crs α → List α → List α × Int} {A : DCrs α} {x b : DVec α} {n : Nat}
    (hA : A.on = true) (hx : x.on = true) (hb : b.on = true) (hn : A.mat.rowN = n) (hv : A.mat.nnz ≤ A.dev.length)
    (hxw : x.cur.WF) (hxn : x.cur.nnz = n) (hbw : b.cur.WF) {bf : Nat → α} (hbf : VReads b.cur n bf)
    {y : Fin n → α} (hy : (g { A.mat with val := A.dev } (List.ofFn fun i : Fin n => bf i)).1 = List.ofFn y) :
    ∃ x', cusolver g A x b = .ok (success, x') ∧ x'.on = true ∧ VReads x'.cur n (fun i => if h : i < n then y ⟨i, h⟩ else 0) := by
  rw [cur_on hx] at hxw hxn
  rw [cur_on hb] at hbw hbf
  have hbl : n ≤ b.dev.length := by
    have := hbw.nnz_le
    rw [← hbf.1]; exact this
  have hxl : n ≤ x.dev.length := by
    have := hxw.nnz_le
    rw [← hxn]; exact this
  have htake : b.dev.take n = List.ofFn fun i : Fin n => bf i := by
    refine List.ext_getElem? fun i => ?_
    by_cases hi : i < n
    · rw [List.getElem?_take_of_lt hi]
      have := hbf.2 i hi
      rw [Vec.get, hbw.first0, Nat.zero_add, rd_eq_ok] at this
      rw [List.getElem?_ofFn, dif_pos hi]
      exact this
    · rw [List.getElem?_eq_none (by rw [List.length_take]; omega), List.getElem?_eq_none (by simp; omega)]
  refine ⟨{ x with dev := overwrite x.dev (List.ofFn y) }, ?_, hx, ?_⟩
  · unfold cusolver
    rw [if_neg (by simp [hA, hx, hb]), touch_ok hv, Res.ok_bind, hn, touch_ok hbl, Res.ok_bind, touch_ok hxl, Res.ok_bind,
      htake]
    dsimp only
    rw [hy]
    rfl
  · rw [cur_on (by exact hx)]
    refine ⟨hxn, fun i hi => ?_⟩
    show rd (overwrite x.dev (List.ofFn y)) (0 + i) = _
    rw [Nat.zero_add, rd_eq_ok]
    unfold overwrite
    rw [List.getElem?_append_left (by simpa using hi), List.getElem?_ofFn, dif_pos hi]
    simp only [dif_pos hi]

/-- **C116** (sparse `QR`). For every nonsingular square CRS matrix with the operands on the device: `SUCCESS`, and the
user sees the solution in `x`. -/
theorem C116_qr_partial [Field α] [LinearOrder α] {cu : CuSp α} (hcu : CuSpOk cu) {A : DCrs α} {x b : DVec α} {n : Nat}
    (hA : A.on = true) (hx : x.on = true) (hb : b.on = true) (hR : Spec.Readable A.cur) (hr : A.mat.rowN = n)
    (hc : A.mat.colN = n) (hdet : (Spec.crsMat n A.cur).det ≠ 0)
    (hxw : x.cur.WF) (hxn : x.cur.nnz = n) (hbw : b.cur.WF) {bf : Nat → α} (hbf : VReads b.cur n bf) :
    ∃ x', qrCrs true cu A x b = .ok (success, x') ∧ x'.on = true ∧
      ∃ xf, VReads x'.cur n xf ∧ ∀ i, i < n → Spec.mulVec n (Spec.crsAt A.cur) xf i = bf i := by
  have hcur : A.cur = { A.mat with val := A.dev } := by unfold DCrs.cur; rw [if_pos hA]
  have hrc : A.cur.rowN = n := by rw [hcur]; exact hr
  subst hrc
  have hq := hcu.qr A.cur (fun i => bf i) hR (by rw [hcur]; exact hr.trans (by rw [← hc]))
  obtain ⟨y, hy, hsol⟩ := hq.2 (hq.1.mpr hdet)
  have hv : A.mat.nnz ≤ A.dev.length := by
    have := hR.lenV
    rw [hcur] at this
    exact this
  obtain ⟨x', h1, h2, h3⟩ := cusolver_run (g := cu.qr) hA hx hb hr hv hxw hxn hbw hbf (y := y) (by rw [← hy, hcur])
  refine ⟨x', h1, h2, _, h3, fun i hi => ?_⟩
  have := congrFun hsol ⟨i, hi⟩
  rw [← this]
  unfold Spec.mulVec Matrix.mulVec dotProduct
  rw [Finset.sum_range]
  refine Finset.sum_congr rfl fun j _ => ?_
  simp only [dif_pos j.2]
  rfl

/-- **C116** (sparse `Cholesky`). The same for every symmetric positive definite CRS matrix. -/
theorem C116_cholesky_crs_partial [Field α] [LinearOrder α] {cu : CuSp α} (hcu : CuSpOk cu) {A : DCrs α} {x b : DVec α}
    {n : Nat} (hA : A.on = true) (hx : x.on = true) (hb : b.on = true) (hR : Spec.Readable A.cur) (hr : A.mat.rowN = n)
    (hc : A.mat.colN = n) (hsym : (Spec.crsMat n A.cur).transpose = Spec.crsMat n A.cur)
    (hpos : ∀ y : Fin n → α, y ≠ 0 → 0 < ∑ i, y i * (Spec.crsMat n A.cur).mulVec y i)
    (hxw : x.cur.WF) (hxn : x.cur.nnz = n) (hbw : b.cur.WF) {bf : Nat → α} (hbf : VReads b.cur n bf) :
    ∃ x', choleskyCrs true cu A x b = .ok (success, x') ∧ x'.on = true ∧
      ∃ xf, VReads x'.cur n xf ∧ ∀ i, i < n → Spec.mulVec n (Spec.crsAt A.cur) xf i = bf i := by
  have hcur : A.cur = { A.mat with val := A.dev } := by unfold DCrs.cur; rw [if_pos hA]
  have hrc : A.cur.rowN = n := by rw [hcur]; exact hr
  subst hrc
  have hq := hcu.chol A.cur (fun i => bf i) hR (by rw [hcur]; exact hr.trans (by rw [← hc])) hsym
  obtain ⟨y, hy, hsol⟩ := hq.2 (hq.1.mpr hpos)
  have hv : A.mat.nnz ≤ A.dev.length := by
    have := hR.lenV
    rw [hcur] at this
    exact this
  obtain ⟨x', h1, h2, h3⟩ := cusolver_run (g := cu.chol) hA hx hb hr hv hxw hxn hbw hbf (y := y) (by rw [← hy, hcur])
  refine ⟨x', h1, h2, _, h3, fun i hi => ?_⟩
  have := congrFun hsol ⟨i, hi⟩
  rw [← this]
  unfold Spec.mulVec Matrix.mulVec dotProduct
  rw [Finset.sum_range]
  refine Finset.sum_congr rfl fun j _ => ?_
  simp only [dif_pos j.2]
  rfl

/-- **C116**, violated: `QR` and `Cholesky` on CRS matrices never report a failure. Whenever the call returns, the status is
`SUCCESS`: for a singular matrix, for one that is not positive definite, for any matrix. -/
theorem C116_sparse_always_success_violated (cu : CuSp α) {A : DCrs α} {x b x' : DVec α} {s : Int} :
    (qrCrs true cu A x b = .ok (s, x') → s = success) ∧ (choleskyCrs true cu A x b = .ok (s, x') → s = success) := by
  have key : ∀ g : Crs α → List α → List α × Int, cusolver g A x b = .ok (s, x') → s = success := by
    intro g h
    unfold cusolver at h
    split at h
    · cases h
    · obtain ⟨_, _, h⟩ := Res.bind_eq_ok.mp h
      obtain ⟨_, _, h⟩ := Res.bind_eq_ok.mp h
      obtain ⟨_, _, h⟩ := Res.bind_eq_ok.mp h
      cases h
      rfl
  exact ⟨key cu.qr, key cu.chol⟩

/-- **C116**, violated: an operand on the host is not refused; cuSOLVER is given a host address. -/
theorem C116_sparse_host_violated (cu : CuSp α) {A : DCrs α} {x b : DVec α} (h : (A.on && x.on && b.on) = false) :
    qrCrs true cu A x b = .ub "cuSOLVER: host address" ∧ choleskyCrs true cu A x b = .ub "cuSOLVER: host address" := by
  unfold qrCrs choleskyCrs cusolver
  simp [h]

/-- a solver that solves the system if `p` holds -/
noncomputable def refSolve [Field α] (p : Crs α → Prop) (A : Crs α) (b : List α) : List α × Int := by
  classical
  exact if h : p A ∧ ∃ y : Fin A.rowN → α, (Spec.crsMat A.rowN A).mulVec y = fun i : Fin A.rowN => b.getD i 0 then
    (List.ofFn h.2.choose, -1) else (b, 0)

theorem refSolve_ok [Field α] {p : Crs α → Prop} {A : Crs α} (hp : p A → (Spec.crsMat A.rowN A).det ≠ 0)
    (b : Fin A.rowN → α) :
    ((refSolve p A (List.ofFn b)).2 = -1 ↔ p A) ∧
    ((refSolve p A (List.ofFn b)).2 = -1 → ∃ y : Fin A.rowN → α, (refSolve p A (List.ofFn b)).1 = List.ofFn y ∧
      (Spec.crsMat A.rowN A).mulVec y = b) := by
  have hb : (fun i : Fin A.rowN => (List.ofFn b).getD i 0) = b := by
    funext i
    simp [List.getD]
  by_cases hpA : p A
  · have hex : ∃ y : Fin A.rowN → α, (Spec.crsMat A.rowN A).mulVec y = fun i : Fin A.rowN => (List.ofFn b).getD i 0 := by
      rw [hb]
      refine ⟨(Spec.crsMat A.rowN A)⁻¹.mulVec b, ?_⟩
      rw [Matrix.mulVec_mulVec, Matrix.mul_nonsing_inv _ (isUnit_iff_ne_zero.mpr (hp hpA)), Matrix.one_mulVec]
    have hand := And.intro hpA hex
    have e : refSolve p A (List.ofFn b) = (List.ofFn hand.2.choose, -1) := by
      unfold refSolve
      rw [dif_pos hand]
    rw [e]
    refine ⟨⟨fun _ => hpA, fun _ => rfl⟩, fun _ => ⟨_, rfl, ?_⟩⟩
    rw [hand.2.choose_spec, hb]
  · have e : refSolve p A (List.ofFn b) = (List.ofFn b, 0) := by
      unfold refSolve
      rw [dif_neg (fun h => hpA h.1)]
    rw [e]
    refine ⟨⟨fun h => absurd h (by simp), fun h => absurd h hpA⟩, fun h => absurd h (by simp)⟩

/-- positive definite -/
def PosDef [Field α] [LinearOrder α] (A : Crs α) : Prop :=
  ∀ y : Fin A.rowN → α, y ≠ 0 → 0 < ∑ i, y i * (Spec.crsMat A.rowN A).mulVec y i

/-- a cuSOLVER that meets the contract exists -/
theorem exists_cusp [Field α] [LinearOrder α] : ∃ cu : CuSp α, CuSpOk cu := by
  refine ⟨⟨refSolve fun A => (Spec.crsMat A.rowN A).det ≠ 0, refSolve PosDef⟩, ?_, ?_⟩
  · intro A b _ _
    exact refSolve_ok (p := fun A => (Spec.crsMat A.rowN A).det ≠ 0) (fun h => h) b
  · intro A b _ _ _
    refine refSolve_ok (p := PosDef) (fun h hd => ?_) b
    obtain ⟨y, hy0, hy⟩ := Matrix.exists_mulVec_eq_zero_iff.mpr hd
    have := h y hy0
    rw [hy] at this
    simp at this

/-- the 1 × 1 matrix (v), on the device -/
def exCrs (v : ℚ) : DCrs ℚ := ⟨⟨1, 1, [0, 1], [0], [v], 1, 1, true⟩, [v], true⟩

/-- **C116**, violated: the system `0 x = 1` is reported as solved. -/
theorem C116_sparse_singular_violated (cu : CuSp ℚ) :
    (Spec.crsMat 1 (exCrs 0).cur).det = 0 ∧ (∀ xf : Nat → ℚ, Spec.mulVec 1 (Spec.crsAt (exCrs 0).cur) xf 0 ≠ 1) ∧
      ∃ x' y', qrCrs true cu (exCrs 0) ⟨⟨[7], 1, 1, 0, true⟩, [7], true⟩ ⟨⟨[1], 1, 1, 0, true⟩, [1], true⟩ = .ok (success, x') ∧
        choleskyCrs true cu (exCrs 0) ⟨⟨[7], 1, 1, 0, true⟩, [7], true⟩ ⟨⟨[1], 1, 1, 0, true⟩, [1], true⟩ = .ok (success, y') := by
  have h0 : Spec.crsAt (exCrs 0).cur 0 0 = 0 := by decide +kernel
  refine ⟨?_, ?_, _, _, rfl, rfl⟩
  · rw [Matrix.det_fin_one]
    exact h0
  · intro xf
    simp [Spec.mulVec, h0]

/-- the hypotheses of the theorem about `QR` can be met: `2 x = 6` -/
example : ∃ cu : CuSp ℚ, CuSpOk cu ∧ ∃ x', qrCrs true cu (exCrs 2) ⟨⟨[7], 1, 1, 0, true⟩, [7], true⟩
    ⟨⟨[0], 1, 1, 0, true⟩, [6], true⟩ = .ok (success, x') ∧ x'.cur.get 0 = .ok 3 := by
  obtain ⟨cu, hcu⟩ := exists_cusp (α := ℚ)
  have h2 : Spec.crsAt (exCrs 2).cur 0 0 = 2 := by decide +kernel
  obtain ⟨x', h1, _, xf, hx, hsol⟩ := C116_qr_partial hcu (A := exCrs 2) (x := ⟨⟨[7], 1, 1, 0, true⟩, [7], true⟩)
    (b := ⟨⟨[0], 1, 1, 0, true⟩, [6], true⟩) (n := 1) rfl rfl rfl
    { lenP := rfl, ptr_le := by decide, lenC := by decide, lenV := by decide, col_lt := by decide } rfl rfl
    (by
      rw [Matrix.det_fin_one]
      show Spec.crsAt (exCrs 2).cur 0 0 ≠ 0
      rw [h2]
      norm_num)
    ⟨rfl, rfl, by decide, rfl⟩ rfl ⟨rfl, rfl, by decide, rfl⟩ (bf := fun _ => 6) ⟨rfl, by intro i hi; interval_cases i; rfl⟩
  refine ⟨cu, hcu, x', h1, ?_⟩
  have := hsol 0 (by decide)
  simp [Spec.mulVec, h2] at this
  rw [hx.2 0 (by decide)]
  exact congrArg Res.ok (by linarith)

/-- a solution vector that is shorter than the matrix is not refused -/
theorem C116_sparse_short_ub (cu : CuSp α) {A : DCrs α} {x b : DVec α} (hA : A.on = true) (hx : x.on = true)
    (hb : b.on = true) (hv : A.mat.nnz ≤ A.dev.length) (hbl : A.mat.rowN ≤ b.dev.length)
    (hxl : x.dev.length < A.mat.rowN) : qrCrs true cu A x b = .ub "LAPACK: out of bounds" := by
  unfold qrCrs cusolver
  rw [if_pos rfl, if_neg (by simp [hA, hx, hb]), touch_ok hv, Res.ok_bind, touch_ok hbl, Res.ok_bind]
  unfold touch
  rw [if_neg (by omega)]
  rfl

end Verif.Direct
