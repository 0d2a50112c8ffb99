import Verif.Props.DirectChol
import Mathlib.Tactic.FinCases
import Mathlib.Tactic.Ring
import Mathlib.LinearAlgebra.Matrix.ToLinearEquiv

/-!
C116: operands on different sides, and what `Cholesky` leaves behind.
-/

namespace Verif.Direct

open Verif.Lapack

variable {α : Type}

/-- the matrix (1 1; 1 2), sent to the device -/
def exOn : DDense ℚ := ⟨⟨2, 2, [1, 1, 1, 2], 4, 4, 0, true⟩, [1, 1, 1, 2], true⟩

/-- the right-hand side (0, 1), on the host -/
def exRhs : DVec ℚ := ⟨⟨[0, 1], 2, 2, 0, true⟩, [], false⟩

/-- the vector `v`, as the user sees it, solves the system with the matrix `exOn` and right-hand side (0, 1) -/
def exSolved (v : Vec ℚ) : Prop := ∃ p q : ℚ, v.get 0 = .ok p ∧ v.get 1 = .ok q ∧ p + q = 0 ∧ p + 2 * q = 1

/-- **C116**, violated. A matrix on the device and a right-hand side on the host: the factors are computed on the
device, the solution with the matrix itself, which the host still holds, in place of the factors. For every correct LAPACK and
every correct cuSOLVER the call reports `SUCCESS`, and the result is not the solution. -/
theorem C116_lu_matrix_on_device_violated {L Cu : Lib ℚ} (hL : L.LUOk) (hCu : Cu.LUOk) :
    ∃ A' x', LU.solve2 true L Cu exOn exRhs = .ok (success, A', x') ∧ ¬ exSolved x'.cur := by
  have hext : extent 2 2 2 ≤ ([1, 1, 1, 2] : List ℚ).length := by decide
  have hF := hCu.getrf 2 2 [1, 1, 1, 2] 2 hext
  obtain ⟨hpl, hpp⟩ := hF.pivots (by decide)
  have hfac := hF.factors (by decide)
  obtain ⟨hi0, hinfo⟩ := hF.info (by decide)
  have hp : PivotsIn 0 2 (Cu.getrf 2 2 [1, 1, 1, 2] 2).2.1 := by
    intro k p hk
    have := hpp k p hk
    omega
  have hz : (Cu.getrf 2 2 [1, 1, 1, 2] 2).2.2 = 0 := by
    rw [hinfo, Nat.min_self, ← det_ne_zero_iff hp hfac]
    simp [det, Matrix.det_fin_two, cm]
    norm_num
  generalize hr : Cu.getrf 2 2 [1, 1, 1, 2] 2 = r at *
  obtain ⟨F, ip, info⟩ := r
  simp only at hz hpl hpp
  subst hz
  have hS := hL.getrs true 2 1 [1, 1, 1, 2] 2 ip [0, 1] 2 hext (by decide) (by rw [hpl]; decide)
  have hsolves := hS.solves (by decide) (by decide)
    (by intro k hk; interval_cases k <;> simp [cm]) (by rw [hpl]; rfl)
    (fun k p hk => by have := hpp k p hk; omega)
  have hlen := hS.length
  have hSi := hS.info (by decide) (by decide)
  generalize hq : L.getrs true 2 1 [1, 1, 1, 2] 2 ip [0, 1] 2 = q at *
  obtain ⟨y, i2⟩ := q
  simp only at hSi hlen hsolves
  subst hSi
  refine ⟨{ exOn with dev := F }, { exRhs with host := ⟨y, 2, 2, 0, true⟩ }, ?_, ?_⟩
  · have e1 : Lapack.getrf Cu exOn.devMat (List.replicate 2 0) = .ok ({ exOn.devMat with val := F }, ip, 0) := by
      unfold Lapack.getrf
      show (do touch (extent 2 2 2) 4; touch (min 2 2) 2; Res.ok (_, overwrite _ (Cu.getrf 2 2 [1, 1, 1, 2] 2).2.1, _) :
        Res (Dense ℚ × List Nat × Int)) = _
      rw [touch_ok (by decide), Res.ok_bind, touch_ok (by decide), Res.ok_bind]
      have ho : overwrite (List.replicate 2 0) ip = ip := overwrite_replicate hpl
      show Res.ok ({ exOn.devMat with val := (Cu.getrf 2 2 [1, 1, 1, 2] 2).1 },
        overwrite (List.replicate 2 0) (Cu.getrf 2 2 [1, 1, 1, 2] 2).2.1, (Cu.getrf 2 2 [1, 1, 1, 2] 2).2.2) = _
      rw [hr, ho]
    have e2 : Lapack.getrs L exOn.host exRhs.host ip = .ok ({ exRhs.host with val := y }, 0) := by
      unfold Lapack.getrs
      show (do touch (extent 2 2 2) 4; touch 2 ip.length; touch (extent 2 1 2) 2
               Res.ok ({ exRhs.host with val := (L.getrs true 2 1 [1, 1, 1, 2] 2 ip [0, 1] 2).1 },
                 (L.getrs true 2 1 [1, 1, 1, 2] 2 ip [0, 1] 2).2) : Res (Vec ℚ × Int)) = _
      rw [touch_ok (by decide), Res.ok_bind, touch_ok (by rw [hpl]; decide), Res.ok_bind, touch_ok (by decide),
        Res.ok_bind, hq]
    unfold LU.solve2 getrf getrs
    show (do
      let r ← (do let r ← Lapack.getrf Cu exOn.devMat (List.replicate 2 0); _ : Res (DDense ℚ × List Nat × Int))
      _ : Res (Ret ℚ)) = _
    rw [e1]
    simp only [Res.ok_bind]
    show (do
      let r ← (do let r ← Lapack.getrs L exOn.host exRhs.host ip; _ : Res (DVec ℚ × Int))
      _ : Res (Ret ℚ)) = _
    rw [e2]
    rfl
  · rintro ⟨p, q, hp0, hp1, e1, e2⟩
    obtain ⟨p0, p1, rfl⟩ : ∃ p0 p1, ip = [p0, p1] := by
      match ip, hpl with
      | [p0, p1], _ => exact ⟨p0, p1, rfl⟩
    have h0 := hpp 0 p0 rfl
    have h1 := hpp 1 p1 rfl
    have hp1' : p1 = 2 := by omega
    subst hp1'
    obtain ⟨y0, y1, rfl⟩ : ∃ y0 y1, y = [y0, y1] := by
      match y, hlen with
      | [y0, y1], _ => exact ⟨y0, y1, rfl⟩
    have hp0' : y0 = p := by
      have : (Res.ok y0 : Res ℚ) = .ok p := hp0
      exact Res.ok.inj this
    have hp1' : y1 = q := by
      have : (Res.ok y1 : Res ℚ) = .ok q := hp1
      exact Res.ok.inj this
    subst hp0' hp1'
    have hcase : p0 = 1 ∨ p0 = 2 := by omega
    rcases hcase with rfl | rfl
    · have := hsolves (fun i j => if i = 1 ∧ j = 1 then 3 else 1)
        (by
          intro i j hi hj
          interval_cases i <;> interval_cases j <;>
            simp [rowPerm, cm, lower, upper, Finset.sum_range_succ] <;> norm_num) 0 (by decide)
      have a0 := this 0 (by decide)
      have a1 := this 1 (by decide)
      simp [Spec.mulVec, Finset.sum_range_succ, op, cm] at a0 a1
      linarith
    · have := hsolves (fun i j => if i = 0 ∧ j = 1 then 3 else 1)
        (by
          intro i j hi hj
          interval_cases i <;> interval_cases j <;>
            simp [rowPerm, cm, lower, upper, Finset.sum_range_succ] <;> norm_num) 0 (by decide)
      have a0 := this 0 (by decide)
      have a1 := this 1 (by decide)
      simp [Spec.mulVec, Finset.sum_range_succ, op, cm] at a0 a1
      linarith

/-- **C116**, violated. A matrix on the host and a right-hand side on the device: for every nonsingular matrix the call
reports `SUCCESS`, and the vector the user sees is the right-hand side, unchanged (the system was solved with the host copy
of the vector, into the host copy). -/
theorem C116_lu_vector_on_device_violated [Field α] {L : Lib α} (hL : L.LUOk) (Cu : Lib α) {A : DDense α} (hA : A.on = false)
    {x : DVec α} (hx : x.on = true) (hAw : A.host.WF) (h0 : A.host.first = 0) {n : Nat} (hn : 0 < n) (hr : A.host.rowN = n)
    (hc : A.host.colN = n) {f : Nat → Nat → α} (hf : A.host.Reads f) (hdet : det n f ≠ 0) (hxw : x.host.WF)
    {old : Nat → α} (hold : VReads x.host n old) :
    ∃ A' x', LU.solve2 true L Cu A x = .ok (success, A', x') ∧ x'.cur.val = x.cur.val ∧ x'.cur.nnz = n := by
  obtain ⟨s, A', x', h1, h2, _⟩ := C67_lu_inplace hL hAw h0 hn hr hc hf hxw hold
  obtain ⟨rfl, _, hxf, _⟩ := h2 hdet
  refine ⟨_, _, lu_host true Cu hA h1, ?_, ?_⟩
  · rw [cur_on hx, cur_on (by exact hx)]; rfl
  · rw [cur_on (by exact hx)]; exact hxf.1

/-- the matrix (2), on the host; the right-hand side (2), on the device: the result is 2, the solution is 1 -/
example : ∃ L : Lib ℚ, L.LUOk ∧ ∃ A' x', LU.solve2 true L L ⟨⟨1, 1, [2], 1, 1, 0, true⟩, [], false⟩
    ⟨⟨[7], 1, 1, 0, true⟩, [2], true⟩ = .ok (success, A', x') ∧ x'.cur.val = [2] := by
  obtain ⟨L, hL, _⟩ := exists_lib (α := ℚ)
  obtain ⟨A', x', h1, h2, _⟩ := C116_lu_vector_on_device_violated hL L
    (A := ⟨⟨1, 1, [2], 1, 1, 0, true⟩, [], false⟩) (x := ⟨⟨[7], 1, 1, 0, true⟩, [2], true⟩) rfl rfl
    ⟨rfl, rfl, by decide⟩ rfl (n := 1) (by decide) rfl rfl (f := fun _ _ => 2)
    (by
      intro i j hi hj
      have hi : i < 1 := hi
      have hj : j < 1 := hj
      interval_cases i; interval_cases j; rfl)
    (by simp [det]) ⟨rfl, rfl, by decide, rfl⟩ (old := fun _ => 7) ⟨rfl, by intro i hi; interval_cases i; rfl⟩
  exact ⟨L, hL, A', x', h1, h2⟩

/-- **C116**, violated. In a GPU build with all operands on the host, `Cholesky::solve(A, x, b)` leaves `x` on the device;
a second call with the same `x` and `b`, whatever the matrix, aborts. -/
theorem C116_cholesky_twice_violated [Field α] {L Cu : Lib α} (hL : L.SyOk) {A : DDense α} (hAo : A.on = false)
    {x b : DVec α} (hxo : x.on = false) (hbo : b.on = false) (hA : A.host.WF) (h0 : A.host.first = 0) {n : Nat}
    (hn : 0 < n) (hr : A.host.rowN = n) (hc : A.host.colN = n) {f : Nat → Nat → α} (hf : A.host.Reads f)
    (hsym : ∀ i j, i < n → j < n → f i j = f j i) (hx : x.host.WF) (hxn : x.host.nnz = n)
    (hbw : b.host.WF) {bf : Nat → α} (hb : VReads b.host n bf) :
    ∃ s A' x', Cholesky.solve true L Cu A x b = .ok (s, A', x') ∧ x'.on = true ∧
      ∀ A'' : DDense α, Cholesky.solve true L Cu A'' x' b = .abort "assert" := by
  have hm : (mixed A.on L Cu).SyOk := by rw [hAo]; exact hL
  obtain ⟨⟨s, _, _, h1, _⟩, h2⟩ := C116_cholesky_solve_partial (gpu := true) hm (hbo.trans hxo.symm) (fun _ => rfl)
    (by rw [mcur_off hAo]; exact hA) h0 (fun h => by rw [hAo] at h; cases h) hn (by rw [mcur_off hAo]; exact hr)
    (by rw [mcur_off hAo]; exact hc) (by rw [mcur_off hAo]; exact hf) hsym (by rw [cur_off hxo]; exact hx) hx.first0
    (by rw [cur_off hxo]; exact hxn) (by rw [cur_off hbo]; exact hbw) (by rw [cur_off hbo]; exact hb)
  unfold seen at h1
  obtain ⟨⟨s', A', x'⟩, h3, h1⟩ := Res.bind_eq_ok.mp h1
  have hon := (h2 s' A' x' h3).2
  refine ⟨s', A', x', h3, hon, fun A'' => ?_⟩
  unfold Cholesky.solve copy
  by_cases hs : b.host.nnz = x'.host.nnz
  · rw [cassert_decide hs, Res.ok_bind, hbo, hon]
    rfl
  · have : cassert (decide (b.host.nnz = x'.host.nnz)) = .abort "assert" := by simp [cassert, hs]
    rw [this]
    rfl

/-- the hypotheses can be met: (0 1; 1 0) -/
example : ∃ L : Lib ℚ, L.SyOk ∧ ∃ s A' x', Cholesky.solve true L L ⟨⟨2, 2, [0, 1, 1, 0], 4, 4, 0, true⟩, [], false⟩
    ⟨⟨[7, 7], 2, 2, 0, true⟩, [], false⟩ ⟨⟨[1, 8], 2, 2, 0, true⟩, [], false⟩ = .ok (s, A', x') ∧ x'.on = true := by
  obtain ⟨L, _, hL⟩ := exists_lib (α := ℚ)
  obtain ⟨s, A', x', h, h', _⟩ := C116_cholesky_twice_violated hL (Cu := L)
    (A := ⟨⟨2, 2, [0, 1, 1, 0], 4, 4, 0, true⟩, [], false⟩) rfl (x := ⟨⟨[7, 7], 2, 2, 0, true⟩, [], false⟩)
    (b := ⟨⟨[1, 8], 2, 2, 0, true⟩, [], false⟩) rfl rfl ⟨rfl, rfl, by decide⟩ rfl (n := 2) (by decide) rfl rfl
    (f := fun i j => if i = j then 0 else 1)
    (by
      intro i j hi hj
      have hi : i < 2 := hi
      have hj : j < 2 := hj
      interval_cases i <;> interval_cases j <;> rfl)
    (by intro i j _ _; simp only [eq_comm]) ⟨rfl, rfl, by decide, rfl⟩ rfl
    ⟨rfl, rfl, by decide, rfl⟩ (bf := fun i => if i = 0 then 1 else 8)
    ⟨rfl, by intro i hi; interval_cases i <;> rfl⟩
  exact ⟨L, hL, s, A', x', h, h'⟩

/-- **C116** (LU): host and device agree. A nonsingular system solved on the device gives the elements that solving it on
the host gives, for every correct LAPACK and cuSOLVER. -/
theorem C116_lu_same_partial [Field α] {gpu : Bool} {L Cu : Lib α} (hL : L.LUOk) (hCu : Cu.LUOk) {A B : DDense α}
    {x y : DVec α} (hAo : A.on = true) (hxo : x.on = true) (hBo : B.on = false) (hyo : y.on = false)
    (hA : A.cur.WF) (h0 : A.cur.first = 0) (hB : B.cur.WF) (hB0 : B.cur.first = 0) {n : Nat} (hn : 0 < n)
    (hr : A.cur.rowN = n) (hc : A.cur.colN = n) (hBr : B.cur.rowN = n) (hBc : B.cur.colN = n) {f : Nat → Nat → α}
    (hf : A.cur.Reads f) (hBf : B.cur.Reads f) (hdet : det n f ≠ 0) (hx : x.cur.WF) (hy : y.cur.WF)
    {b : Nat → α} (hb : VReads x.cur n b) (hb' : VReads y.cur n b) :
    ∃ A' x' B' y', LU.solve2 true L Cu A x = .ok (success, A', x') ∧ LU.solve2 gpu L Cu B y = .ok (success, B', y') ∧
      ∀ i, i < n → x'.cur.get i = y'.cur.get i := by
  obtain ⟨⟨s, _, _, h1, h2, _⟩, _⟩ := C116_lu_inplace_partial (gpu := true) hL hCu (hAo.trans hxo.symm) (fun _ => rfl) hA h0
    hn hr hc hf hx hb
  obtain ⟨⟨t, _, _, k1, k2, _⟩, _⟩ := C116_lu_inplace_partial (gpu := gpu) hL hCu (hBo.trans hyo.symm)
    (fun h => by rw [hBo] at h; cases h) hB hB0 hn hBr hBc hBf hy hb'
  obtain ⟨rfl, u, hu, hus⟩ := h2 hdet
  obtain ⟨rfl, v, hv, hvs⟩ := k2 hdet
  unfold seen at h1 k1
  obtain ⟨⟨s', A', x'⟩, h3, h1⟩ := Res.bind_eq_ok.mp h1
  obtain ⟨⟨t', B', y'⟩, k3, k1⟩ := Res.bind_eq_ok.mp k1
  cases h1
  cases k1
  refine ⟨A', x', B', y', h3, k3, fun i hi => ?_⟩
  rw [hu.2 i hi, hv.2 i hi]
  have hz : (Matrix.of fun i j : Fin n => f i j).mulVec (fun j : Fin n => u j - v j) = 0 := by
    funext k
    have e1 := hus k k.2
    have e2 := hvs k k.2
    unfold Spec.mulVec at e1 e2
    rw [Finset.sum_range] at e1 e2
    show (∑ j : Fin n, f k j * (u j - v j)) = 0
    simp only [mul_sub, Finset.sum_sub_distrib]
    rw [e1, e2, sub_self]
  have := Matrix.eq_zero_of_mulVec_eq_zero hdet hz
  have h4 := congrFun this ⟨i, hi⟩
  exact congrArg Res.ok (sub_eq_zero.mp h4)

theorem exOn_reads : exOn.cur.Reads (fun i j => if i = 1 ∧ j = 1 then 2 else 1) := by
  intro i j hi hj
  have hi : i < 2 := hi
  have hj : j < 2 := hj
  interval_cases i <;> interval_cases j <;> rfl

/-- the hypotheses for LU on the device can be met, and the expected solution (-1, 1) is found; the host copy of the
right-hand side is stale -/
example : ∃ L : Lib ℚ, L.LUOk ∧ ∃ A' x', LU.solve2 true L L exOn ⟨⟨[5, 5], 2, 2, 0, true⟩, [0, 1], true⟩ =
    .ok (success, A', x') ∧ x'.cur.get 0 = .ok (-1) ∧ x'.cur.get 1 = .ok 1 := by
  obtain ⟨L, hL, _⟩ := exists_lib (α := ℚ)
  refine ⟨L, hL, ?_⟩
  obtain ⟨⟨s, _, _, h1, h2, _⟩, _⟩ := C116_lu_inplace_partial (gpu := true) hL hL (A := exOn)
    (x := ⟨⟨[5, 5], 2, 2, 0, true⟩, [0, 1], true⟩) rfl (fun _ => rfl) ⟨rfl, rfl, by decide⟩ rfl (n := 2) (by decide) rfl rfl
    exOn_reads ⟨rfl, rfl, by decide, rfl⟩ (b := fun i => if i = 0 then 0 else 1)
    ⟨rfl, by intro i hi; interval_cases i <;> rfl⟩
  obtain ⟨rfl, xf, hx, hsol⟩ := h2 (by simp [det, Matrix.det_fin_two]; norm_num)
  unfold seen at h1
  obtain ⟨⟨s', A', x'⟩, h3, h1⟩ := Res.bind_eq_ok.mp h1
  cases h1
  refine ⟨A', x', h3, ?_⟩
  have a0 := hsol 0 (by decide)
  have a1 := hsol 1 (by decide)
  simp [Spec.mulVec, Finset.sum_range_succ] at a0 a1
  rw [hx.2 0 (by decide), hx.2 1 (by decide)]
  exact ⟨congrArg Res.ok (by linarith), congrArg Res.ok (by linarith)⟩

/-- the hypotheses for Cholesky can be met with the matrix on the device (single precision) and the vector on the host -/
example : ∃ L : Lib ℚ, L.SyOk ∧ ∃ A' x', Cholesky.solve2 true false L L exOn exRhs = .ok (success, A', x') ∧
    x'.on = true ∧ exSolved x'.cur := by
  obtain ⟨L, _, hL⟩ := exists_lib (α := ℚ)
  refine ⟨L, hL, ?_⟩
  obtain ⟨⟨s, _, _, h1, h2, _⟩, h4⟩ := C116_cholesky_inplace_partial (gpu := true) (dbl := false) (L := L) (Cu := L)
    (A := exOn) hL (x := exRhs) (fun h => by cases h) (fun _ => rfl) ⟨rfl, rfl, by decide⟩ rfl (fun _ => rfl) (n := 2)
    (by decide) rfl rfl exOn_reads (by intro i j _ _; simp only [and_comm]) ⟨rfl, rfl, by decide, rfl⟩ rfl
    (b := fun i => if i = 0 then 0 else 1) ⟨rfl, by intro i hi; interval_cases i <;> rfl⟩
  obtain ⟨rfl, xf, hx, hsol⟩ := h2 (by simp [det, Matrix.det_fin_two]; norm_num)
  unfold seen at h1
  obtain ⟨⟨s', A', x'⟩, h3, h1⟩ := Res.bind_eq_ok.mp h1
  cases h1
  have a0 := hsol 0 (by decide)
  have a1 := hsol 1 (by decide)
  simp [Spec.mulVec, Finset.sum_range_succ] at a0 a1
  exact ⟨A', x', h3, (h4 _ _ _ h3).2, xf 0, xf 1, hx.2 0 (by decide), hx.2 1 (by decide), a0, a1⟩

end Verif.Direct
