import Verif.Props.GapFp
import Verif.Model.Sor
import Verif.Spec.StatSpec

/-!
# What SUCCESS of the Jacobi and SOR solvers means in floating-point arithmetic (C110)
-/

namespace Verif.Stat

open Verif.Spec Verif.Solver Verif.Gap

variable {F : Type} [Zero F] [Add F] [Mul F] {R : Rounding F} {N : Num F} {n : Nat}

/-! ## one evaluation of the residual -/

theorem elem_err (hN : RoundedNum R N) (hQ : RoundedQuot R N) (hu : R.u ≤ 1 / 8) {q b : F}
    (hf : R.Finite (N.add (N.mul (N.neg N.one) q) b)) :
    R.Finite q ∧ |R.val (N.add (N.mul (N.neg N.one) q) b) - (R.val b - R.val q)| ≤
      2 * R.u * |R.val (N.add (N.mul (N.neg N.one) q) b)| + (R.u * |R.val q| + R.η) := by
  rw [hN.add, hN.mul] at *
  have f1 := R.add_finite _ _ hf
  have f2 := R.mul_finite _ _ f1.1
  have e1 := R.add_err _ _ hf
  have e2 := R.mul_err _ _ f1.1
  rw [hN.neg_val, hQ.one, neg_one_mul, abs_neg] at e2
  refine ⟨f2.2, ?_⟩
  generalize R.val (N.neg N.one * q + b) = r at *
  generalize R.val (N.neg N.one * q) = w at *
  generalize R.val q = q at *
  generalize R.val b = b at *
  have hu0 := R.u_nonneg
  have h1 : R.u * |w + b| ≤ 1 / 8 * |w + b| := mul_le_mul_of_nonneg_right hu (abs_nonneg _)
  have h3 : |w + b| ≤ |r| + |r - (w + b)| := by
    have := abs_sub_abs_le_abs_sub (w + b) r
    rw [abs_sub_comm] at this
    linarith
  have h4 : |w + b| ≤ 2 * |r| := by
    have := abs_nonneg r
    linarith
  have h5 : R.u * |w + b| ≤ R.u * (2 * |r|) := mul_le_mul_of_nonneg_left h4 hu0
  have e : r - (b - q) = (r - (w + b)) + (w - -q) := by ring
  rw [e]
  exact (abs_add_le _ _).trans (by linarith)

/-- the residual computed from `y` -/
theorem eval_err (hN : RoundedNum R N) (hQ : RoundedQuot R N) (hu : R.u ≤ 1 / 8) {A : Mat F}
    {M Ma : Matrix (Fin n) (Fin n) ℝ} {γ τ : ℝ} (hA : RoundedMat R A M Ma γ τ) {y q r b : List F} (hy : y.length = n)
    (hb : b.length = n) (hq : A.mv y = .ok q)
    (er : r = List.zipWith (fun u v => N.add (N.mul (N.neg N.one) u) v) q b) (fr : AllFinite R r) (i : Fin n) :
    |vals R n b i - ∑ l, M i l * vals R n y l - vals R n r i| ≤
      2 * R.u * |vals R n r i| + evalErr R Ma γ τ (vals R n y) i := by
  obtain ⟨hql, hqe⟩ := hA.mv y q hy hq
  have k : ∀ i : Fin n, R.Finite _ := fun i => by
    have := fr
    rw [er] at this
    exact finite_zipWith hql hb this i
  have fq : AllFinite R q := allFinite_of hql (fun i => (elem_err hN hQ hu (k i)).1)
  have eqi := hqe fq i
  have eri : |vals R n r i - (vals R n b i - vals R n q i)| ≤
      2 * R.u * |vals R n r i| + (R.u * |vals R n q i| + R.η) := by
    rw [er, vals_zipWith hql hb]
    exact (elem_err hN hQ hu (k i)).2
  have hMa : ∀ l, 0 ≤ Ma i l := fun l => (abs_nonneg _).trans (hA.abs_le i l)
  have hsum : |∑ l, M i l * vals R n y l| ≤ ∑ l, Ma i l * |vals R n y l| :=
    (Finset.abs_sum_le_sum_abs _ _).trans (Finset.sum_le_sum (fun l _ => by
      rw [abs_mul]; exact mul_le_mul_of_nonneg_right (hA.abs_le i l) (abs_nonneg _)))
  have hqa : |vals R n q i| ≤ (1 + γ) * (∑ l, Ma i l * |vals R n y l|) + τ := by
    have := abs_sub_abs_le_abs_sub (vals R n q i) (∑ l, M i l * vals R n y l)
    linarith
  have hu0 := R.u_nonneg
  have h1 := mul_le_mul_of_nonneg_left hqa hu0
  have key : vals R n b i - ∑ l, M i l * vals R n y l - vals R n r i =
      (vals R n q i - ∑ l, M i l * vals R n y l) - (vals R n r i - (vals R n b i - vals R n q i)) := by ring
  rw [key]
  have h2 := abs_sub (vals R n q i - ∑ l, M i l * vals R n y l) (vals R n r i - (vals R n b i - vals R n q i))
  unfold evalErr
  linarith

theorem euclid_smul (c : ℝ) (hc : 0 ≤ c) (v : Fin n → ℝ) : euclid (fun i => c * v i) = c * euclid v := by
  unfold euclid
  have : (∑ i, (c * v i) ^ 2) = c ^ 2 * ∑ i, v i ^ 2 := by
    rw [Finset.mul_sum]; exact Finset.sum_congr rfl (fun i _ => mul_pow _ _ _)
  rw [this, Real.sqrt_mul (sq_nonneg c), Real.sqrt_sq hc]

theorem euclid_abs (v : Fin n → ℝ) : euclid (fun i => |v i|) = euclid v := by
  unfold euclid
  simp only [sq_abs]

theorem euclid_nonneg (v : Fin n → ℝ) : 0 ≤ euclid v := Real.sqrt_nonneg _

/-- the true residual of `y`, from the norm computed for `r` -/
theorem resid_le (hN : RoundedNum R N) (hR : RoundedNorm R N) (hQ : RoundedQuot R N) (hu : R.u ≤ 1 / 8)
    (hε : (1 + R.u) ^ (n + 1) < 2) {A : Mat F} {M Ma : Matrix (Fin n) (Fin n) ℝ} {γ τ : ℝ}
    (hA : RoundedMat R A M Ma γ τ) {y q r b : List F} (hy : y.length = n) (hb : b.length = n) (hq : A.mv y = .ok q)
    (er : r = List.zipWith (fun u v => N.add (N.mul (N.neg N.one) u) v) q b) (fr : R.Finite (N.nrm2 r)) {t : ℝ}
    (ht : R.val (N.nrm2 r) ≤ t) :
    euclid (fun i => vals R n b i - ∑ l, M i l * vals R n y l) ≤
      (1 + 2 * R.u) * atMost R n t + euclid (evalErr R Ma γ τ (vals R n y)) := by
  have hql := (hA.mv y q hy hq).1
  have hrl : r.length = n := by rw [er, List.length_zipWith]; omega
  have hf := (norm_near hN hR hrl fr).1
  have h1 := eval_err hN hQ hu hA hy hb hq er hf
  have hu0 := R.u_nonneg
  have e : (fun i => vals R n b i - ∑ l, M i l * vals R n y l) =
      vals R n r + (fun i => vals R n b i - ∑ l, M i l * vals R n y l - vals R n r i) := by
    funext i
    simp
  rw [e]
  have h2 : euclid (fun i => vals R n b i - ∑ l, M i l * vals R n y l - vals R n r i) ≤
      euclid ((fun i => 2 * R.u * |vals R n r i|) + evalErr R Ma γ τ (vals R n y)) := euclid_mono h1
  have h3 := euclid_add (fun i => 2 * R.u * |vals R n r i|) (evalErr R Ma γ τ (vals R n y))
  have h4 : euclid (fun i => 2 * R.u * |vals R n r i|) = 2 * R.u * euclid (vals R n r) := by
    rw [euclid_smul (2 * R.u) (by linarith) (fun i => |vals R n r i|), euclid_abs]
  have h5 : euclid (vals R n r) ≤ atMost R n t := norm_le hN hR hrl fr hε ht
  have h6 := mul_le_mul_of_nonneg_left h5 (show 0 ≤ 1 + 2 * R.u by linarith)
  have h7 := euclid_add (vals R n r) (fun i => vals R n b i - ∑ l, M i l * vals R n y l - vals R n r i)
  linarith

/-- a norm that passed the test -/
theorem passed_le (hN : RoundedNum R N) (hR : RoundedNorm R N) (hQ : RoundedQuot R N) (hu : R.u ≤ 1 / 8) {r b : List F}
    {tol : F} (fb : R.Finite (N.nrm2 b)) (ft : R.Finite tol) (hsmall : R.η * R.val (N.nrm2 b) < 1 - R.u)
    (h : N.lt (N.mul (N.nrm2 r) (N.div N.one (N.nrm2 b))) tol = true) :
    R.Finite (N.nrm2 r) ∧ R.val (N.nrm2 r) ≤ passed R (R.val tol) (R.val (N.nrm2 b)) := by
  obtain ⟨f1, fm⟩ := hQ.test _ _ _ fb ft h
  have hlt := hR.lt _ _ fm ft h
  change R.Finite (N.mul (N.nrm2 r) (N.div N.one (N.nrm2 b))) at fm
  change R.val (N.mul (N.nrm2 r) (N.div N.one (N.nrm2 b))) < R.val tol at hlt
  rw [hN.mul] at fm hlt
  have fr := R.mul_finite _ _ fm
  refine ⟨fr.1, ?_⟩
  obtain ⟨hb0, hd⟩ := hQ.div _ _ f1 fb fr.2
  have hm := R.mul_err _ _ fm
  have pos : ∀ a : List F, R.Finite (N.nrm2 a) → 0 ≤ R.val (N.nrm2 a) := by
    intro a fa
    obtain ⟨_, h0, hs⟩ := hR.sqrt _ fa
    have h1 := (abs_le.1 hs).1
    have h2 := Real.sqrt_nonneg (R.val (N.sum (List.zipWith N.mul a a)))
    have h3 := mul_le_mul_of_nonneg_right hu h2
    have h4 : R.val (N.nrm2 a) = R.val (N.sqrt (N.sum (List.zipWith N.mul a a))) := rfl
    linarith
  have pr := pos r fr.1
  have pb : 0 < R.val (N.nrm2 b) := lt_of_le_of_ne (pos b fb) (Ne.symm hb0)
  rw [hQ.one] at hd
  unfold passed
  generalize R.val (N.nrm2 r * N.div N.one (N.nrm2 b)) = m at *
  generalize R.val (N.div N.one (N.nrm2 b)) = d at *
  generalize R.val (N.nrm2 r) = a at *
  generalize R.val (N.nrm2 b) = c at *
  generalize R.val tol = t at *
  have hu0 := R.u_nonneg
  have hη := R.η_nonneg
  have pc : 0 < 1 / c := by positivity
  rw [abs_of_pos pc] at hd
  have hd1 := (abs_le.1 hd).1
  have hlow : (1 - R.u) * (1 / c) - R.η ≤ d := by linarith
  have hcd : 1 - R.u - R.η * c ≤ d * c := by
    have := mul_le_mul_of_nonneg_right hlow pb.le
    have e : ((1 - R.u) * (1 / c) - R.η) * c = 1 - R.u - R.η * c := by field_simp
    linarith
  have pd : 0 < d := by
    have : 0 < d * c := by linarith
    exact (mul_pos_iff_of_pos_right pb).mp this
  have had : 0 ≤ a * d := mul_nonneg pr pd.le
  rw [abs_of_nonneg had] at hm
  have hm1 := (abs_le.1 hm).1
  have h1 : (1 - R.u) * (a * d) ≤ t + R.η := by linarith
  have pu : 0 < 1 - R.u := by linarith
  have ps : 0 < 1 - R.u - R.η * c := by linarith
  rw [le_div_iff₀ (mul_pos pu ps)]
  have h2 : a * (1 - R.u - R.η * c) ≤ a * (d * c) := mul_le_mul_of_nonneg_left hcd pr
  have h3 := mul_le_mul_of_nonneg_left h2 pu.le
  have h4 := mul_le_mul_of_nonneg_left h1 pb.le
  nlinarith

/-! ## the last sweep of a run -/

omit [Zero F] [Add F] [Mul F] in
theorem stop_success {cfg : Cfg F} {iter : Nat} {e : F} {x r : List F} {o : Option (Out F)}
    (h : stopCheck N cfg iter e x r = .ok o) :
    (o = none ∧ ∀ c : Cfg F, c.tol = cfg.tol → c.miniter = cfg.miniter → stopCheck N c iter e x r = .ok none) ∨
    (∃ out, o = some out ∧ (out.status = SUCCESS → N.lt e cfg.tol = true ∧ cfg.residMethod = 0 ∧ out.x = x ∧
      out.finalIter = iter + 1 ∧ out.finalResid = N.nrm2 r)) := by
  unfold stopCheck at h
  split at h
  · rename_i hc
    rw [Bool.and_eq_true] at hc
    unfold getResidual at h
    split at h
    · rename_i hm
      cases h
      exact .inr ⟨_, rfl, fun _ => ⟨hc.1, hm, rfl, rfl, rfl⟩⟩
    · cases h
  · rename_i hc
    split at h
    · unfold getResidual at h
      split at h
      · cases h
        exact .inr ⟨_, rfl, fun hs => absurd hs (by dsimp only; decide)⟩
      · cases h
    · rename_i hn
      cases h
      refine .inl ⟨rfl, fun c h1 h2 => ?_⟩
      unfold stopCheck
      rw [h1, h2, if_neg hc, if_neg hn]

omit [Zero F] [Add F] [Mul F] in
/-- The sweep from `y` to the returned vector, and that `y` is what the solver returns with one iteration less. -/
theorem jacobi_last {cfg : Cfg F} {A : Mat F} {pc : List F → Res (List F)} {b d : List F} {binv : F} {out : Out F}
    (hs : out.status = SUCCESS) : ∀ (m iter : Nat) (x r0 : List F),
    Jacobi.loop N cfg A pc b d binv m iter x r0 = .ok out →
    ∃ k y q r c, k < m ∧ out.finalIter = iter + k + 1 ∧
      (∃ fr, Jacobi.loop N { cfg with maxiter := iter + k } A pc b d binv k iter x r0 =
        .ok { status := MAXITER, x := y, finalIter := iter + k, finalResid := fr }) ∧
      y.length = A.row ∧ A.mv y = .ok q ∧ N.axpyz (N.neg N.one) q b A.row = .ok r ∧ N.vmul r d A.row = .ok c ∧
      N.vadd y c y.length = .ok out.x ∧ N.lt (N.mul (N.nrm2 r) binv) cfg.tol = true ∧
      out.finalResid = N.nrm2 c := by
  intro m
  induction m with
  | zero =>
    intro iter x r0 h
    unfold Jacobi.loop atMaxiter getResidual at h
    split at h
    · cases h
      exact absurd hs (by dsimp only; decide)
    · cases h
  | succ m ih =>
    intro iter x r0 h
    unfold Jacobi.loop at h
    obtain ⟨z, hz, h⟩ := Res.bind_eq_ok.mp h
    obtain ⟨s, hcopy, h⟩ := Res.bind_eq_ok.mp h
    obtain ⟨q, hq, h⟩ := Res.bind_eq_ok.mp h
    obtain ⟨r, hr, h⟩ := Res.bind_eq_ok.mp h
    obtain ⟨c, hc, h⟩ := Res.bind_eq_ok.mp h
    obtain ⟨x', hx', h⟩ := Res.bind_eq_ok.mp h
    obtain ⟨o, ho, h⟩ := Res.bind_eq_ok.mp h
    have hlen : x.length = A.row ∧ s = x := by
      unfold Num.copyV at hcopy
      by_cases hl : x.length = A.row
      · rw [cassert_decide hl, Res.ok_bind] at hcopy
        cases hcopy
        exact ⟨hl, rfl⟩
      · obtain ⟨_, h1, _⟩ := Res.bind_eq_ok.mp hcopy
        exact absurd (of_cassert h1) hl
    rcases stop_success ho with ⟨e, hno⟩ | ⟨o', e, hsome⟩
    · rw [e] at h
      dsimp only at h
      obtain ⟨k, y, q', r', c', hk, hfin, ⟨fr, hrun⟩, rest⟩ := ih (iter + 1) x' c h
      refine ⟨k + 1, y, q', r', c', by omega, by omega, ⟨fr, ?_⟩, rest⟩
      unfold Jacobi.loop
      rw [hz, Res.ok_bind, hcopy, Res.ok_bind, hq, Res.ok_bind, hr, Res.ok_bind, hc, Res.ok_bind, hx', Res.ok_bind]
      dsimp only
      rw [hno { cfg with maxiter := iter + (k + 1) } rfl rfl, Res.ok_bind]
      dsimp only
      have e2 : iter + 1 + k = iter + (k + 1) := by omega
      rw [e2] at hrun
      exact hrun
    · rw [e] at h
      cases h
      obtain ⟨h1, h2, h3, h4, h5⟩ := hsome hs
      refine ⟨0, x, q, r, c, by omega, h4, ⟨N.nrm2 r0, ?_⟩, hlen.1, hlen.2 ▸ hq, hr, hc, by rw [h3]; exact hx', h1, h5⟩
      unfold Jacobi.loop atMaxiter getResidual
      dsimp only
      rw [h2]
      rfl

omit [Zero F] [Add F] [Mul F] in
theorem axpy_length {a : F} {p y z : List F} (h : N.axpy a p y = .ok z) : z.length = y.length := by
  unfold Num.axpy at h
  obtain ⟨_, h1, _⟩ := Res.bind_eq_ok.mp h
  have hc := of_cassert h1
  rw [cassert_decide hc, Res.ok_bind] at h
  cases h
  rw [List.length_zipWith, hc, Nat.min_self]

omit [Zero F] [Add F] [Mul F] in
/-- The same for SOR: `s` is the preconditioned `y`. -/
theorem sor_last {cfg : Cfg F} {A : Mat F} {lower : List F → List F → List F → Res (List F)}
    {pc : List F → Res (List F)} {b d : List F} {binv : F} {out : Out F}
    (hs : out.status = SUCCESS) : ∀ (m iter : Nat) (x r0 : List F),
    SOR.loop N cfg A lower pc b d binv m iter x r0 = .ok out →
    ∃ k y s q r c, k < m ∧ y.length = x.length ∧ out.finalIter = iter + k + 1 ∧
      (∃ fr, SOR.loop N { cfg with maxiter := iter + k } A lower pc b d binv k iter x r0 =
        .ok { status := MAXITER, x := y, finalIter := iter + k, finalResid := fr }) ∧
      pc y = .ok s ∧ A.mv s = .ok q ∧ N.axpyz (N.neg N.one) q b A.row = .ok r ∧ lower d q r = .ok c ∧
      N.axpy N.one c y = .ok out.x ∧ N.lt (N.mul (N.nrm2 r) binv) cfg.tol = true ∧
      out.finalResid = N.nrm2 r := by
  intro m
  induction m with
  | zero =>
    intro iter x r0 h
    unfold SOR.loop atMaxiter getResidual at h
    split at h
    · cases h
      exact absurd hs (by dsimp only; decide)
    · cases h
  | succ m ih =>
    intro iter x r0 h
    unfold SOR.loop at h
    obtain ⟨z, hz, h⟩ := Res.bind_eq_ok.mp h
    obtain ⟨q, hq, h⟩ := Res.bind_eq_ok.mp h
    obtain ⟨r, hr, h⟩ := Res.bind_eq_ok.mp h
    obtain ⟨c, hc, h⟩ := Res.bind_eq_ok.mp h
    obtain ⟨x', hx', h⟩ := Res.bind_eq_ok.mp h
    obtain ⟨o, ho, h⟩ := Res.bind_eq_ok.mp h
    rcases stop_success ho with ⟨e, hno⟩ | ⟨o', e, hsome⟩
    · rw [e] at h
      dsimp only at h
      obtain ⟨k, y, s', q', r', c', hk, hyl, hfin, ⟨fr, hrun⟩, rest⟩ := ih (iter + 1) x' r h
      refine ⟨k + 1, y, s', q', r', c', by omega, by rw [hyl, axpy_length hx'], by omega, ⟨fr, ?_⟩, rest⟩
      unfold SOR.loop
      rw [hz, Res.ok_bind, hq, Res.ok_bind, hr, Res.ok_bind, hc, Res.ok_bind, hx', Res.ok_bind]
      dsimp only
      rw [hno { cfg with maxiter := iter + (k + 1) } rfl rfl, Res.ok_bind]
      dsimp only
      have e2 : iter + 1 + k = iter + (k + 1) := by omega
      rw [e2] at hrun
      exact hrun
    · rw [e] at h
      cases h
      obtain ⟨h1, h2, h3, h4, h5⟩ := hsome hs
      refine ⟨0, x, z, q, r, c, by omega, rfl, h4, ⟨N.nrm2 r0, ?_⟩, hz, hq, hr, hc, by rw [h3]; exact hx', h1, h5⟩
      unfold SOR.loop atMaxiter getResidual
      dsimp only
      rw [h2]
      rfl

omit [Zero F] [Add F] [Mul F] in
theorem axpyz_ok {a : F} {q b r : List F} {m : Nat} (h : N.axpyz a q b m = .ok r) :
    q.length = b.length ∧ q.length = m ∧ r = List.zipWith (fun u v => N.add (N.mul a u) v) q b := by
  unfold Num.axpyz at h
  obtain ⟨_, h1, _⟩ := Res.bind_eq_ok.mp h
  have hc := of_cassert h1
  rw [cassert_decide hc, Res.ok_bind] at h
  cases h
  exact ⟨hc.1, hc.2, rfl⟩

/-! ## C110 -/

/-- **C110 (Jacobi), partial.** If `Jacobi::solve` returns SUCCESS in floating-point arithmetic, the vector `y` that it would
have returned with one iteration less has a true residual `b - A y` of at most the tolerance times the norm of `b`, up to
the rounding errors of the test and of **one** evaluation of the residual, however many iterations were made; and the true
residual of the returned vector is larger by at most the norm of `A` times the reported residual and the rounding of the
last addition. Missing: that the returned vector itself meets the tolerance (`C110_returned_violated`). -/
theorem C110_jacobi_partial (hN : RoundedNum R N) (hR : RoundedNorm R N) (hQ : RoundedQuot R N) (hu : R.u ≤ 1 / 8)
    (hε : (1 + R.u) ^ (n + 1) < 2) {A : Mat F} {M Ma : Matrix (Fin n) (Fin n) ℝ} {γ τ : ℝ}
    (hA : RoundedMat R A M Ma γ τ) {create : Res (List F → Res (List F))} {x b : List F} (hb : b.length = n)
    {cfg : Cfg F} (hl : cfg.lib = 0) {out : Out F} (h : Jacobi.solve N cfg A create x b = .ok out)
    (hs : out.status = SUCCESS) (fb : R.Finite (N.nrm2 b)) (ft : R.Finite cfg.tol)
    (hsmall : R.η * R.val (N.nrm2 b) < 1 - R.u) :
    ∃ y fr, y.length = n ∧ 1 ≤ out.finalIter ∧ out.finalIter ≤ cfg.maxiter ∧
      Jacobi.solve N { cfg with maxiter := out.finalIter - 1 } A create x b =
        .ok { status := MAXITER, x := y, finalIter := out.finalIter - 1, finalResid := fr } ∧
      euclid (fun i => vals R n b i - ∑ l, M i l * vals R n y l) ≤
        (1 + 2 * R.u) * atMost R n (passed R (R.val cfg.tol) (R.val (N.nrm2 b))) +
          euclid (evalErr R Ma γ τ (vals R n y)) ∧
      (AllFinite R out.x → R.Finite out.finalResid →
        euclid (fun i => vals R n out.x i - vals R n y i) ≤
          atMost R n (R.val out.finalResid) + 2 * R.u * euclid (vals R n out.x) ∧
        ∀ κ : ℝ, (∀ v : Fin n → ℝ, euclid (fun i => ∑ l, M i l * v l) ≤ κ * euclid v) → 0 ≤ κ →
        euclid (fun i => vals R n b i - ∑ l, M i l * vals R n out.x l) ≤
          (1 + 2 * R.u) * atMost R n (passed R (R.val cfg.tol) (R.val (N.nrm2 b))) +
            euclid (evalErr R Ma γ τ (vals R n y)) +
            κ * (atMost R n (R.val out.finalResid) + 2 * R.u * euclid (vals R n out.x))) := by
  unfold Jacobi.solve at h ⊢
  rw [if_pos hl] at h
  unfold Jacobi.monolish at h ⊢
  by_cases hsq : A.row ≠ A.col
  · rw [if_pos hsq] at h; cases h
  rw [if_neg hsq] at h
  obtain ⟨d, hd, h⟩ := Res.bind_eq_ok.mp h
  obtain ⟨pc, hpc, h⟩ := Res.bind_eq_ok.mp h
  obtain ⟨k, y, q, r, c, hk, hfin, ⟨fr, hrun⟩, hy, hq, hr, hc, hx', hlt, hres⟩ := jacobi_last hs _ _ _ _ h
  have hyn : y.length = n := hy.trans hA.row
  obtain ⟨l1, l2, er⟩ := axpyz_ok hr
  have hrl : r.length = n := by rw [er, List.length_zipWith, l2, hA.row, hb, Nat.min_self]
  have e1 : out.finalIter - 1 = k := by omega
  obtain ⟨fnr, hpass⟩ := passed_le hN hR hQ hu fb ft hsmall hlt
  have hbound := resid_le hN hR hQ hu hε hA hyn hb hq er fnr hpass
  refine ⟨y, fr, hyn, by omega, by omega, ?_, hbound, fun fx ff => ?_⟩
  · dsimp only
    rw [if_pos hl, if_neg hsq, hd, Res.ok_bind, hpc, Res.ok_bind, e1]
    rw [Nat.zero_add] at hrun
    exact hrun
  · have hcl : c.length = n := by
      unfold Num.vmul at hc
      obtain ⟨_, h1, _⟩ := Res.bind_eq_ok.mp hc
      have hc1 := of_cassert h1
      rw [cassert_decide hc1, Res.ok_bind] at hc
      cases hc
      rw [List.length_zipWith, ← hc1.1, Nat.min_self, hrl]
    have ex : out.x = List.zipWith N.add y c := by
      unfold Num.vadd at hx'
      obtain ⟨_, h1, _⟩ := Res.bind_eq_ok.mp hx'
      have hc1 := of_cassert h1
      rw [cassert_decide hc1, Res.ok_bind] at hx'
      exact (Res.ok.inj hx').symm
    have hu0 := R.u_nonneg
    have helt : ∀ i : Fin n, |vals R n out.x i - vals R n y i| ≤ |vals R n c i| + 2 * R.u * |vals R n out.x i| := by
      intro i
      have fi : R.Finite _ := finite_zipWith hyn hcl (ex ▸ fx) i
      have ei : vals R n out.x i = _ := ex ▸ vals_zipWith (R := R) (f := N.add) hyn hcl i
      rw [hN.add] at fi ei
      have := R.add_err _ _ fi
      rw [← ei] at this
      change |vals R n out.x i - (vals R n y i + vals R n c i)| ≤ R.u * |vals R n y i + vals R n c i| at this
      generalize vals R n out.x i = X at *
      generalize vals R n y i = Y at *
      generalize vals R n c i = C at *
      have h1 : R.u * |Y + C| ≤ 1 / 8 * |Y + C| := mul_le_mul_of_nonneg_right hu (abs_nonneg _)
      have h3 : |Y + C| ≤ |X| + |X - (Y + C)| := by
        have := abs_sub_abs_le_abs_sub (Y + C) X
        rw [abs_sub_comm] at this
        linarith
      have h4 : |Y + C| ≤ 2 * |X| := by have := abs_nonneg X; linarith
      have h5 := mul_le_mul_of_nonneg_left h4 hu0
      have e : X - Y = (X - (Y + C)) + C := by ring
      rw [e]
      exact (abs_add_le _ _).trans (by linarith)
    have hcorr : euclid (fun i => vals R n out.x i - vals R n y i) ≤
        atMost R n (R.val out.finalResid) + 2 * R.u * euclid (vals R n out.x) := by
      have h1 : euclid (fun i => vals R n out.x i - vals R n y i) ≤
          euclid ((fun i => |vals R n c i|) + fun i => 2 * R.u * |vals R n out.x i|) := euclid_mono helt
      have h2 := euclid_add (fun i => |vals R n c i|) (fun i => 2 * R.u * |vals R n out.x i|)
      rw [euclid_abs, euclid_smul (2 * R.u) (by linarith) (fun i => |vals R n out.x i|), euclid_abs] at h2
      rw [hres] at ff ⊢
      have h3 : euclid (vals R n c) ≤ atMost R n (R.val (N.nrm2 c)) := norm_le hN hR hcl ff hε le_rfl
      linarith
    refine ⟨hcorr, fun κ hκ hκ0 => ?_⟩
    have e : (fun i => vals R n b i - ∑ l, M i l * vals R n out.x l) =
        (fun i => vals R n b i - ∑ l, M i l * vals R n y l) +
          fun i => ∑ l, M i l * (vals R n y l - vals R n out.x l) := by
      funext i
      simp only [Pi.add_apply, mul_sub, Finset.sum_sub_distrib]
      ring
    rw [e]
    have h1 := hκ (fun l => vals R n y l - vals R n out.x l)
    have h2 : euclid (fun l => vals R n y l - vals R n out.x l) =
        euclid (fun l => vals R n out.x l - vals R n y l) := by
      rw [← euclid_abs, ← euclid_abs (fun l => vals R n out.x l - vals R n y l)]
      simp only [abs_sub_comm]
    rw [h2] at h1
    have h3 := mul_le_mul_of_nonneg_left hcorr hκ0
    have h4 := euclid_add (fun i => vals R n b i - ∑ l, M i l * vals R n y l)
      (fun i => ∑ l, M i l * (vals R n y l - vals R n out.x l))
    linarith

/-- **C110 (SOR), partial.** The same for the SOR solver with any relaxation factor and any lower triangular sweep: with
preconditioner `pc` the residual is that of `pc y`, which without preconditioner is `y`. The reported residual is the
computed norm of the residual of `pc y`. -/
theorem C110_sor_partial (hN : RoundedNum R N) (hR : RoundedNorm R N) (hQ : RoundedQuot R N) (hu : R.u ≤ 1 / 8)
    (hε : (1 + R.u) ^ (n + 1) < 2) {A : Mat F} {M Ma : Matrix (Fin n) (Fin n) ℝ} {γ τ : ℝ}
    (hA : RoundedMat R A M Ma γ τ) {lower : List F → List F → List F → Res (List F)}
    {pc : List F → Res (List F)} (hpc : ∀ y z, y.length = n → pc y = .ok z → z.length = n)
    {x b : List F} (hx : x.length = n) (hb : b.length = n)
    {cfg : Cfg F} (hl : cfg.lib = 0) {out : Out F} (h : SOR.solve N cfg A lower (.ok pc) x b = .ok out)
    (hs : out.status = SUCCESS) (fb : R.Finite (N.nrm2 b)) (ft : R.Finite cfg.tol)
    (hsmall : R.η * R.val (N.nrm2 b) < 1 - R.u) :
    ∃ y s fr, pc y = .ok s ∧ 1 ≤ out.finalIter ∧ out.finalIter ≤ cfg.maxiter ∧
      SOR.solve N { cfg with maxiter := out.finalIter - 1 } A lower (.ok pc) x b =
        .ok { status := MAXITER, x := y, finalIter := out.finalIter - 1, finalResid := fr } ∧
      R.val out.finalResid ≤ passed R (R.val cfg.tol) (R.val (N.nrm2 b)) ∧
      euclid (fun i => vals R n b i - ∑ l, M i l * vals R n s l) ≤
        (1 + 2 * R.u) * atMost R n (R.val out.finalResid) + euclid (evalErr R Ma γ τ (vals R n s)) := by
  unfold SOR.solve at h ⊢
  rw [if_pos hl] at h
  unfold SOR.monolish at h ⊢
  by_cases hsq : A.row ≠ A.col
  · rw [if_pos hsq] at h; cases h
  rw [if_neg hsq] at h
  obtain ⟨d, hd, h⟩ := Res.bind_eq_ok.mp h
  rw [Res.ok_bind] at h
  obtain ⟨k, y, s, q, r, c, hk, hyl, hfin, ⟨fr, hrun⟩, hy, hq, hr, hc, hx', hlt, hres⟩ := sor_last hs _ _ _ _ h
  obtain ⟨l1, l2, er⟩ := axpyz_ok hr
  have e1 : out.finalIter - 1 = k := by omega
  obtain ⟨fnr, hpass⟩ := passed_le hN hR hQ hu fb ft hsmall hlt
  refine ⟨y, s, fr, hy, by omega, by omega, ?_, by rw [hres]; exact hpass, ?_⟩
  · dsimp only
    rw [if_pos hl, if_neg hsq, hd, Res.ok_bind, Res.ok_bind, e1]
    rw [Nat.zero_add] at hrun
    exact hrun
  · rw [hres]
    exact resid_le hN hR hQ hu hε hA (hpc _ _ (hyl.trans hx) hy) hb hq er fnr le_rfl

end Verif.Stat
