import Verif.Props.LobpcgCases
import Verif.Lemmas.EigNear
import Mathlib.Data.Real.Sqrt
import Mathlib.Tactic.FieldSimp
import Mathlib.Tactic.NormNum
import Mathlib.Tactic.ByContra

/-!
C104: the numbers `LOBPCG` returns with `SUCCESS` are close to eigenvalues of the matrix.
-/

namespace Verif.Lobpcg

open Spec Solver Lapack Matrix

set_option linter.unusedSectionVars false

variable {K : Type} [Field K] [LinearOrder K] [IsStrictOrderedRing K] {n : Nat}
  {M : Matrix (Fin n) (Fin n) K}

/-- `sq` is a square root with relative error at most `ε` -/
def NearSqrt (sq : K → K) (ε : K) : Prop :=
  ∀ a, 0 ≤ a → 0 ≤ sq a ∧ (1 - ε) ^ 2 * a ≤ sq a ^ 2 ∧ sq a ^ 2 ≤ (1 + ε) ^ 2 * a

/-- the square root of the real numbers has no error -/
theorem nearSqrt_real : NearSqrt Real.sqrt 0 := by
  intro a ha
  refine ⟨Real.sqrt_nonneg a, ?_, ?_⟩ <;> rw [Real.sq_sqrt ha] <;> simp

/-- the preconditioner `P` shrinks no vector by more than the factor `κ` -/
def NotBelow (P : (Fin n → K) → Fin n → K) (κ : K) : Prop :=
  ∀ u, u ⬝ᵥ u ≤ κ ^ 2 * (P u ⬝ᵥ P u)

theorem dot_self_nonneg (u : Fin n → K) : 0 ≤ u ⬝ᵥ u :=
  Finset.sum_nonneg fun i _ => mul_self_nonneg (u i)

/-- the pairs of C70 are near eigenvalues of a symmetric matrix -/
theorem pairs_near {sq : K → K} {ε : K} (hsq : NearSqrt sq ε) (h0 : 0 ≤ ε) (h1 : ε < 1)
    (φ : K →+* ℝ) (hφ : StrictMono φ) (hM : M.IsSymm) {P : (Fin n → K) → Fin n → K} {κ : K} (hκ : 0 ≤ κ)
    (hP : NotBelow P κ) {tol lam : K} {v : Fin n → K}
    (hr : norm2 sq (P (M *ᵥ v - lam • v)) < tol) (hv : Normalised sq v) :
    ∃ (mu : ℝ) (w : Fin n → ℝ), w ≠ 0 ∧ (M.map φ) *ᵥ w = mu • w ∧
      |φ lam - mu| ≤ φ (κ * tol * ((1 + ε) / (1 - ε))) := by
  have hmono : Monotone φ := hφ.monotone
  obtain ⟨q, hq, rfl⟩ := hv
  set s := norm2 sq q with hs
  set v := s⁻¹ • q with hvdef
  have hs2 : s ^ 2 ≤ (1 + ε) ^ 2 * (q ⬝ᵥ q) := (hsq _ (dot_self_nonneg q)).2.2
  have hspos : 0 < s ^ 2 := by positivity
  have hvv : 1 ≤ (1 + ε) ^ 2 * (v ⬝ᵥ v) := by
    have : v ⬝ᵥ v = (q ⬝ᵥ q) / s ^ 2 := by
      rw [hvdef, smul_dotProduct, dotProduct_smul, smul_eq_mul, smul_eq_mul]
      field_simp
    rw [this, ← mul_div_assoc, le_div_iff₀ hspos]
    linarith
  set u := M *ᵥ v - lam • v with hu
  obtain ⟨ha, hb, -⟩ := hsq _ (dot_self_nonneg (P u))
  have hr' : sq (P u ⬝ᵥ P u) < tol := hr
  have hone : 0 < 1 - ε := by linarith
  have hpu : (1 - ε) ^ 2 * (P u ⬝ᵥ P u) ≤ tol ^ 2 := by
    refine hb.trans ?_
    nlinarith
  have htol : 0 < tol := lt_of_le_of_lt ha hr'
  set t := κ * tol * ((1 + ε) / (1 - ε)) with ht
  have ht0 : 0 ≤ t := by positivity
  have huu : u ⬝ᵥ u ≤ t ^ 2 * (v ⬝ᵥ v) := by
    have h2 := hP u
    have e : t ^ 2 * (v ⬝ᵥ v) = κ ^ 2 * tol ^ 2 * ((1 + ε) ^ 2 * (v ⬝ᵥ v)) / (1 - ε) ^ 2 := by
      rw [ht]; field_simp
    rw [e, le_div_iff₀ (by positivity)]
    calc u ⬝ᵥ u * (1 - ε) ^ 2 ≤ κ ^ 2 * (P u ⬝ᵥ P u) * (1 - ε) ^ 2 := by
          exact mul_le_mul_of_nonneg_right h2 (by positivity)
      _ = κ ^ 2 * ((1 - ε) ^ 2 * (P u ⬝ᵥ P u)) := by ring
      _ ≤ κ ^ 2 * tol ^ 2 := mul_le_mul_of_nonneg_left hpu (by positivity)
      _ ≤ κ ^ 2 * tol ^ 2 * ((1 + ε) ^ 2 * (v ⬝ᵥ v)) := by
          nlinarith [mul_nonneg (sq_nonneg κ) (sq_nonneg tol)]
  have hdot : ∀ x y : Fin n → K, (φ ∘ x) ⬝ᵥ (φ ∘ y) = φ (x ⬝ᵥ y) := by
    intro x y
    simp [dotProduct, map_sum]
  have hres : (M.map φ) *ᵥ (φ ∘ v) - φ lam • (φ ∘ v) = φ ∘ u := by
    funext i
    simp [hu, Matrix.mulVec, dotProduct, map_sum]
  have hH : (M.map φ).IsHermitian := by
    ext i j
    simp only [conjTranspose_apply, map_apply, star_trivial]
    rw [hM.apply]
  refine eig_near hH (t := φ t) (by simpa using hmono ht0) (v := φ ∘ v) ?_ ?_
  · rw [hdot]
    intro h
    have h3 : v ⬝ᵥ v = 0 := φ.injective (by rw [h, map_zero])
    rw [h3] at hvv
    norm_num at hvv
  · rw [hres, hdot, hdot, ← map_pow, ← map_mul]
    exact hmono huu

/-- **C104**: if `LOBPCG::solve` on a symmetric matrix returns success with a preconditioner that shrinks no vector
by more than the factor `κ`, then every number it returns is within `κ · tol` of an eigenvalue of the matrix (up to
the relative error `ε` of the square root), whatever `sygvd` returned and however many iterations were made. -/
theorem C104_eigenvalues {sq : K → K} {ε : K} (hsq : NearSqrt sq ε) (h0 : 0 ≤ ε) (h1 : ε < 1)
    (φ : K →+* ℝ) (hφ : StrictMono φ) (hn : 0 < n)
    {L : Lib (Ext K)} {cfg : Cfg (Ext K)} {tol : K} (htol : cfg.tol = .fin tol)
    {A : Mat (Ext K)} (hA : IsMat A Ext.fin M) (hM : M.IsSymm)
    {pc : List (Ext K) → Res (List (Ext K))} {P : (Fin n → K) → Fin n → K} (hpc : Strict pc P)
    {κ : K} (hκ : 0 ≤ κ) (hP : NotBelow P κ)
    {l : List (Ext K)} {xin : List (List (Ext K))} {xcol : Nat} {rs : Option (List (List (Ext K)))}
    (hrs : ∀ r, rs = some r → l.length ≤ r.length) {fuel : Nat} {out : Out (Ext K)}
    (h : standard (Ext.num sq) L cfg A (.ok pc) l xin xcol rs fuel = some (.ok out))
    (hs : out.status = SUCCESS) :
    out.l.length = l.length ∧
    ∀ i, i < l.length → ∃ lam : K, out.l[i]? = some (.fin lam) ∧
      ∃ (mu : ℝ) (w : Fin n → ℝ), w ≠ 0 ∧ (M.map φ) *ᵥ w = mu • w ∧
        |φ lam - mu| ≤ φ (κ * tol * ((1 + ε) / (1 - ε))) := by
  obtain ⟨lam, v, e1, -, e3⟩ := C70_lobpcg_standard_success hn htol hA hpc hrs h hs
  refine ⟨by rw [e1, List.length_ofFn], fun i hi => ⟨lam ⟨i, hi⟩, ?_, ?_⟩⟩
  · rw [e1, List.getElem?_ofFn, dif_pos hi]
  · exact pairs_near hsq h0 h1 φ hφ hM hκ hP (e3 ⟨i, hi⟩).1 (e3 ⟨i, hi⟩).2

/-- **C104** without preconditioner and with exact square roots: within `tol` of an eigenvalue. -/
theorem C104_no_precond {n : Nat} {M : Matrix (Fin n) (Fin n) ℝ} (hn : 0 < n)
    {L : Lib (Ext ℝ)} {cfg : Cfg (Ext ℝ)} {tol : ℝ} (htol : cfg.tol = .fin tol)
    {A : Mat (Ext ℝ)} (hA : IsMat A Ext.fin M) (hM : M.IsSymm)
    {l : List (Ext ℝ)} {xin : List (List (Ext ℝ))} {xcol : Nat} {rs : Option (List (List (Ext ℝ)))}
    (hrs : ∀ r, rs = some r → l.length ≤ r.length) {fuel : Nat} {out : Out (Ext ℝ)}
    (h : standard (Ext.num Real.sqrt) L cfg A noPrecond l xin xcol rs fuel = some (.ok out))
    (hs : out.status = SUCCESS) :
    out.l.length = l.length ∧
    ∀ i, i < l.length → ∃ lam : ℝ, out.l[i]? = some (.fin lam) ∧
      ∃ (mu : ℝ) (w : Fin n → ℝ), w ≠ 0 ∧ M *ᵥ w = mu • w ∧ |lam - mu| ≤ tol := by
  obtain ⟨e1, e2⟩ := C104_eigenvalues nearSqrt_real (le_refl _) one_pos (RingHom.id ℝ) strictMono_id hn htol hA hM
    strict_id (κ := 1) (by norm_num) (fun u => by simp) hrs h hs
  refine ⟨e1, fun i hi => ?_⟩
  obtain ⟨lam, f1, mu, w, f2, f3, f4⟩ := e2 i hi
  refine ⟨lam, f1, mu, w, f2, ?_, ?_⟩
  · simpa using f3
  · simpa using f4

/-! ### The Jacobi preconditioner -/

theorem of_cassert' {p : Prop} [Decidable p] {u : Unit} (h : cassert (decide p) = .ok u) : p := by
  by_contra hp
  simp [cassert, hp] at h

theorem mul_fin_right {r : K} {x : Ext K} {y : K} (h : Ext.mul (.fin r) x = .fin y) : ∃ z, x = .fin z := by
  cases x with
  | fin z => exact ⟨z, rfl⟩
  | nan => cases h
  | pinf =>
    simp only [Ext.mul, Ext.scaleInf, Ext.neg] at h
    split at h
    · cases h
    · split at h <;> cases h
  | ninf =>
    simp only [Ext.mul, Ext.scaleInf, Ext.neg] at h
    split at h
    · cases h
    · split at h <;> cases h

/-- `Jacobi::create_precond`/`apply_precond` make no numbers out of infinities or NaNs -/
theorem jacobi_strict (sq : K → K) {A : Mat (Ext K)} (hA : IsMat A Ext.fin M) (hd : ∀ i, M i i ≠ 0) :
    ∃ pc, jacobiPrecond (Ext.num sq) A = .ok pc ∧
      Strict pc (byMatrix (Matrix.diagonal (fun i => 1 / M i i))) := by
  obtain ⟨pc, e1, e2⟩ := jacobiPrecond_is (Ext.exact sq) hA hd
  refine ⟨pc, e1, e2, ?_, ?_⟩
  all_goals
    simp only [jacobiPrecond, hA.row, hA.col, hA.diag, ne_eq, not_true_eq_false, if_false, Res.ok_bind,
      Res.ok.injEq] at e1
    subst e1
  · intro u w hlu h
    unfold Num.vmul at h
    obtain ⟨_, hc, h⟩ := Res.bind_eq_ok.mp h
    have := of_cassert' hc
    cases h
    simp [this.1, hlu]
  · intro u v _ h
    unfold Num.vmul at h
    obtain ⟨_, hc, h⟩ := Res.bind_eq_ok.mp h
    have := of_cassert' hc
    have hl : u.length = n := by
      rw [← this.1]; simp [Num.reciprocal, vec_length]
    rw [reciprocal_vec (Ext.exact sq) M.diag (fun i => hd i)] at h
    have h := Res.ok.inj h
    have hz : ∀ i : Fin n, ∃ z, u[i.1]'(by rw [hl]; exact i.2) = .fin z := by
      intro i
      have hi := congrArg (fun l => l[i.1]?) h
      simp only [vec, List.getElem?_zipWith, List.getElem?_ofFn, i.2, dif_pos] at hi
      rw [List.getElem?_eq_getElem (by rw [hl]; exact i.2)] at hi
      simp only [Option.some.injEq] at hi
      exact mul_fin_right hi
    choose z hz using hz
    refine ⟨z, ?_⟩
    refine List.ext_getElem (by simp [hl, vec]) (fun i h1 h2 => ?_)
    rw [hz ⟨i, by rw [← hl]; exact h1⟩]
    simp [vec]

/-- ... and shrink no vector by more than the largest diagonal element -/
theorem jacobi_notBelow (hd : ∀ i, M i i ≠ 0) {κ : K} (hκ : ∀ i, |M i i| ≤ κ) :
    NotBelow (byMatrix (Matrix.diagonal (fun i => 1 / M i i))) κ := by
  intro u
  unfold byMatrix
  rw [dotProduct, dotProduct, Finset.mul_sum]
  refine Finset.sum_le_sum fun i _ => ?_
  rw [mulVec_diagonal]
  have h1 : M i i ^ 2 ≤ κ ^ 2 := by
    rw [← sq_abs (M i i)]
    exact pow_le_pow_left₀ (abs_nonneg _) (hκ i) 2
  have h2 : κ ^ 2 * (1 / M i i * u i * (1 / M i i * u i)) = κ ^ 2 / M i i ^ 2 * (u i * u i) := by
    have := hd i
    field_simp
  rw [h2]
  have h3 : 1 ≤ κ ^ 2 / M i i ^ 2 := by
    rw [le_div_iff₀ (by have := hd i; positivity)]
    linarith
  nlinarith [mul_self_nonneg (u i)]

/-- **C104** with the Jacobi preconditioner: within `max |a_ii| · tol` of an eigenvalue. -/
theorem C104_jacobi {sq : K → K} {ε : K} (hsq : NearSqrt sq ε) (h0 : 0 ≤ ε) (h1 : ε < 1)
    (φ : K →+* ℝ) (hφ : StrictMono φ) (hn : 0 < n)
    {L : Lib (Ext K)} {cfg : Cfg (Ext K)} {tol : K} (htol : cfg.tol = .fin tol)
    {A : Mat (Ext K)} (hA : IsMat A Ext.fin M) (hM : M.IsSymm) (hd : ∀ i, M i i ≠ 0)
    {κ : K} (hκ : ∀ i, |M i i| ≤ κ)
    {l : List (Ext K)} {xin : List (List (Ext K))} {xcol : Nat} {rs : Option (List (List (Ext K)))}
    (hrs : ∀ r, rs = some r → l.length ≤ r.length) {fuel : Nat} {out : Out (Ext K)}
    (h : standard (Ext.num sq) L cfg A (jacobiPrecond (Ext.num sq) A) l xin xcol rs fuel = some (.ok out))
    (hs : out.status = SUCCESS) :
    out.l.length = l.length ∧
    ∀ i, i < l.length → ∃ lam : K, out.l[i]? = some (.fin lam) ∧
      ∃ (mu : ℝ) (w : Fin n → ℝ), w ≠ 0 ∧ (M.map φ) *ᵥ w = mu • w ∧
        |φ lam - mu| ≤ φ (κ * tol * ((1 + ε) / (1 - ε))) := by
  obtain ⟨pc, e1, e2⟩ := jacobi_strict sq hA hd
  rw [e1] at h
  exact C104_eigenvalues hsq h0 h1 φ hφ hn htol hA hM e2
    ((abs_nonneg _).trans (hκ ⟨0, hn⟩)) (jacobi_notBelow hd hκ) hrs h hs

end Verif.Lobpcg
