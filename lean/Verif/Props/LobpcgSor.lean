import Verif.Lemmas.SorStrict
import Verif.Props.LobpcgJacobi

/-! C119, C120: LOBPCG with the SOR preconditioner. -/

namespace Verif.Lobpcg

open Spec Solver Lapack Matrix

variable {K : Type} [Field K] [LinearOrder K] [IsStrictOrderedRing K] {n : Nat}

/-- the matrix of the SOR preconditioner, `(w D + L) (w D)⁻¹ (w D + U)` -/
def sorMat (M : Matrix (Fin n) (Fin n) K) (w : K) : Matrix (Fin n) (Fin n) K :=
  (Matrix.diagonal (fun i => w * M i i) + strictLower M) * Matrix.diagonal (fun i => 1 / (w * M i i)) *
    (Matrix.diagonal (fun i => w * M i i) + strictUpper M)

/-- The SOR preconditioner of a CRS matrix solves the system with `sorMat`, makes no numbers out of infinities or NaN, and
hides no NaN. -/
theorem sor_strict (sq : K → K) (A : Crs K) (hA : A.Safe) (hr : A.rowN = n) (hc : A.colN = n) (Am : Mat (Ext K))
    (hAm : IsMat Am Ext.fin (Matrix.of (fun i j : Fin n => crsAt A i j))) (hd : ∀ i : Fin n, crsAt A i i ≠ 0) (w : K)
    (hw : w ≠ 0) :
    ∃ (pc : List (Ext K) → Res (List (Ext K))) (P : (Fin n → K) → Fin n → K),
      sorPrecond (Ext.num sq) (.fin w) Am (crsPrecond (Ext.num sq) (crsMap Ext.fin A)) = .ok pc ∧ Strict pc P ∧ PcIs pc P ∧
      ∀ r, sorMat (Matrix.of (fun i j : Fin n => crsAt A i j)) w *ᵥ P r = r := by
  obtain ⟨P, ⟨pc, e1, e2⟩, hP⟩ := C32_precond (Ext.exact sq) A hA hr hc Am hAm hd w hw
  have hdiag : (Ext.num sq).reciprocal ((vec Ext.fin (Matrix.of (fun i j : Fin n => crsAt A i j)).diag).map
      ((Ext.num sq).mul (.fin w))) = vec Ext.fin (fun i : Fin n => 1 / (w * crsAt A i i)) := by
    have : (vec Ext.fin (Matrix.of (fun i j : Fin n => crsAt A i j)).diag).map ((Ext.num sq).mul (.fin w)) =
        vec Ext.fin (fun i : Fin n => w * crsAt A i i) := by
      simp only [Spec.vec, List.map_ofFn]
      rfl
    rw [this, reciprocal_vec (Ext.exact sq) _ (fun i => mul_ne_zero hw (hd i))]
  have hpc : pc = fun r => crsPrecond (Ext.num sq) (crsMap Ext.fin A) (vec Ext.fin (fun i : Fin n => 1 / (w * crsAt A i i)))
      (List.replicate n (.fin 0)) r := by
    have e3 := e1
    simp only [sorPrecond, hAm.row, hAm.col, ne_eq, not_true_eq_false, if_false, hAm.diag, Res.ok_bind, hdiag] at e3
    exact (Res.ok.inj e3).symm
  have hmem : ∀ (i : Nat) (d : Ext K), (vec Ext.fin (fun i : Fin n => 1 / (w * crsAt A i i)))[i]? = some d →
      ∃ e : K, e ≠ 0 ∧ d = .fin e := by
    intro i d h
    simp only [Spec.vec, List.getElem?_ofFn] at h
    split at h
    · rename_i hi
      cases h
      exact ⟨_, one_div_ne_zero (mul_ne_zero hw (hd ⟨i, hi⟩)), rfl⟩
    · cases h
  have hrow : (crsMap (Ext.fin (K := K)) A).rowN = n := hr
  have keep := fun (Bad : Ext K → Prop) h1 h2 (u w' : List (Ext K)) (h : pc u = .ok w') =>
    crsPrecond_keeps (N := Ext.num sq) (A := crsMap Ext.fin A) (D := vec Ext.fin (fun i : Fin n => 1 / (w * crsAt A i i)))
      (x := List.replicate n (.fin 0)) (b := u) (y := w') Bad h1 h2 (by rw [hpc] at h; exact h)
  refine ⟨pc, P, e1, ⟨e2, ?_, ?_⟩, ⟨e2, ?_⟩, hP⟩
  · intro u w' _ h
    have := (keep (fun _ => True) (fun _ _ _ => trivial) (fun _ _ _ _ _ => trivial) u w' h).1
    simpa using this
  · intro u v hl h
    obtain ⟨-, k⟩ := keep (fun a => ∀ c : K, a ≠ .fin c) (by
        intro a b ha c
        show Ext.add a (Ext.neg b) ≠ .fin c
        cases a with
        | fin a => exact absurd rfl (ha a)
        | nan => cases b <;> simp [Ext.add, Ext.neg]
        | pinf => cases b <;> simp [Ext.add, Ext.neg]
        | ninf => cases b <;> simp [Ext.add, Ext.neg])
      (by
        intro i d a hd ha c
        obtain ⟨e, he, rfl⟩ := hmem i d hd
        show Ext.mul a (.fin e) ≠ .fin c
        cases a with
        | fin a => exact absurd rfl (ha a)
        | nan => simp [Ext.mul]
        | pinf => simp only [Ext.mul, Ext.scaleInf]; split_ifs <;> simp [Ext.neg]
        | ninf => simp only [Ext.mul, Ext.scaleInf, Ext.neg]; split_ifs <;> simp [Ext.neg]) u _ h
    apply exists_vec hl
    intro a ha
    by_contra hcon
    push Not at hcon
    obtain ⟨j, hj, he⟩ := List.getElem_of_mem ha
    obtain ⟨a', h1, h2⟩ := k j a (by rw [hrow, ← hl]; exact hj) (by rw [List.getElem?_eq_getElem hj, he]) hcon
    simp only [Spec.vec, List.getElem?_ofFn] at h1
    split at h1
    · cases h1
      exact h2 _ rfl
    · cases h1
  · intro u w' hl hn h
    obtain ⟨-, k⟩ := keep (fun a => a = .nan) (by
        intro a b ha
        subst ha
        show Ext.add .nan (Ext.neg b) = .nan
        exact Ext.nan_add _)
      (by
        intro i d a _ ha
        subst ha
        show Ext.mul .nan d = .nan
        cases d <;> rfl) u _ h
    obtain ⟨j, hj, he⟩ := List.getElem_of_mem hn
    obtain ⟨a', h1, rfl⟩ := k j .nan (by rw [hrow, ← hl]; exact hj) (by rw [List.getElem?_eq_getElem hj, he]) rfl
    exact List.mem_of_getElem? h1

/-- what solves the system with `sorMat` of a symmetric matrix with a positive diagonal is coercive -/
theorem sor_coercive {M : Matrix (Fin n) (Fin n) K} (hM : Mᵀ = M) (hd : ∀ i, 0 < M i i) {w : K} (hw : 0 < w)
    {P : (Fin n → K) → Fin n → K} (hP : ∀ r, sorMat M w *ᵥ P r = r) :
    ∃ c : K, 0 < c ∧ ∀ v, c * (P v ⬝ᵥ P v) ≤ v ⬝ᵥ P v := by
  have hp : ∀ i, 0 < w * M i i := fun i => mul_pos hw (hd i)
  obtain ⟨E, hE⟩ : ∃ E, E = Matrix.diagonal (fun i => w * M i i) + strictUpper M := ⟨_, rfl⟩
  have hEt : Eᵀ = Matrix.diagonal (fun i => w * M i i) + strictLower M := by
    rw [hE, Matrix.transpose_add, Matrix.diagonal_transpose]
    congr 1
    ext i j
    have : M j i = M i j := congrFun (congrFun hM i) j
    simp [strictUpper, strictLower, this]
  have hS : sorMat M w = Eᵀ * Matrix.diagonal (fun i => 1 / (w * M i i)) * E := by
    unfold sorMat
    rw [hEt, hE]
  -- a left inverse of `E`
  obtain ⟨Z, hZ⟩ : ∃ Z : Matrix (Fin n) (Fin n) K, Z * E = 1 := by
    have h1 : sorMat M w * (Matrix.of fun i j => P (Pi.single j 1) i) = 1 := by
      ext i j
      have := congrFun (hP (Pi.single j 1)) i
      rw [Matrix.mul_apply]
      have e : (1 : Matrix (Fin n) (Fin n) K) i j = (Pi.single j 1 : Fin n → K) i := by
        rw [Matrix.one_apply, Pi.single_apply]
      rw [e]
      exact this
    have h2 := mul_eq_one_comm.mp h1
    rw [hS, ← Matrix.mul_assoc] at h2
    exact ⟨_, h2⟩
  have hC0 : 0 ≤ ∑ i, ∑ j, |(Zᵀ * Z) i j| := Finset.sum_nonneg fun _ _ => Finset.sum_nonneg fun _ _ => abs_nonneg _
  have hκ0 : 0 ≤ ∑ i, w * M i i := Finset.sum_nonneg fun i _ => (hp i).le
  obtain ⟨C, hC⟩ : ∃ C, C = 1 + ∑ i, ∑ j, |(Zᵀ * Z) i j| := ⟨_, rfl⟩
  obtain ⟨κ, hκ⟩ : ∃ κ, κ = 1 + ∑ i, w * M i i := ⟨_, rfl⟩
  have hCp : 0 < C := by linarith
  have hκp : 0 < κ := by linarith
  refine ⟨1 / (κ * C), by positivity, ?_⟩
  intro v
  obtain ⟨y, hy⟩ : ∃ y, y = E *ᵥ P v := ⟨_, rfl⟩
  have hz : P v = Z *ᵥ y := by rw [hy, Matrix.mulVec_mulVec, hZ, Matrix.one_mulVec]
  have h1 : P v ⬝ᵥ P v ≤ C * (y ⬝ᵥ y) := by
    have e : P v ⬝ᵥ P v = y ⬝ᵥ ((Zᵀ * Z) *ᵥ y) := by
      rw [hz, ← Matrix.mulVec_mulVec, Matrix.dotProduct_mulVec y, Matrix.vecMul_transpose]
    rw [e]
    have := (abs_le.mp (quot_abs (Zᵀ * Z) y)).2
    have hyy : 0 ≤ y ⬝ᵥ y := dot_nonneg y
    rw [hC]
    linarith
  have h2 : v ⬝ᵥ P v = ∑ i, y i * (1 / (w * M i i) * y i) := by
    have e : v ⬝ᵥ P v = (sorMat M w *ᵥ P v) ⬝ᵥ P v := by rw [hP]
    rw [e, hS, ← Matrix.mulVec_mulVec, ← Matrix.mulVec_mulVec, ← hy, Matrix.mulVec_transpose, ← Matrix.dotProduct_mulVec,
      ← hy, dotProduct_comm]
    unfold dotProduct
    refine Finset.sum_congr rfl fun i _ => ?_
    rw [Matrix.mulVec_diagonal]
  have h3 : y ⬝ᵥ y ≤ κ * (v ⬝ᵥ P v) := by
    rw [h2, Finset.mul_sum]
    unfold dotProduct
    refine Finset.sum_le_sum fun i _ => ?_
    have hle : w * M i i ≤ κ := by
      have := Finset.single_le_sum (f := fun i => w * M i i) (fun k _ => (hp k).le) (Finset.mem_univ i)
      rw [hκ]
      have h5 : w * M i i ≤ ∑ i, w * M i i := this
      linarith
    have h4 : 1 ≤ κ * (1 / (w * M i i)) := by
      rw [mul_one_div, le_div_iff₀ (hp i), one_mul]
      exact hle
    have := mul_le_mul_of_nonneg_right h4 (mul_self_nonneg (y i))
    linarith
  rw [one_div, ← div_eq_inv_mul, div_le_iff₀ (by positivity)]
  calc P v ⬝ᵥ P v ≤ C * (y ⬝ᵥ y) := h1
    _ ≤ C * (κ * (v ⬝ᵥ P v)) := mul_le_mul_of_nonneg_left h3 hCp.le
    _ = v ⬝ᵥ P v * (κ * C) := by ring

/-- **C120** with the SOR preconditioner, CRS matrices, one vector: for every symmetric matrix with a positive diagonal, every
relaxation parameter `w > 0` and every tolerance there is an iteration count that is enough for every start vector of length 1
but the eigenvectors; the preconditioned residual, which solves the system with `sorMat`, is then below the tolerance. -/
theorem C120_sor_partial [Archimedean K] {sq : K → K} (hsq : ∀ a, 0 ≤ a → sq a * sq a = a)
    (hsq0 : ∀ a, 0 ≤ a → 0 ≤ sq a) (A : Crs K) (hA : A.Safe) (hdist : DistinctPos A.entries) (hr : A.rowN = n)
    (hc : A.colN = n) (hsym : ∀ i j : Fin n, crsAt A i j = crsAt A j i) (hd : ∀ i : Fin n, 0 < crsAt A i i)
    (order zo : List Nat) (ho : Order order n) (hz : Order zo n) {w : K} (hw : 0 < w) {tol : K} (htol0 : 0 < tol) :
    ∃ P : (Fin n → K) → Fin n → K, (∀ r, sorMat (Matrix.of fun i j : Fin n => crsAt A i j) w *ᵥ P r = r) ∧
    ∃ N : Nat, ∀ (L : Lib (Ext K)), Dsygvd L → DsygvdCompletes L → ∀ cfg : Cfg (Ext K), cfg.tol = .fin tol →
      cfg.miniter = 0 → N ≤ cfg.maxiter → ∀ (l0 : Ext K) (u : Fin n → K), u ⬝ᵥ u = 1 →
      (∀ c : K, (Matrix.of fun i j : Fin n => crsAt A i j) *ᵥ u ≠ c • u) →
      ∃ (fuel : Nat) (out : Out (Ext K)),
        standard (Ext.num sq) L cfg (ofCrs order zo (crsMap Ext.fin A))
          (sorPrecond (Ext.num sq) (.fin w) (ofCrs order zo (crsMap Ext.fin A)) (crsPrecond (Ext.num sq) (crsMap Ext.fin A)))
          [l0] [vec Ext.fin u] n none fuel = some (.ok out) ∧
        FoundPre sq (Matrix.of fun i j : Fin n => crsAt A i j) P tol out := by
  have hAm := isMat_crsExt A hA hdist hr hc order zo ho hz
  have hM : (Matrix.of fun i j : Fin n => crsAt A i j)ᵀ = Matrix.of fun i j : Fin n => crsAt A i j := by
    ext i j; exact hsym j i
  obtain ⟨pc, P, e, hpc, -, hP⟩ := sor_strict sq A hA hr hc _ hAm (fun i => (hd i).ne') w hw.ne'
  obtain ⟨c, hc0, hcT⟩ := sor_coercive hM hd hw hP
  refine ⟨P, hP, ?_⟩
  generalize (Matrix.of fun i j : Fin n => crsAt A i j) = M at *
  have hct : 0 < (c * tol) ^ 2 := by positivity
  obtain ⟨N, hN⟩ := exists_nat_gt (2 * (2 * ∑ i, ∑ j, |M i j|) ^ 2 / (c * tol) ^ 2)
  refine ⟨N + 1, fun L hL hC cfg htol hmin hmax l0 u hu hne => ⟨2 * cfg.maxiter + 1, ?_⟩⟩
  rw [e]
  refine C120_converges_precond_partial (lo := -(∑ i, ∑ j, |M i j|)) (D := 2 * ∑ i, ∑ j, |M i j|) hsq hsq0 hAm
    (mv_crsExt A hA hr hc order zo ho) hM ?_ ?_ hL hC htol htol0 hmin hpc hc0 hcT l0 hu (hne _) ?_ (Nat.le_refl _)
  · intro v
    have := (abs_le.mp (quot_abs M v)).1
    linarith
  · intro v
    have := (abs_le.mp (quot_abs M v)).2
    linarith
  · rw [div_lt_iff₀ hct] at hN
    refine lt_of_lt_of_le hN (mul_le_mul_of_nonneg_right ?_ hct.le)
    have : ((N + 1 : Nat) : K) ≤ cfg.maxiter := by exact_mod_cast hmax
    push_cast at this
    linarith

section

variable {sq : K → K} (hsq : ∀ a, 0 ≤ a → sq a * sq a = a) (hsq0 : ∀ a, 0 ≤ a → 0 ≤ sq a) (hn : 0 < n) (A : Crs K)
  (hA : A.Safe) (hdist : DistinctPos A.entries) (hr : A.rowN = n) (hc : A.colN = n)
  (hsym : ∀ i j : Fin n, crsAt A i j = crsAt A j i) (order zo : List Nat) (ho : Order order n) (hz : Order zo n)
  {L : Lib (Ext K)} (hL : Dsygvd L) {cfg : Cfg (Ext K)}

include hsq hsq0 hn hA hdist hr hc hsym ho hz hL

/-- **C119** with the SOR preconditioner, CRS matrices: orthonormal Ritz vectors, not worse than the start vectors, without
assuming that the result is finite. -/
theorem C119_sor_partial (hd : ∀ i : Fin n, crsAt A i i ≠ 0) {w : K} (hw : w ≠ 0) (hmax : 0 < cfg.maxiter) {l : List (Ext K)}
    {xin : List (List (Ext K))} {xcol : Nat} {rs : Option (List (List (Ext K)))}
    (hrs : ∀ r, rs = some r → l.length ≤ r.length) {fuel : Nat} {out : Out (Ext K)}
    (h : standard (Ext.num sq) L cfg (ofCrs order zo (crsMap Ext.fin A))
      (sorPrecond (Ext.num sq) (.fin w) (ofCrs order zo (crsMap Ext.fin A)) (crsPrecond (Ext.num sq) (crsMap Ext.fin A)))
      l xin xcol rs fuel = some (.ok out))
    (hheard : standard (Ext.num sq) (loud l.length L) cfg (ofCrs order zo (crsMap Ext.fin A))
      (sorPrecond (Ext.num sq) (.fin w) (ofCrs order zo (crsMap Ext.fin A)) (crsPrecond (Ext.num sq) (crsMap Ext.fin A)))
      l xin xcol rs fuel ≠ some (.throw "internal LAPACK sygvd returned error"))
    (hst : out.status ≠ RESIDUAL_NAN) :
    ∃ (v : Fin l.length → Fin n → K) (lam : Fin l.length → K), (out.x = List.ofFn fun i => vec Ext.fin (v i)) ∧
      out.l = List.ofFn (fun i => Ext.fin (lam i)) ∧ (∀ i j, v i ⬝ᵥ v j = if i = j then 1 else 0) ∧
      RitzPairs (Matrix.of fun i j : Fin n => crsAt A i j) 1 lam v ∧
      Improves (Matrix.of fun i j : Fin n => crsAt A i j) 1 Ext.fin (startOf l.length rs xin) lam := by
  have hAm := isMat_crsExt A hA hdist hr hc order zo ho hz
  obtain ⟨pc, P, e, -, hpc, -⟩ := sor_strict sq A hA hr hc _ hAm hd w hw
  rw [e] at h hheard
  exact C119_precond_partial hsq hsq0 hn hAm hpc (by ext i j; exact hsym j i) hL hmax hrs h hheard hst

/-- **C120** with the SOR preconditioner and any number of vectors, CRS matrices: for every symmetric matrix with a positive
diagonal, every `w > 0`, every tolerance and every number of vectors there is an iteration count LOBPCG does not run out of. -/
theorem C120_sor_block_partial [Archimedean K] (hd : ∀ i : Fin n, 0 < crsAt A i i) {w : K} (hw : 0 < w) {tol : K}
    (htol0 : 0 < tol) (m : Nat) :
    ∃ N : Nat, ∀ cfg : Cfg (Ext K), cfg.tol = .fin tol → cfg.miniter = 0 → N ≤ cfg.maxiter →
      ∀ (l : List (Ext K)) (xin : List (List (Ext K))) (xcol : Nat) (rs : Option (List (List (Ext K)))) (fuel : Nat)
        (out : Out (Ext K)), l.length = m → (∀ r, rs = some r → m ≤ r.length) →
      standard (Ext.num sq) L cfg (ofCrs order zo (crsMap Ext.fin A))
        (sorPrecond (Ext.num sq) (.fin w) (ofCrs order zo (crsMap Ext.fin A)) (crsPrecond (Ext.num sq) (crsMap Ext.fin A)))
        l xin xcol rs fuel = some (.ok out) →
      standard (Ext.num sq) (loud m L) cfg (ofCrs order zo (crsMap Ext.fin A))
        (sorPrecond (Ext.num sq) (.fin w) (ofCrs order zo (crsMap Ext.fin A)) (crsPrecond (Ext.num sq) (crsMap Ext.fin A)))
        l xin xcol rs fuel ≠ some (.throw "internal LAPACK sygvd returned error") →
      out.status = SUCCESS ∨ out.status = RESIDUAL_NAN := by
  have hAm := isMat_crsExt A hA hdist hr hc order zo ho hz
  have hM : (Matrix.of fun i j : Fin n => crsAt A i j)ᵀ = Matrix.of fun i j : Fin n => crsAt A i j := by
    ext i j; exact hsym j i
  obtain ⟨pc, P, e, -, hpc, hP⟩ := sor_strict sq A hA hr hc _ hAm (fun i => (hd i).ne') w hw.ne'
  obtain ⟨c, hc0, hcT⟩ := sor_coercive hM hd hw hP
  generalize (Matrix.of fun i j : Fin n => crsAt A i j) = M at *
  have hct : 0 < (c * tol) ^ 2 := by positivity
  obtain ⟨N, hN⟩ := exists_nat_gt (2 * m * (2 * ∑ i, ∑ j, |M i j|) ^ 2 / (c * tol) ^ 2)
  refine ⟨N + 1, fun cfg htol hmin hmax l xin xcol rs fuel out hl hrs h hheard => ?_⟩
  subst hl
  rw [e] at h hheard
  refine C120_precond_partial (lo := -(∑ i, ∑ j, |M i j|)) (D := 2 * ∑ i, ∑ j, |M i j|) hsq hsq0 hn hAm hM ?_ ?_ hL htol
    htol0 hmin hpc hc0 hcT hrs ?_ h hheard
  · intro v
    have := (abs_le.mp (quot_abs M v)).1
    linarith
  · intro v
    have := (abs_le.mp (quot_abs M v)).2
    linarith
  · rw [div_lt_iff₀ hct] at hN
    refine lt_of_lt_of_le hN (mul_le_mul_of_nonneg_right ?_ hct.le)
    have : ((N + 1 : Nat) : K) ≤ cfg.maxiter := by exact_mod_cast hmax
    push_cast at this
    linarith

end

theorem twoA_sym' (i j : Fin 2) : crsAt twoA i j = crsAt twoA j i := by
  have e := congrArg (fun M : Matrix (Fin 2) (Fin 2) ℝ => M i j = M j i) twoA_at
  simp only [Matrix.of_apply, eq_iff_iff] at e
  rw [e]
  fin_cases i <;> fin_cases j <;> rfl

theorem twoA_diag (i : Fin 2) : 0 < crsAt twoA i i := by
  have e := congrFun (congrFun twoA_at i) i
  simp only [Matrix.of_apply] at e
  rw [e]
  fin_cases i <;> norm_num

/-- the hypotheses of `C120_sor_partial`, `C119_sor_partial` and `C120_sor_block_partial` are met: SOR with `w = 1`, from
`e₁`, with a LAPACK that exists -/
example : ∃ N : Nat, ∀ cfg : Cfg (Ext ℝ), cfg.tol = .fin (1 / 1000) → cfg.miniter = 0 → N ≤ cfg.maxiter →
    ∃ (fuel : Nat) (out : Out (Ext ℝ)), standard (Ext.num Real.sqrt) realLib cfg
      (ofCrs [1, 0] [0, 1] (crsMap Ext.fin twoA))
      (sorPrecond (Ext.num Real.sqrt) (.fin 1) (ofCrs [1, 0] [0, 1] (crsMap Ext.fin twoA))
        (crsPrecond (Ext.num Real.sqrt) (crsMap Ext.fin twoA)))
      [.fin 0] [vec Ext.fin (![1, 0] : Fin 2 → ℝ)] 2 none fuel = some (.ok out) ∧ out.status = SUCCESS ∧
      (out.status = SUCCESS ∨ out.status = RESIDUAL_NAN) ∧ ∃ v : Fin 1 → Fin 2 → ℝ, ∃ lam : Fin 1 → ℝ,
        out.l = List.ofFn (fun i => Ext.fin (lam i)) ∧
        RitzPairs (Matrix.of fun i j : Fin 2 => crsAt twoA i j) 1 lam v := by
  have s1 : ∀ a : ℝ, 0 ≤ a → Real.sqrt a * Real.sqrt a = a := fun _ h => Real.mul_self_sqrt h
  have s2 : ∀ a : ℝ, 0 ≤ a → 0 ≤ Real.sqrt a := fun _ _ => Real.sqrt_nonneg _
  obtain ⟨P, -, N, h⟩ := C120_sor_partial s1 s2 twoA twoA_safe twoA_distinct (n := 2) rfl rfl twoA_sym' twoA_diag [1, 0] [0, 1]
    (by unfold Order; decide) (by unfold Order; decide) (w := 1) one_pos (tol := 1 / 1000) (by norm_num)
  obtain ⟨N', h'⟩ := C120_sor_block_partial s1 s2 (by decide) twoA twoA_safe twoA_distinct (n := 2) rfl rfl twoA_sym' [1, 0] [0, 1]
    (by unfold Order; decide) (by unfold Order; decide) realLib_dsygvd twoA_diag (w := 1) one_pos (tol := 1 / 1000) (by norm_num) 1
  refine ⟨N + N' + 1, fun cfg h1 h2 h3 => ?_⟩
  obtain ⟨fuel, out, hr, hf⟩ := h realLib realLib_dsygvd realLib_completes cfg h1 h2 (by omega) (.fin 0) ![1, 0]
    (by simp [dotProduct, Fin.sum_univ_two]) (by
      intro c hc
      rw [twoA_at] at hc
      have := congrFun hc 1
      simp [Matrix.mulVec, dotProduct, Fin.sum_univ_two] at this)
  have hheard : standard (Ext.num Real.sqrt) (loud 1 realLib) cfg (ofCrs [1, 0] [0, 1] (crsMap Ext.fin twoA))
      (sorPrecond (Ext.num Real.sqrt) (.fin 1) (ofCrs [1, 0] [0, 1] (crsMap Ext.fin twoA))
        (crsPrecond (Ext.num Real.sqrt) (crsMap Ext.fin twoA)))
      [.fin 0] [vec Ext.fin (![1, 0] : Fin 2 → ℝ)] 2 none fuel ≠ some (.throw "internal LAPACK sygvd returned error") := by
    rw [realLib_loud (by decide), hr]
    simp
  refine ⟨fuel, out, hr, hf.1, h' cfg h1 h2 (by omega) _ _ _ _ _ _ rfl (fun r hr => by cases hr) hr hheard, ?_⟩
  obtain ⟨v, lam, -, k1, -, k2, -⟩ := C119_sor_partial s1 s2 (by decide) twoA twoA_safe twoA_distinct (n := 2) rfl rfl twoA_sym'
    [1, 0] [0, 1] (by unfold Order; decide) (by unfold Order; decide) realLib_dsygvd (fun i => (twoA_diag i).ne')
    (w := 1) one_ne_zero (by omega) (fun r hr => by cases hr) hr hheard (by rw [hf.1]; decide)
  exact ⟨v, lam, k1, k2⟩

end Verif.Lobpcg
