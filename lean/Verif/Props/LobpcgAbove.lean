import Verif.Props.LobpcgMore

/-! C119: the numbers never fall below the eigenvalues. -/

namespace Verif.Lobpcg

open Spec Solver Lapack Matrix

variable {K : Type} [Field K] [LinearOrder K] [IsStrictOrderedRing K] {n : Nat} {M Q : Matrix (Fin n) (Fin n) K}

theorem Spectrum.mat {μ : Fin n → K} {e : Fin n → Fin n → K} (h : Spectrum M Q μ e) :
    (Matrix.of e) * Q * (Matrix.of e)ᵀ = 1 := by
  ext k l
  have : ((Matrix.of e) * Q * (Matrix.of e)ᵀ) k l = e k ⬝ᵥ (Q *ᵥ e l) := by
    rw [Matrix.mul_assoc, Matrix.mul_apply']
    congr 1
  rw [this]
  by_cases hkl : k = l
  · subst hkl; rw [h.norm, Matrix.one_apply_eq]
  · rw [h.orth k l hkl, Matrix.one_apply_ne hkl]

theorem Spectrum.matM {μ : Fin n → K} {e : Fin n → Fin n → K} (h : Spectrum M Q μ e) :
    (Matrix.of e) * M * (Matrix.of e)ᵀ = diagonal μ := by
  ext k l
  have : ((Matrix.of e) * M * (Matrix.of e)ᵀ) k l = e k ⬝ᵥ (M *ᵥ e l) := by
    rw [Matrix.mul_assoc, Matrix.mul_apply']
    congr 1
  rw [this, h.eigen, dotProduct_smul, smul_eq_mul]
  by_cases hkl : k = l
  · subst hkl; rw [h.norm, diagonal_apply_eq, mul_one]
  · rw [h.orth k l hkl, diagonal_apply_ne _ hkl, mul_zero]

/-- Poincare: Ritz values lie above the eigenvalues, one by one. -/
theorem RitzPairs.above {m : Nat} {lam : Fin m → K} {v : Fin m → Fin n → K} (h : RitzPairs M Q lam v)
    {μ : Fin n → K} {e : Fin n → Fin n → K} (hs : Spectrum M Q μ e) (i : Fin m) (k : Fin n) (hik : (k : Nat) ≤ i) :
    μ k ≤ lam i := by
  classical
  let g : Fin ((k : Nat) + 1) → Fin m := fun j => ⟨j, by omega⟩
  have hg : ∀ a b, a ≠ b → g a ≠ g b := fun a b hab hh => hab (Fin.ext (Fin.mk.inj hh))
  let V : Matrix (Fin ((k : Nat) + 1)) (Fin n) K := fun j => v (g j)
  let E : Matrix (Fin n) (Fin n) K := Matrix.of e
  let T : (Fin ((k : Nat) + 1) → K) →ₗ[K] (Fin k → K) :=
    { toFun := fun c t => (c ᵥ* (V * (Q * Eᵀ))) ⟨t, lt_trans t.2 k.2⟩
      map_add' := fun c d => by funext t; simp [Matrix.add_vecMul]
      map_smul' := fun a c => by funext t; simp [Matrix.smul_vecMul] }
  have hker : LinearMap.ker T ≠ ⊥ := LinearMap.ker_ne_bot_of_finrank_lt (by simp)
  obtain ⟨c, hc, hc0⟩ := (Submodule.ne_bot_iff _).mp hker
  have hz : ∀ t : Fin n, (t : Nat) < k → (c ᵥ* (V * (Q * Eᵀ))) t = 0 := by
    intro t ht
    exact congrFun (LinearMap.mem_ker.mp hc) ⟨t, ht⟩
  have hEE : E * (Q * Eᵀ) = 1 := by rw [← Matrix.mul_assoc]; exact Spectrum.mat hs
  have hback : Q * Eᵀ * E = 1 := mul_eq_one_comm.mp hEE
  have hu : c ᵥ* V = (c ᵥ* (V * (Q * Eᵀ))) ᵥ* E := by
    rw [Matrix.vecMul_vecMul, Matrix.mul_assoc, hback, Matrix.mul_one]
  -- from above
  have hVQ : V * Q * Vᵀ = diagonal fun j => v (g j) ⬝ᵥ (Q *ᵥ v (g j)) := by
    ext a b
    have : (V * Q * Vᵀ) a b = V a ⬝ᵥ (Q *ᵥ V b) := by
      rw [Matrix.mul_assoc, Matrix.mul_apply']
      congr 1
    rw [this]
    by_cases hab : a = b
    · subst hab; rw [diagonal_apply_eq]
    · rw [diagonal_apply_ne _ hab]
      exact (h.orth _ _ (hg _ _ hab)).1
  have hVM : V * M * Vᵀ = diagonal fun j =>
      lam (g j) * (v (g j) ⬝ᵥ (Q *ᵥ v (g j))) := by
    ext a b
    have : (V * M * Vᵀ) a b = V a ⬝ᵥ (M *ᵥ V b) := by
      rw [Matrix.mul_assoc, Matrix.mul_apply']
      congr 1
    rw [this]
    by_cases hab : a = b
    · subst hab; rw [diagonal_apply_eq]; exact h.quot _
    · rw [diagonal_apply_ne _ hab]
      exact (h.orth _ _ (hg _ _ hab)).2
  have hq1 : (c ᵥ* V) ⬝ᵥ (Q *ᵥ (c ᵥ* V)) = ∑ j, c j * (c j * (v (g j) ⬝ᵥ (Q *ᵥ v (g j)))) := by
    rw [Ritz.quad Q V, hVQ]
    unfold dotProduct
    refine Finset.sum_congr rfl fun j _ => ?_
    rw [Matrix.mulVec_diagonal]
    ring
  have hm1 : (c ᵥ* V) ⬝ᵥ (M *ᵥ (c ᵥ* V)) ≤ lam i * ((c ᵥ* V) ⬝ᵥ (Q *ᵥ (c ᵥ* V))) := by
    rw [hq1, Ritz.quad M V, hVM, Finset.mul_sum]
    unfold dotProduct
    refine Finset.sum_le_sum fun j _ => ?_
    rw [Matrix.mulVec_diagonal]
    have h1 := h.sorted (g j) i (by rw [Fin.le_def]; show (j : Nat) ≤ i; omega)
    have h2 : 0 ≤ c j * (c j * (v (g j) ⬝ᵥ (Q *ᵥ v (g j)))) := by
      rw [← mul_assoc]
      exact mul_nonneg (mul_self_nonneg _) (h.pos _).le
    have := mul_le_mul_of_nonneg_right h1 h2
    unfold dotProduct at this
    linarith
  have hpos : 0 < (c ᵥ* V) ⬝ᵥ (Q *ᵥ (c ᵥ* V)) := by
    rw [hq1]
    obtain ⟨t, ht⟩ := Function.ne_iff.mp hc0
    refine Finset.sum_pos' (fun j _ => ?_) ⟨t, Finset.mem_univ _, ?_⟩
    · rw [← mul_assoc]
      exact mul_nonneg (mul_self_nonneg _) (h.pos _).le
    · rw [← mul_assoc]
      exact mul_pos (mul_self_pos.mpr ht) (h.pos _)
  -- from below
  have hm2 : μ k * ((c ᵥ* V) ⬝ᵥ (Q *ᵥ (c ᵥ* V))) ≤ (c ᵥ* V) ⬝ᵥ (M *ᵥ (c ᵥ* V)) := by
    rw [hu, Ritz.quad Q E, Ritz.quad M E, Spectrum.mat hs, Spectrum.matM hs, Matrix.one_mulVec]
    generalize c ᵥ* (V * (Q * Eᵀ)) = d at hz
    unfold dotProduct
    rw [Finset.mul_sum]
    refine Finset.sum_le_sum fun t _ => ?_
    rw [Matrix.mulVec_diagonal]
    by_cases ht : (t : Nat) < k
    · rw [hz t ht]; simp
    · have hw := hs.sorted k t (by rw [Fin.le_def]; omega)
      have := mul_le_mul_of_nonneg_right hw (mul_self_nonneg (d t))
      linarith [this, mul_left_comm (d t) (μ t) (d t)]
  exact le_of_mul_le_mul_right (le_trans hm2 hm1) hpos

/-- **C119**: no number LOBPCG returns is less than the eigenvalue in its place (standard problem; the hypotheses of
`C119_lobpcg_standard_partial`). -/
theorem C119_above_eigenvalues_partial {sq : K → K} (hn : 0 < n)
    {A : Mat (Ext K)} (hA : IsMat A Ext.fin M) (hM : Mᵀ = M) {L : Lib (Ext K)} (hL : Dsygvd L)
    {cfg : Cfg (Ext K)} (hmax : 0 < cfg.maxiter) {create : Res (List (Ext K) → Res (List (Ext K)))}
    {l : List (Ext K)} {xin : List (List (Ext K))} {xcol : Nat} {rs : Option (List (List (Ext K)))}
    (hrs : ∀ r, rs = some r → l.length ≤ r.length) {fuel : Nat} {out : Out (Ext K)}
    (h : standard (Ext.num sq) L cfg A create l xin xcol rs fuel = some (.ok out))
    (hheard : standard (Ext.num sq) (loud l.length L) cfg A create l xin xcol rs fuel ≠
      some (.throw "internal LAPACK sygvd returned error"))
    (hst : out.status ≠ RESIDUAL_NAN)
    {v : Fin l.length → Fin n → K} (hx : out.x = List.ofFn fun i => vec Ext.fin (v i))
    {μ : Fin n → K} {e : Fin n → Fin n → K} (hs : Spectrum M 1 μ e) :
    ∃ lam : Fin l.length → K, out.l = List.ofFn (fun i => Ext.fin (lam i)) ∧
      ∀ (i : Fin l.length) (k : Fin n), (k : Nat) ≤ i → μ k ≤ lam i := by
  obtain ⟨lam, h1, h2, -⟩ := C119_lobpcg_standard_partial hn hA hM hL hmax hrs h hheard hst hx
  exact ⟨lam, h1, fun i k hik => RitzPairs.above h2 hs i k hik⟩

/-- **C119**: the same for the generalised problem. -/
theorem C119_above_eigenvalues_generalized_partial {sq : K → K} (hn : 0 < n)
    {A B : Mat (Ext K)} (hA : IsMat A Ext.fin M) (hB : IsMat B Ext.fin Q) (hM : Mᵀ = M) (hQ : Qᵀ = Q)
    {L : Lib (Ext K)} (hL : Dsygvd L)
    {cfg : Cfg (Ext K)} (hmax : 0 < cfg.maxiter) {create : Res (List (Ext K) → Res (List (Ext K)))}
    {l : List (Ext K)} {xin : List (List (Ext K))} {xcol : Nat} {itype : Int} {rs : Option (List (List (Ext K)))}
    (hrs : ∀ r, rs = some r → l.length ≤ r.length) {fuel : Nat} {out : Out (Ext K)}
    (h : generalized (Ext.num sq) L cfg A B create l xin xcol itype rs fuel = some (.ok out))
    (hheard : generalized (Ext.num sq) (loud l.length L) cfg A B create l xin xcol itype rs fuel ≠
      some (.throw "internal LAPACK sygvd returned error"))
    (hst : out.status ≠ RESIDUAL_NAN)
    {v : Fin l.length → Fin n → K} (hx : out.x = List.ofFn fun i => vec Ext.fin (v i))
    {μ : Fin n → K} {e : Fin n → Fin n → K} (hs : Spectrum M Q μ e) :
    ∃ lam : Fin l.length → K, out.l = List.ofFn (fun i => Ext.fin (lam i)) ∧
      ∀ (i : Fin l.length) (k : Fin n), (k : Nat) ≤ i → μ k ≤ lam i := by
  obtain ⟨lam, h1, h2, -⟩ := C119_lobpcg_generalized_partial hn hA hB hM hQ hL hmax hrs h hheard hst hx
  exact ⟨lam, h1, fun i k hik => RitzPairs.above h2 hs i k hik⟩

/-- `diag(0, 8, 5)` has the eigenvalues 0, 5, 8 -/
theorem moreA_spectrum : Spectrum (Matrix.of (fun i j : Fin 3 => crsAt moreA i j)) 1 ![0, 5, 8]
    ![![1, 0, 0], ![0, 0, 1], ![0, 1, 0]] where
  eigen k := by fin_cases k <;> ext i <;> fin_cases i <;> decide +kernel
  norm k := by fin_cases k <;> decide +kernel
  orth k l h := by fin_cases k <;> fin_cases l <;> first | exact absurd rfl h | decide +kernel
  sorted k l h := by fin_cases k <;> fin_cases l <;> first | exact absurd h (by decide) | decide +kernel

/-- the hypotheses are met by `more_run1` -/
example : ∃ lam : Fin 1 → ℚ, [q (360/77)] = List.ofFn (fun i => Ext.fin (lam i)) ∧
    ∀ (i : Fin 1) (k : Fin 3), (k : Nat) ≤ i → (![0, 5, 8] : Fin 3 → ℚ) k ≤ lam i :=
  C119_above_eigenvalues_partial (n := 3) (sq := moreSq) (L := orElse moreLib1 moreLib2)
    (cfg := { lobCfg with maxiter := 1 }) (create := noPrecond) (l := [q 0])
    (xin := [[q (12/385), q (25/385), q (384/385)]]) (xcol := 3) (rs := none) (fuel := 5) (by decide)
    (isMat_crsExt moreA moreA_safe (by decide) rfl rfl [0, 1, 2] [0, 1, 2] (by unfold Order; decide)
      (by unfold Order; decide))
    (by ext i j; fin_cases i <;> fin_cases j <;> decide +kernel) (Dsygvd.orElse moreLib1_ok moreLib2_ok)
    (by decide) (by intro r h; cases h) more_run1 (by decide +kernel)
    (by decide) (v := fun _ => ![40/77, -45/77, 48/77]) (by decide +kernel) moreA_spectrum

end Verif.Lobpcg
