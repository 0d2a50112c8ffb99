import Verif.Lemmas.LobpcgOne

/-! One pass of LOBPCG with one vector: success, a new attempt with two vectors, or a smaller Rayleigh quotient. -/

namespace Verif.Lobpcg

open Spec Solver Lapack Matrix

variable {K : Type} [Field K] [LinearOrder K] [IsStrictOrderedRing K] {n : Nat} {M : Matrix (Fin n) (Fin n) K}

/-- the first `k` of the vectors `u, x, p` -/
def dir (k : Nat) (u x p : Fin n → K) : Fin k → Fin n → K :=
  fun a => if (a : Nat) = 0 then u else if (a : Nat) = 1 then x else p

theorem rows_dir {k : Nat} (hk : k = 2 ∨ k = 3) (u x p : Fin n → K) :
    ([vec Ext.fin u, vec Ext.fin x, vec Ext.fin p] : List (List (Ext K))).take k =
      List.ofFn fun a => vec Ext.fin (dir k u x p a) := by
  rcases hk with rfl | rfl <;> simp [List.ofFn_succ, dir]

theorem mul_dir (k : Nat) (u x p : Fin n → K) (a : Fin k) :
    M *ᵥ dir k u x p a = dir k (M *ᵥ u) (M *ᵥ x) (M *ᵥ p) a := by
  unfold dir
  split
  · rfl
  · split <;> rfl

theorem comb_dir {k : Nat} (hk : k = 2 ∨ k = 3) (u x p : Fin n → K) (c : Nat → K) :
    (fun i : Fin k => c i) ᵥ* (Matrix.of (dir k u x p)) = c 0 • u + (if k = 3 then c 2 else 0) • p + c 1 • x := by
  funext j
  rcases hk with rfl | rfl
  · simp [Matrix.vecMul, dotProduct, Fin.sum_univ_succ, dir]
  · simp [Matrix.vecMul, dotProduct, Fin.sum_univ_succ, dir]
    ring

theorem passWith_one {sq : K → K} (hsq : ∀ a, 0 ≤ a → sq a * sq a = a) (hsq0 : ∀ a, 0 ≤ a → 0 ≤ sq a)
    {A : Mat (Ext K)} (hA : IsMat A Ext.fin M) (hmv : ∀ u, u.length = n → ∃ v, A.mv u = .ok v) (hM : Mᵀ = M)
    {pc : List (Ext K) → Res (List (Ext K))} {T : (Fin n → K) → Fin n → K}
    (hpc : ∀ v : Fin n → K, pc (vec Ext.fin v) = .ok (vec Ext.fin (T v)))
    {c : K} (hc0 : 0 < c) (hcT : ∀ v : Fin n → K, c * (T v ⬝ᵥ T v) ≤ v ⬝ᵥ T v)
    {lo D : K} (hlo : ∀ v : Fin n → K, lo * (v ⬝ᵥ v) ≤ v ⬝ᵥ (M *ᵥ v))
    (hhi : ∀ v : Fin n → K, v ⬝ᵥ (M *ᵥ v) ≤ (lo + D) * (v ⬝ᵥ v))
    {L : Lib (Ext K)} (hL : Dsygvd L) (hC : DsygvdCompletes L) {cfg : Cfg (Ext K)} {tol : K} (htol : cfg.tol = .fin tol)
    (htol0 : 0 < tol) (hmin : cfg.miniter = 0) {k : Nat} (hk : k = 2 ∨ k = 3) {lb ub : Int}
    (hub : k = 3 → lb = 5 ∧ ub = 6) (hlb : 0 ≤ lb) (iter : Nat)
    {s : St (Ext K)} {ρ r : K} {x u p : Fin n → K} (hs : One M ρ r x u p s) :
    ∃ P, passWith (Ext.num sq) L cfg 1 iter k lb ub (fun s => s.F.rows)
        (fun k S prev => column (Ext.num sq) A pc 1 n k S iter prev) s = .ok P ∧
      ((∃ o, P = .done o ∧ o.status = SUCCESS) ∨ (k = 3 ∧ ∃ s', P = .restart s' ∧ One M ρ r x u p s') ∨
        ∃ s' t ω r' y u' p', P = .next s' t ∧ One M ω r' y u' p' s' ∧ c * tol ≤ r' ∧ ω ≤ ρ - r ^ 2 / (2 * D)) := by
  have hFr : s.F.rows.take k = List.ofFn fun a => vec Ext.fin (dir k u x p a) := by
    rw [hs.F]; exact rows_dir hk u x p
  have hGr : s.G.rows.take k = List.ofFn fun a => vec Ext.fin (M *ᵥ dir k u x p a) := by
    rw [hs.G]
    simp only [mul_dir]
    exact rows_dir hk _ _ _
  have hSb : gramK (dir k u x p) (dir k u x p) =
      gramK (fun a => (1 : Matrix (Fin n) (Fin n) K) *ᵥ dir k u x p a) (dir k u x p) := by
    simp only [Matrix.one_mulVec]
  have hk2 : 1 < k := by rcases hk with rfl | rfl <;> decide
  have hxM : x ⬝ᵥ (M *ᵥ x) = ρ := hs.quot
  unfold passWith
  dsimp only
  rw [hFr, hGr, gram_vec, gram_vec]
  rcases hC k (gramK (fun a => M *ᵥ dir k u x p a) (dir k u x p)) (gramK (dir k u x p) (dir k u x p))
    (by omega) (gramK_length _ _) (gramK_length _ _) with h0 | ⟨i, hi1, hik, hinfo, cc, hcc0, hci, hc⟩
  · -- the projected problem is solved
    obtain ⟨z, e, w, hz, hw, h1, h2⟩ := hL k _ _ (gramK_length _ _) (gramK_length _ _) h0
    have hsol : Ritz.Solved M 1 (Matrix.of (dir k u x p)) (mat k (cm z k)) (fun i => w.getD i 0) := by
      rw [hSb] at h1 h2
      exact solved_of hM Matrix.transpose_one (dir k u x p) h1 h2
    have hzl : z.length = k * k := by
      have := h1.length.1
      rw [gramK_length] at this
      exact this
    have hwl : w.length = k := h1.wLength rfl
    rw [h0, if_neg (by omega), if_neg (by simp), hz, hw]
    have hkpos : 0 < k := by omega
    have hfirst := hsol.first hkpos
    have hcol : (fun i : Fin k => mat k (cm z k) i ⟨0, hkpos⟩) = fun i : Fin k => (fun i => z.getD i 0) (i : Nat) := by
      funext i
      simp [mat, cm]
    rw [hcol, comb_dir hk u x p (fun i => z.getD i 0), Matrix.one_mulVec] at hfirst
    obtain ⟨hyy, hyM⟩ := hfirst
    have hdec := Ritz.decrease_along hsq hsq0 hM hs.xx hs.uu hs.quot hs.gain hs.pos hlo hhi (ω := w.getD 0 0) (by
      intro a b
      have := hsol.low hkpos (fun i : Fin k => (fun i : Nat => if i = 0 then b else if i = 1 then a else 0) i)
      rw [comb_dir hk u x p (fun i : Nat => if i = 0 then b else if i = 1 then a else 0), Matrix.one_mulVec] at this
      have e : (b • u + (if k = 3 then (0 : K) else 0) • p + a • x) = a • x + b • u := by
        rw [ite_self, zero_smul, add_zero, add_comm]
      simp only [if_true, if_neg (by decide : ¬ (1 : Nat) = 0), if_neg (by decide : ¬ (2 : Nat) = 0),
        if_neg (by decide : ¬ (2 : Nat) = 1)] at this
      rw [e] at this
      exact this)
    have hp0 : z.getD 0 0 • u + (if k = 3 then z.getD 2 0 else 0) • p ≠ 0 := by
      intro hp
      rw [hp, zero_add] at hyy hyM
      rw [smul_dotProduct, dotProduct_smul, hs.xx] at hyy
      rw [Matrix.mulVec_smul, smul_dotProduct, dotProduct_smul, hxM] at hyM
      have h3 : w.getD 0 0 = ρ := by
        rw [← hyM]
        simp only [smul_eq_mul] at hyy ⊢
        linear_combination ρ * hyy
      have h4 := hdec.2
      rw [h3] at h4
      have : 0 < r ^ 2 / (2 * D) := by
        have := hdec.1
        have := hs.pos
        positivity
      linarith
    have hs1 : One M ρ r x u p { s with lam := overwrite s.lam (w.map Ext.fin) } :=
      ⟨hs.F, hs.G, hs.l, hs.xx, hs.uu, hs.quot, hs.gain, hs.pos⟩
    have hlam : rd (overwrite s.lam (w.map Ext.fin)) 0 = .ok (.fin (w.getD 0 0)) := by
      apply rd_of_getElem?
      unfold overwrite
      rw [List.getElem?_append_left (by simp; omega)]
      rw [List.getElem?_map, List.getD, List.getElem?_eq_getElem (by omega)]
      rfl
    obtain ⟨s', hcolm, hnext⟩ := column_one hsq hsq0 hA hmv hpc hc0 hcT hk hzl iter hs1 hlam rfl rfl hyy hyM hp0
    rw [List.range_one]
    unfold columns
    rw [hcolm, Res.ok_bind]
    dsimp only
    unfold columns
    rw [Res.ok_bind]
    dsimp only
    have hmax : ∀ a : Ext K, maxV (Ext.num sq) ([] ++ [a]) = .ok a := fun _ => rfl
    rw [hmax, Res.ok_bind, htol, (Ext.exact sq).lt]
    generalize hR : norm2 sq _ = R at hnext ⊢
    by_cases hlt : R < tol
    · rw [if_pos ⟨by simpa using hlt, by omega⟩]
      exact ⟨_, rfl, .inl ⟨_, rfl, rfl⟩⟩
    · rw [if_neg (fun h => hlt (by simpa using h.1))]
      obtain ⟨u', p', hn⟩ := hnext (by intro h; rw [h] at hlt; exact hlt htol0)
      exact ⟨_, rfl, .inr (.inr ⟨_, _, _, _, _, u', p', rfl, hn, mul_le_mul_of_nonneg_left (not_lt.mp hlt) hc0.le, hdec.2⟩)⟩
  · -- the vectors are dependent
    rw [hSb, sym_gramK (Matrix.transpose_one)] at hc
    have hc' : (cc ᵥ* Matrix.of (dir k u x p)) ⬝ᵥ (cc ᵥ* Matrix.of (dir k u x p)) ≤ 0 := by
      have := Ritz.quad (1 : Matrix (Fin n) (Fin n) K) (Matrix.of (dir k u x p)) cc cc
      rw [Matrix.one_mulVec] at this
      rw [this]; exact hc
    let c' : Nat → K := fun i => if h : i < k then cc ⟨i, h⟩ else 0
    have ecc : cc = fun i : Fin k => c' i := by
      funext i
      simp [c']
    have hi3 : 3 ≤ i := by
      by_contra hlt
      have h2 : (if k = 3 then c' 2 else 0) = 0 := by
        split
        · rename_i h3
          have : c' 2 = cc ⟨2, by omega⟩ := dif_pos (by omega)
          rw [this]
          exact hci ⟨2, by omega⟩ (by show i ≤ 2; omega)
        · rfl
      rw [ecc, comb_dir hk, h2, zero_smul, add_zero] at hc'
      have hz : c' 0 • u + c' 1 • x = 0 :=
        dotProduct_self_eq_zero.mp (le_antisymm hc' (dot_nonneg _))
      have hxg : x ⬝ᵥ (M *ᵥ x - ρ • x) = 0 := by
        rw [dotProduct_sub, dotProduct_smul, hs.xx, hs.quot, smul_eq_mul, mul_one, sub_self]
      have h7 : c' 0 = 0 := by
        have := congrArg (fun w => w ⬝ᵥ (M *ᵥ x - ρ • x)) hz
        simp only [add_dotProduct, smul_dotProduct, hxg, zero_dotProduct, smul_eq_mul, mul_zero, add_zero] at this
        refine (mul_eq_zero.mp this).resolve_right ?_
        have h1 := hs.gain
        have h2 := hs.pos
        exact ne_of_gt (by linarith)
      have h8 : c' 1 = 0 := by
        rw [h7, zero_smul, zero_add] at hz
        have := congrArg (fun w => x ⬝ᵥ w) hz
        simpa [dotProduct_smul, hs.xx] using this
      apply hcc0
      rw [ecc]
      funext j
      have hj : (j : Nat) = 0 ∨ (j : Nat) = 1 ∨ (j : Nat) = 2 := by
        have := j.2
        rcases hk with rfl | rfl <;> omega
      rcases hj with hj | hj | hj
      · rw [hj]; exact h7
      · rw [hj]; exact h8
      · have : k = 3 := by have := j.2; rcases hk with rfl | rfl <;> omega
        rw [if_pos this] at h2
        rw [hj]; exact h2
    have hk3 : k = 3 := by rcases hk with rfl | rfl <;> omega
    have hi : i = 3 := by omega
    obtain ⟨e1, e2⟩ := hub hk3
    rw [hinfo, if_pos (by rw [e1, e2, hk3, hi]; decide)]
    exact ⟨_, rfl, .inr (.inl ⟨hk3, _, rfl, hs.F, hs.G, hs.l, hs.xx, hs.uu, hs.quot, hs.gain, hs.pos⟩)⟩

end Verif.Lobpcg
