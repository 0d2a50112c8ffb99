import Verif.Lemmas.LobpcgPass
import Verif.Props.LobpcgCases
import Mathlib.Algebra.Order.Archimedean.Basic
import Mathlib.Algebra.Order.BigOperators.Ring.Finset

/-! C120: LOBPCG with one vector finds an eigenpair. -/

namespace Verif.Lobpcg

open Spec Solver Lapack Matrix

variable {K : Type} [Field K] [LinearOrder K] [IsStrictOrderedRing K] {n : Nat} {M : Matrix (Fin n) (Fin n) K}

theorem One.spread {sq : K → K} (hsq : ∀ a, 0 ≤ a → sq a * sq a = a) (hsq0 : ∀ a, 0 ≤ a → 0 ≤ sq a) {ρ r : K}
    {x u p : Fin n → K} {s : St (Ext K)} (hs : One M ρ r x u p s) (hM : Mᵀ = M) {lo D : K}
    (hlo : ∀ v : Fin n → K, lo * (v ⬝ᵥ v) ≤ v ⬝ᵥ (M *ᵥ v))
    (hhi : ∀ v : Fin n → K, v ⬝ᵥ (M *ᵥ v) ≤ (lo + D) * (v ⬝ᵥ v)) : 0 < D :=
  (Ritz.decrease_along hsq hsq0 hM hs.xx hs.uu hs.quot hs.gain hs.pos hlo hhi (ω := lo) fun _ _ => hlo _).1

section

variable {sq : K → K} (hsq : ∀ a, 0 ≤ a → sq a * sq a = a) (hsq0 : ∀ a, 0 ≤ a → 0 ≤ sq a)
  {A : Mat (Ext K)} (hA : IsMat A Ext.fin M) (hmv : ∀ u, u.length = n → ∃ v, A.mv u = .ok v) (hM : Mᵀ = M)
  {lo D : K} (hlo : ∀ v : Fin n → K, lo * (v ⬝ᵥ v) ≤ v ⬝ᵥ (M *ᵥ v))
  (hhi : ∀ v : Fin n → K, v ⬝ᵥ (M *ᵥ v) ≤ (lo + D) * (v ⬝ᵥ v))
  {L : Lib (Ext K)} (hL : Dsygvd L) (hC : DsygvdCompletes L) {cfg : Cfg (Ext K)} {tol : K} (htol : cfg.tol = .fin tol)
  (htol0 : 0 < tol) (hmin : cfg.miniter = 0)
  {pc : List (Ext K) → Res (List (Ext K))} {T : (Fin n → K) → Fin n → K}
  (hpc : ∀ v : Fin n → K, pc (vec Ext.fin v) = .ok (vec Ext.fin (T v)))
  {c : K} (hc0 : 0 < c) (hcT : ∀ v : Fin n → K, c * (T v ⬝ᵥ T v) ≤ v ⬝ᵥ T v)

include hsq hsq0 hA hmv hM hlo hhi hL hC htol htol0 hmin hpc hc0 hcT

theorem pass_one (iter : Nat) (singular : Bool)
    {s : St (Ext K)} {ρ r : K} {x u p : Fin n → K} (hs : One M ρ r x u p s) :
    ∃ P, pass (Ext.num sq) L cfg 1 iter singular (fun s => s.F.rows)
        (fun k S prev => column (Ext.num sq) A pc 1 n k S iter prev) s = .ok P ∧
      ((∃ o, P = .done o ∧ o.status = SUCCESS) ∨
        (iter ≠ 0 ∧ singular = false ∧ ∃ s', P = .restart s' ∧ One M ρ r x u p s') ∨
        ∃ s' t ω r' y u' p', P = .next s' t ∧ One M ω r' y u' p' s' ∧ c * tol ≤ r' ∧ ω ≤ ρ - r ^ 2 / (2 * D)) := by
  unfold pass
  by_cases h : iter = 0 ∨ singular = true
  · rw [if_pos h]
    obtain ⟨P, h1, h2⟩ := passWith_one (k := 2) (lb := (3 * (1 : Nat) : Int)) (ub := (4 * (1 : Nat) : Int)) hsq hsq0 hA hmv
      hM hpc hc0 hcT hlo hhi hL hC htol htol0 hmin (.inl rfl) (by intro h; cases h) (by decide) iter hs
    refine ⟨P, h1, ?_⟩
    rcases h2 with h2 | ⟨h2, _⟩ | h2
    · exact .inl h2
    · cases h2
    · exact .inr (.inr h2)
  · rw [if_neg h]
    obtain ⟨P, h1, h2⟩ := passWith_one (k := 3) (lb := (5 * (1 : Nat) : Int)) (ub := (6 * (1 : Nat) : Int)) hsq hsq0 hA hmv
      hM hpc hc0 hcT hlo hhi hL hC htol htol0 hmin (.inr rfl) (fun _ => ⟨rfl, rfl⟩) (by decide) iter hs
    refine ⟨P, h1, ?_⟩
    rcases h2 with h2 | ⟨_, h2⟩ | h2
    · exact .inl h2
    · refine .inr (.inl ⟨fun hh => h (.inl hh), ?_, h2⟩)
      cases singular
      · rfl
      · exact absurd (.inr rfl) h
    · exact .inr (.inr h2)

/-- the loop, once the residual is known to be at least the tolerance -/
theorem loop_one : ∀ (fuel iter : Nat) (singular : Bool) (resid : Ext K) (s : St (Ext K)) (ρ r : K) (x u p : Fin n → K),
    One M ρ r x u p s → c * tol ≤ r → ρ - lo < ((cfg.maxiter : K) - iter) * ((c * tol) ^ 2 / (2 * D)) →
    2 * (cfg.maxiter - iter) + (if singular then 0 else 1) ≤ fuel →
    ∃ o, loop cfg (fun iter singular s => pass (Ext.num sq) L cfg 1 iter singular (fun s => s.F.rows)
      (fun k S prev => column (Ext.num sq) A pc 1 n k S iter prev) s) fuel iter singular resid s =
        some (.ok o) ∧ o.status = SUCCESS := by
  intro fuel
  induction fuel with
  | zero =>
    intro iter singular resid s ρ r x u p hs hr hb hf
    exfalso
    have h1 := hlo x
    rw [hs.quot, hs.xx, mul_one] at h1
    have hD : 0 < D := hs.spread hsq hsq0 hM hlo hhi
    have h2 : ((cfg.maxiter : K) - iter) ≤ 0 := by
      have : cfg.maxiter ≤ iter := by omega
      have : (cfg.maxiter : K) ≤ iter := by exact_mod_cast this
      linarith
    have h3 : 0 < (c * tol) ^ 2 / (2 * D) := by positivity
    have := mul_nonpos_of_nonpos_of_nonneg h2 h3.le
    linarith
  | succ fuel ih =>
    intro iter singular resid s ρ r x u p hs hr hb hf
    have h1 := hlo x
    rw [hs.quot, hs.xx, mul_one] at h1
    have hD : 0 < D := hs.spread hsq hsq0 hM hlo hhi
    have hδ : 0 < (c * tol) ^ 2 / (2 * D) := by positivity
    have hit : iter < cfg.maxiter := by
      by_contra hge
      have : (cfg.maxiter : K) ≤ iter := by exact_mod_cast (by omega : cfg.maxiter ≤ iter)
      have := mul_nonpos_of_nonpos_of_nonneg (by linarith : (cfg.maxiter : K) - iter ≤ 0) hδ.le
      linarith
    unfold loop
    rw [if_pos hit]
    obtain ⟨P, hP, hcase⟩ := pass_one hsq hsq0 hA hmv hM hlo hhi hL hC htol htol0 hmin hpc hc0 hcT iter singular hs
    rw [hP]
    rcases hcase with ⟨o, rfl, ho⟩ | ⟨hi0, hsg, s', rfl, hs'⟩ | ⟨s', t, ω, r', y, u', p', rfl, hs', hr', hω⟩
    · exact ⟨o, rfl, ho⟩
    · refine ih iter true resid s' ρ r x u p hs' hr hb ?_
      subst hsg
      simp only [Bool.false_eq_true, if_false, if_true] at hf ⊢
      omega
    · refine ih (iter + 1) false t s' ω r' y u' p' hs' hr' ?_ ?_
      · have h2 : (c * tol) ^ 2 / (2 * D) ≤ r ^ 2 / (2 * D) := by
          apply div_le_div_of_nonneg_right _ (by positivity)
          exact pow_le_pow_left₀ (mul_pos hc0 htol0).le hr 2
        push_cast
        rw [sub_add_eq_sub_sub, sub_mul, one_mul]
        linarith
      · simp only [Bool.false_eq_true, if_false]
        split at hf <;> omega

/-- from the state after the initialisation -/
theorem start_one {s : St (Ext K)} {ρ r : K} {x u p : Fin n → K} (hs : One M ρ r x u p s)
    (hmax : 2 * D ^ 2 < ((cfg.maxiter : K) - 1) * (c * tol) ^ 2) {fuel : Nat} (hfuel : 2 * cfg.maxiter + 1 ≤ fuel) (resid : Ext K) :
    ∃ o, loop cfg (fun iter singular s => pass (Ext.num sq) L cfg 1 iter singular (fun s => s.F.rows)
      (fun k S prev => column (Ext.num sq) A pc 1 n k S iter prev) s) fuel 0 false resid s =
        some (.ok o) ∧ o.status = SUCCESS := by
  have hD : 0 < D := hs.spread hsq hsq0 hM hlo hhi
  have hpos : 0 < cfg.maxiter := by
    by_contra h0
    have : cfg.maxiter = 0 := by omega
    rw [this] at hmax
    have : 0 < (c * tol) ^ 2 := by positivity
    have : 0 < D ^ 2 := by positivity
    push_cast at hmax
    linarith
  obtain ⟨f, rfl⟩ : ∃ f, fuel = f + 1 := ⟨fuel - 1, by omega⟩
  unfold loop
  rw [if_pos hpos]
  obtain ⟨P, hP, hcase⟩ := pass_one hsq hsq0 hA hmv hM hlo hhi hL hC htol htol0 hmin hpc hc0 hcT 0 false hs
  rw [hP]
  rcases hcase with ⟨o, rfl, ho⟩ | ⟨hi0, _⟩ | ⟨s', t, ω, r', y, u', p', rfl, hs', hr', hω⟩
  · exact ⟨o, rfl, ho⟩
  · exact absurd rfl hi0
  · refine loop_one hsq hsq0 hA hmv hM hlo hhi hL hC htol htol0 hmin hpc hc0 hcT f 1 false t s' ω r' y u' p' hs' hr' ?_ ?_
    · have h1 := hhi y
      rw [hs'.quot, hs'.xx, mul_one] at h1
      have h2 : D < ((cfg.maxiter : K) - 1) * ((c * tol) ^ 2 / (2 * D)) := by
        rw [mul_div_assoc', lt_div_iff₀ (by positivity)]
        linarith [hmax, pow_two D, mul_comm D (2 * D), mul_assoc 2 D D]
      push_cast
      linarith
    · simp only [Bool.false_eq_true, if_false]
      omega

end

/-- What the user gets: a number and a vector of length 1 with a residual below the tolerance. -/
def Found (sq : K → K) (M : Matrix (Fin n) (Fin n) K) (tol : K) (out : Out (Ext K)) : Prop :=
  out.status = SUCCESS ∧ ∃ (lam : K) (v : Fin n → K), out.l = [.fin lam] ∧ out.x = [vec Ext.fin v] ∧ v ⬝ᵥ v = 1 ∧
    norm2 sq (M *ᵥ v - lam • v) < tol

/-- The same with a preconditioner: LOBPCG tests the preconditioned residual. -/
def FoundPre (sq : K → K) (M : Matrix (Fin n) (Fin n) K) (T : (Fin n → K) → Fin n → K) (tol : K) (out : Out (Ext K)) : Prop :=
  out.status = SUCCESS ∧ ∃ (lam : K) (v : Fin n → K), out.l = [.fin lam] ∧ out.x = [vec Ext.fin v] ∧ v ⬝ᵥ v = 1 ∧
    norm2 sq (T (M *ᵥ v - lam • v)) < tol

section

variable {sq : K → K} (hsq : ∀ a, 0 ≤ a → sq a * sq a = a) (hsq0 : ∀ a, 0 ≤ a → 0 ≤ sq a)
  {A : Mat (Ext K)} (hA : IsMat A Ext.fin M) (hmv : ∀ u, u.length = n → ∃ v, A.mv u = .ok v) (hM : Mᵀ = M)
  {lo D : K} (hlo : ∀ v : Fin n → K, lo * (v ⬝ᵥ v) ≤ v ⬝ᵥ (M *ᵥ v))
  (hhi : ∀ v : Fin n → K, v ⬝ᵥ (M *ᵥ v) ≤ (lo + D) * (v ⬝ᵥ v))
  {L : Lib (Ext K)} (hL : Dsygvd L) (hC : DsygvdCompletes L) {cfg : Cfg (Ext K)} {tol : K} (htol : cfg.tol = .fin tol)
  (htol0 : 0 < tol) (hmin : cfg.miniter = 0)

include hsq hsq0 hA hmv hM hlo hhi hL hC htol htol0 hmin

theorem converges_pre {pc : List (Ext K) → Res (List (Ext K))} {T : (Fin n → K) → Fin n → K} (hpc : Strict pc T)
    {c : K} (hc0 : 0 < c) (hcT : ∀ v : Fin n → K, c * (T v ⬝ᵥ T v) ≤ v ⬝ᵥ T v)
    (l0 : Ext K) {xin : List (Ext K)} {rs : Option (List (List (Ext K)))} {u : Fin n → K}
    (hinit : initial (Ext.num sq) 1 rs [xin] = [vec Ext.fin u]) (hrs : ∀ r, rs = some r → 1 ≤ r.length)
    (hu : u ⬝ᵥ u = 1) (hne : M *ᵥ u ≠ (u ⬝ᵥ (M *ᵥ u)) • u)
    (hmax : 2 * D ^ 2 < ((cfg.maxiter : K) - 1) * (c * tol) ^ 2) {fuel : Nat} (hfuel : 2 * cfg.maxiter + 1 ≤ fuel) :
    ∃ out, standard (Ext.num sq) L cfg A (.ok pc) [l0] [xin] n rs fuel = some (.ok out) ∧ FoundPre sq M T tol out := by
  have E := Ext.exact sq
  have hn : 0 < n := by
    rcases Nat.eq_zero_or_pos n with h | h
    · subst h
      simp [dotProduct] at hu
    · exact h
  have hr0 : norm2 sq (M *ᵥ u - (u ⬝ᵥ (M *ᵥ u)) • u) ≠ 0 := (norm2_pos hsq hsq0 (sub_ne_zero.mpr hne)).ne'
  have hrow : cassert (decide (A.row = n)) = .ok () := cassert_of (by simp [hA.row])
  have hiv : initVec (Ext.num sq) A n (vec Ext.fin u) = .ok (vec Ext.fin (M *ᵥ u),
      vec Ext.fin ((1 / norm2 sq (M *ᵥ u - (u ⬝ᵥ (M *ᵥ u)) • u)) • (M *ᵥ u - (u ⬝ᵥ (M *ᵥ u)) • u)),
      vec Ext.fin (M *ᵥ ((1 / norm2 sq (M *ᵥ u - (u ⬝ᵥ (M *ᵥ u)) • u)) • (M *ᵥ u - (u ⬝ᵥ (M *ᵥ u)) • u)))) := by
    have hone : (Ext.num sq).one = .fin 1 := rfl
    unfold initVec mvInto
    rw [hrow, Res.ok_bind, hA.mv, Res.ok_bind, dot_vec E, Res.ok_bind, axpyz_neg_vec E, Res.ok_bind]
    dsimp only
    rw [nrm2_vec E, hone, E.div _ _ hr0, scal_vec, Res.ok_bind, hA.mv, Res.ok_bind]
  have hzero : List.replicate n (Ext.fin (0 : K)) = vec Ext.fin (0 : Fin n → K) := by simp [vec, List.ofFn_const]
  have hrun : ∃ out, standard (Ext.num sq) L cfg A (.ok pc) [l0] [xin] n rs fuel = some (.ok out) ∧
      out.status = SUCCESS := by
    unfold standard
    have hz0 : (Ext.num sq).zero = .fin 0 := rfl
    simp only [List.length_singleton, hA.col, ne_eq, not_true_eq_false, if_false,  Res.ok_bind, hinit, mapRes,
      hiv, hz0, hzero, List.map_cons, List.map_nil]
    refine start_one hsq hsq0 hA hmv hM hlo hhi hL hC htol htol0 hmin hpc.app hc0 hcT
      (ρ := u ⬝ᵥ (M *ᵥ u)) (r := norm2 sq (M *ᵥ u - (u ⬝ᵥ (M *ᵥ u)) • u)) (x := u)
      (u := (1 / norm2 sq (M *ᵥ u - (u ⬝ᵥ (M *ᵥ u)) • u)) • (M *ᵥ u - (u ⬝ᵥ (M *ᵥ u)) • u)) (p := 0) ?_ hmax hfuel _
    have hR : 0 < norm2 sq (M *ᵥ u - (u ⬝ᵥ (M *ᵥ u)) • u) := lt_of_le_of_ne (hsq0 _ (dot_nonneg _)) (Ne.symm hr0)
    refine ⟨rfl, ?_, Nat.zero_lt_one, hu, unit_smul hsq hr0, rfl, ?_, hR⟩
    · simp [Matrix.mulVec_zero]
    · have h2 : norm2 sq (M *ᵥ u - (u ⬝ᵥ (M *ᵥ u)) • u) * norm2 sq (M *ᵥ u - (u ⬝ᵥ (M *ᵥ u)) • u) =
          (M *ᵥ u - (u ⬝ᵥ (M *ᵥ u)) • u) ⬝ᵥ (M *ᵥ u - (u ⬝ᵥ (M *ᵥ u)) • u) := hsq _ (dot_nonneg _)
      rw [smul_dotProduct, smul_eq_mul, ← h2, ← mul_assoc, one_div, inv_mul_cancel₀ hr0, one_mul]
  obtain ⟨out, h1, h2⟩ := hrun
  obtain ⟨lam, v, h3, h4, h5⟩ := C70_lobpcg_standard_success hn htol hA hpc (by simpa using hrs) h1 h2
  refine ⟨out, h1, h2, lam 0, v 0, ?_, ?_, Normalised.unit hsq (h5 0).2, (h5 0).1⟩
  · rw [h3]; simp [List.ofFn_succ]
  · rw [h4]; simp [List.ofFn_succ]

theorem converges_from (l0 : Ext K) {xin : List (Ext K)} {rs : Option (List (List (Ext K)))} {u : Fin n → K}
    (hinit : initial (Ext.num sq) 1 rs [xin] = [vec Ext.fin u]) (hrs : ∀ r, rs = some r → 1 ≤ r.length)
    (hu : u ⬝ᵥ u = 1) (hne : M *ᵥ u ≠ (u ⬝ᵥ (M *ᵥ u)) • u)
    (hmax : 2 * D ^ 2 < ((cfg.maxiter : K) - 1) * tol ^ 2) {fuel : Nat} (hfuel : 2 * cfg.maxiter + 1 ≤ fuel) :
    ∃ out, standard (Ext.num sq) L cfg A noPrecond [l0] [xin] n rs fuel = some (.ok out) ∧ Found sq M tol out :=
  converges_pre hsq hsq0 hA hmv hM hlo hhi hL hC htol htol0 hmin strict_id (c := 1) one_pos
    (by intro v; rw [one_mul]) l0 hinit hrs hu hne (by rw [one_mul]; exact hmax) hfuel

/-- **C120**, one vector, with a preconditioner that is a map `T` on finite vectors with `c ‖T v‖² ≤ v · T v`, and makes no
numbers out of infinities or NaN: from every vector of length 1 that is not an eigenvector, LOBPCG finds an eigenpair whose
preconditioned residual is below the tolerance once `(maxiter - 1) (c tol)² > 2 D²`. -/
theorem C120_converges_precond_partial {pc : List (Ext K) → Res (List (Ext K))} {T : (Fin n → K) → Fin n → K}
    (hpc : Strict pc T) {c : K} (hc0 : 0 < c) (hcT : ∀ v : Fin n → K, c * (T v ⬝ᵥ T v) ≤ v ⬝ᵥ T v) (l0 : Ext K)
    {u : Fin n → K} (hu : u ⬝ᵥ u = 1) (hne : M *ᵥ u ≠ (u ⬝ᵥ (M *ᵥ u)) • u)
    (hmax : 2 * D ^ 2 < ((cfg.maxiter : K) - 1) * (c * tol) ^ 2) {fuel : Nat} (hfuel : 2 * cfg.maxiter + 1 ≤ fuel) :
    ∃ out, standard (Ext.num sq) L cfg A (.ok pc) [l0] [vec Ext.fin u] n none fuel = some (.ok out) ∧
      FoundPre sq M T tol out :=
  converges_pre hsq hsq0 hA hmv hM hlo hhi hL hC htol htol0 hmin hpc hc0 hcT l0 rfl (by intro r h; cases h) hu hne hmax
    hfuel

/-- **C120**, one vector, no preconditioner: from every vector of length 1 that is not an eigenvector, LOBPCG finds an
eigenpair to the tolerance once `(maxiter - 1) tol² > 2 D²`, where the Rayleigh quotients of the matrix lie in
`[lo, lo + D]`. -/
theorem C120_converges_partial (l0 : Ext K) {u : Fin n → K} (hu : u ⬝ᵥ u = 1) (hne : M *ᵥ u ≠ (u ⬝ᵥ (M *ᵥ u)) • u)
    (hmax : 2 * D ^ 2 < ((cfg.maxiter : K) - 1) * tol ^ 2) {fuel : Nat} (hfuel : 2 * cfg.maxiter + 1 ≤ fuel) :
    ∃ out, standard (Ext.num sq) L cfg A noPrecond [l0] [vec Ext.fin u] n none fuel = some (.ok out) ∧
      Found sq M tol out :=
  converges_from hsq hsq0 hA hmv hM hlo hhi hL hC htol htol0 hmin l0 rfl (by intro r h; cases h) hu hne hmax hfuel

/-- **C120** with a random start vector `g`, whatever its length -/
theorem C120_converges_random_partial (l0 : Ext K) (xin : List (Ext K)) {g : Fin n → K} (hg : ∀ c : K, M *ᵥ g ≠ c • g)
    (hmax : 2 * D ^ 2 < ((cfg.maxiter : K) - 1) * tol ^ 2) {fuel : Nat} (hfuel : 2 * cfg.maxiter + 1 ≤ fuel) :
    ∃ out, standard (Ext.num sq) L cfg A noPrecond [l0] [xin] n (some [vec Ext.fin g]) fuel = some (.ok out) ∧
      Found sq M tol out := by
  have hg0 : g ≠ 0 := by
    intro h
    exact hg 0 (by rw [h, Matrix.mulVec_zero, smul_zero])
  have hng : norm2 sq g ≠ 0 := (norm2_pos hsq hsq0 hg0).ne'
  refine converges_from hsq hsq0 hA hmv hM hlo hhi hL hC htol htol0 hmin l0 (u := (1 / norm2 sq g) • g) ?_
    (by intro r h; cases h; simp) (unit_smul hsq hng) ?_ hmax hfuel
  · have E := Ext.exact sq
    have hone : (Ext.num sq).one = .fin 1 := rfl
    simp only [initial, List.take_succ_cons, List.take_zero, List.map_cons, List.map_nil]
    rw [nrm2_vec E, hone, E.div _ _ hng, scal_vec]
  · intro h
    generalize ((1 / norm2 sq g) • g) ⬝ᵥ (M *ᵥ ((1 / norm2 sq g) • g)) = c at h
    apply hg c
    rw [Matrix.mulVec_smul, smul_comm] at h
    have := congrArg (fun y => norm2 sq g • y) h
    simpa [smul_smul, mul_one_div_cancel hng, hng] using this

end

/-- a bound of the Rayleigh quotients: the sum of the absolute values of the entries -/
theorem quot_abs (M : Matrix (Fin n) (Fin n) K) (v : Fin n → K) :
    |v ⬝ᵥ (M *ᵥ v)| ≤ (∑ i, ∑ j, |M i j|) * (v ⬝ᵥ v) := by
  have h1 : ∀ i j, |v i * (M i j * v j)| ≤ |M i j| * (v ⬝ᵥ v) := by
    intro i j
    have hi : v i * v i ≤ v ⬝ᵥ v :=
      Finset.single_le_sum (f := fun i => v i * v i) (fun k _ => mul_self_nonneg _) (Finset.mem_univ i)
    have hj : v j * v j ≤ v ⬝ᵥ v :=
      Finset.single_le_sum (f := fun i => v i * v i) (fun k _ => mul_self_nonneg _) (Finset.mem_univ j)
    have e : v i * (M i j * v j) = M i j * (v i * v j) := by ring
    rw [e, abs_mul]
    refine mul_le_mul_of_nonneg_left ?_ (abs_nonneg _)
    rw [abs_le]
    constructor
    · nlinarith [mul_self_nonneg (v i + v j)]
    · nlinarith [mul_self_nonneg (v i - v j)]
  unfold dotProduct Matrix.mulVec
  refine le_trans (Finset.abs_sum_le_sum_abs _ _) ?_
  rw [Finset.sum_mul]
  refine Finset.sum_le_sum fun i _ => ?_
  unfold dotProduct
  rw [Finset.mul_sum, Finset.sum_mul]
  refine le_trans (Finset.abs_sum_le_sum_abs _ _) (Finset.sum_le_sum fun j _ => h1 i j)

/-- **C120** with nothing assumed about the matrix but its symmetry: there is an iteration count that is always enough,
`1 + 8 S² / tol²` where `S` is the sum of the absolute values of the entries. -/
theorem C120_converges_always_partial [Archimedean K] {sq : K → K} (hsq : ∀ a, 0 ≤ a → sq a * sq a = a)
    (hsq0 : ∀ a, 0 ≤ a → 0 ≤ sq a) {A : Mat (Ext K)} (hA : IsMat A Ext.fin M)
    (hmv : ∀ u, u.length = n → ∃ v, A.mv u = .ok v) (hM : Mᵀ = M) {tol : K} (htol0 : 0 < tol) :
    ∃ N : Nat, ∀ (L : Lib (Ext K)), Dsygvd L → DsygvdCompletes L → ∀ cfg : Cfg (Ext K), cfg.tol = .fin tol →
      cfg.miniter = 0 → N ≤ cfg.maxiter → ∀ (l0 : Ext K) (u : Fin n → K), u ⬝ᵥ u = 1 → (∀ c : K, M *ᵥ u ≠ c • u) →
      ∃ (fuel : Nat) (out : Out (Ext K)),
        standard (Ext.num sq) L cfg A noPrecond [l0] [vec Ext.fin u] n none fuel = some (.ok out) ∧
        Found sq M tol out := by
  obtain ⟨N, hN⟩ := exists_nat_gt (2 * (2 * ∑ i, ∑ j, |M i j|) ^ 2 / tol ^ 2)
  refine ⟨N + 1, fun L hL hC cfg htol hmin hmax l0 u hu hne => ⟨2 * cfg.maxiter + 1, ?_⟩⟩
  refine C120_converges_partial (lo := -(∑ i, ∑ j, |M i j|)) (D := 2 * ∑ i, ∑ j, |M i j|) hsq hsq0 hA hmv hM ?_ ?_ hL hC
    htol htol0 hmin l0 hu (hne _) ?_ (Nat.le_refl _)
  · intro v
    have := (abs_le.mp (quot_abs M v)).1
    linarith
  · intro v
    have := (abs_le.mp (quot_abs M v)).2
    linarith
  · have h2 : 0 < tol ^ 2 := by positivity
    rw [div_lt_iff₀ h2] at hN
    refine lt_of_lt_of_le hN (mul_le_mul_of_nonneg_right ?_ h2.le)
    have : ((N + 1 : Nat) : K) ≤ cfg.maxiter := by exact_mod_cast hmax
    push_cast at this
    linarith

end Verif.Lobpcg
