import Verif.Props.LobpcgImproves
import Mathlib.Tactic.IntervalCases
import Mathlib.Tactic.FinCases
import Mathlib.Tactic.NormNum
import Mathlib.Tactic.Linarith
import Mathlib.Tactic.LinearCombination

/-! C119: consequences, concrete runs, and the errors of LAPACK the solver ignores. -/

namespace Verif.Lobpcg

open Spec Solver Lapack Matrix

section

variable {K : Type} [Field K] [LinearOrder K] [IsStrictOrderedRing K] {n : Nat} {M Q : Matrix (Fin n) (Fin n) K}

/-- Ritz values lie above every lower bound of the Rayleigh quotient, in particular above the smallest eigenvalue -/
theorem RitzPairs.ge {m : Nat} {lam : Fin m → K} {v : Fin m → Fin n → K} (h : RitzPairs M Q lam v) {μ : K}
    (hμ : ∀ u : Fin n → K, μ * (u ⬝ᵥ (Q *ᵥ u)) ≤ u ⬝ᵥ (M *ᵥ u)) (i : Fin m) : μ ≤ lam i := by
  have h1 := hμ (v i)
  rw [h.quot] at h1
  exact le_of_mul_le_mul_right h1 (h.pos i)

/-- The first number is at most the Rayleigh quotient of every vector the solver started from. -/
theorem Improves.first {m : Nat} {start : List (List (Ext K))} {lam : Fin m → K} (h : Improves M Q Ext.fin start lam)
    (hm : 0 < m) {j : Nat} {u : Fin n → K} (hu : start[j]? = some (vec Ext.fin u)) (hpos : 0 < u ⬝ᵥ (Q *ᵥ u)) :
    lam ⟨0, hm⟩ ≤ (u ⬝ᵥ (M *ᵥ u)) / (u ⬝ᵥ (Q *ᵥ u)) := by
  refine h ⟨0, hm⟩ (fun _ => j) (fun _ => u) _ (fun a b _ => Subsingleton.elim (α := Fin 1) a b) (fun _ => hu) ?_
  intro c
  have e : ∑ j, c j • u = c 0 • u := Fin.sum_univ_one (fun j : Fin 1 => c j • u)
  rw [e, form_smul, form_smul]
  rw [div_mul_eq_mul_div, mul_comm (u ⬝ᵥ (M *ᵥ u)), mul_assoc, mul_right_comm, mul_div_assoc]
  apply le_of_eq
  field_simp

/-- **C119** for a return code of success: then the vectors are finite. -/
theorem C119_lobpcg_success_partial {sq : K → K} (hn : 0 < n) {tol : K}
    {A : Mat (Ext K)} (hA : IsMat A Ext.fin M) (hM : Mᵀ = M) {L : Lib (Ext K)} (hL : Dsygvd L)
    {cfg : Cfg (Ext K)} (htol : cfg.tol = .fin tol) (hmax : 0 < cfg.maxiter)
    {pc : List (Ext K) → Res (List (Ext K))} {P : (Fin n → K) → Fin n → K} (hpc : Strict pc P)
    {l : List (Ext K)} {xin : List (List (Ext K))} {xcol : Nat} {rs : Option (List (List (Ext K)))}
    (hrs : ∀ r, rs = some r → l.length ≤ r.length) {fuel : Nat} {out : Out (Ext K)}
    (h : standard (Ext.num sq) L cfg A (.ok pc) l xin xcol rs fuel = some (.ok out))
    (hheard : standard (Ext.num sq) (loud l.length L) cfg A (.ok pc) l xin xcol rs fuel ≠
      some (.throw "internal LAPACK sygvd returned error"))
    (hst : out.status = SUCCESS) :
    ∃ (lam : Fin l.length → K) (v : Fin l.length → Fin n → K), out.l = List.ofFn (fun i => Ext.fin (lam i)) ∧
      out.x = List.ofFn (fun i => vec Ext.fin (v i)) ∧ RitzPairs M 1 lam v ∧
      Improves M 1 Ext.fin (startOf l.length rs xin) lam ∧ ∀ i, norm2 sq (P (M *ᵥ v i - lam i • v i)) < tol := by
  obtain ⟨lam0, v, h1, h2, h3⟩ := C70_lobpcg_standard_success hn htol hA hpc hrs h hst
  obtain ⟨lam, h4, h5, h6⟩ := C119_lobpcg_standard_partial hn hA hM hL hmax hrs h hheard
    (by rw [hst]; decide) h2
  refine ⟨lam, v, h4, h2, h5, h6, ?_⟩
  have : lam0 = lam := by
    rw [h1] at h4
    exact vec_inj h4
  rw [← this]
  exact fun i => (h3 i).1

end

/-! ### Concrete runs -/

/-- a library that gives one answer, a correct one -/
theorem dsygvd_answer {k : Nat} {a b z w : List ℚ} {e : List (Ext ℚ)} {info : Int} (ha : a.length = k * k)
    (h : info = 0 → ∃ e' : List ℚ, SygvdOk 1 false k a k b k (z, e', w, 0) ∧ SygvdNormal 1 false k b k k (z, e', w, 0)) :
    Dsygvd (answer a b (z.map q, e, w.map q, info)) := by
  intro k' a' b' ha' hb' h0
  have hinj : ∀ x y : List ℚ, x.map Ext.fin = y.map q → x = y := by
    intro x y hxy
    exact List.map_injective_iff.mpr (fun _ _ hh => Ext.fin.inj hh) hxy
  unfold answer at h0 ⊢
  dsimp only at h0 ⊢
  by_cases hc : a'.map Ext.fin = a.map q ∧ b'.map Ext.fin = b.map q
  · obtain ⟨c1, c2⟩ := hc
    have d1 := hinj _ _ c1
    have d2 := hinj _ _ c2
    subst d1; subst d2
    have hk : k' = k := by
      have : k' * k' = k * k := by rw [← ha', ha]
      exact Nat.mul_self_inj.mp this
    subst hk
    have hcond : (1 : Int) = 1 ∧ true = true ∧ false = false ∧ a'.map Ext.fin = a'.map q ∧ b'.map Ext.fin = b'.map q :=
      ⟨rfl, rfl, rfl, c1, c2⟩
    rw [if_pos hcond] at h0 ⊢
    obtain ⟨e', h1, h2⟩ := h h0
    exact ⟨z, e', w, rfl, rfl, h1, h2⟩
  · rw [if_neg (fun hh => hc ⟨hh.2.2.2.1, hh.2.2.2.2⟩)] at h0
    exact absurd h0 (by decide)

/-- the LAPACK of `lob_run` -/
def lobLib : Lib (Ext ℚ) :=
  answer [34/25, 12/25, 12/25, 41/25] [1, 0, 0, 1] ([q (-4/5), q (3/5), q (3/5), q (4/5)], [], [q 1, q 2], 0)

theorem lobLib_ok : Dsygvd lobLib := by
  refine dsygvd_answer (k := 2) (z := [-4/5, 3/5, 3/5, 4/5]) (w := [1, 2]) rfl fun _ => ⟨[1, 0, 0, 1], ?_, ?_⟩
  · refine ⟨⟨rfl, rfl⟩, ?_, fun _ => rfl, ?_, ?_, ?_⟩
    · intro hh; exact absurd hh (by decide)
    · intro _ k hk i hi
      interval_cases k <;> interval_cases i <;> decide +kernel
    · intro _ k hk
      interval_cases k
      · exact ⟨0, by decide, by decide +kernel⟩
      · exact ⟨0, by decide, by decide +kernel⟩
    · intro _ k l hkl hl
      interval_cases l <;> interval_cases k <;> decide +kernel
  · intro _
    rw [if_neg (by decide)]
    ext i j
    fin_cases i <;> fin_cases j <;> decide +kernel

/-- the matrix `diag(1, 2)` -/
def lobM : Matrix (Fin 2) (Fin 2) ℚ := Matrix.of (fun i j : Fin 2 => crsAt lobA i j)

/-- `lob_run` meets the hypotheses: from `(3/5, 4/5)`, with quotient 41/25, the solver gets to 1. -/
example : ∃ lam : Fin 1 → ℚ, [q 1] = List.ofFn (fun i => Ext.fin (lam i)) ∧
    RitzPairs lobM 1 lam (fun _ => ![1, 0]) ∧ Improves lobM 1 Ext.fin [[q (3/5), q (4/5)]] lam :=
  C119_lobpcg_standard_partial (n := 2) (sq := lobSq) (L := lobLib) (cfg := lobCfg) (create := noPrecond) (l := [q 0])
    (xin := [[q (3/5), q (4/5)]]) (xcol := 2) (rs := none) (fuel := 5) (by decide)
    (isMat_crsExt lobA lobA_safe (by decide) rfl rfl [1, 0] [0, 1] (by unfold Order; decide) (by unfold Order; decide))
    (by ext i j; fin_cases i <;> fin_cases j <;> decide +kernel) lobLib_ok (by decide) (by intro r h; cases h)
    lob_run
    (by decide +kernel) (by decide) (v := fun _ => ![1, 0]) (by decide +kernel)

/-- the LAPACK of `gen_run` -/
def genLib : Lib (Ext ℚ) := answer [169/625, 0, 0, 169/625] [73/100, 9/25, 9/25, 13/25] genAns

theorem genLib_ok : Dsygvd genLib := by
  refine dsygvd_answer (k := 2) (z := [4/5, 3/5, 6/5, -8/5]) (w := [169/625, 676/625]) rfl
    fun _ => ⟨[1, 0, 0, 1], ?_, ?_⟩
  · refine ⟨⟨rfl, rfl⟩, ?_, fun _ => rfl, ?_, ?_, ?_⟩
    · intro hh; exact absurd hh (by decide)
    · intro _ k hk i hi
      interval_cases k <;> interval_cases i <;> decide +kernel
    · intro _ k hk
      interval_cases k
      · exact ⟨0, by decide, by decide +kernel⟩
      · exact ⟨0, by decide, by decide +kernel⟩
    · intro _ k l hkl hl
      interval_cases l <;> interval_cases k <;> decide +kernel
  · intro _
    rw [if_neg (by decide)]
    ext i j
    fin_cases i <;> fin_cases j <;> decide +kernel

theorem genB_safe : genB.Safe :=
  { created := rfl, lenV := rfl, nnz_le := by decide, lenP := rfl, ptr_le := by decide,
    lenC := by decide, col_lt := by decide }

/-- `gen_run` meets the hypotheses: the pair returned, which is no eigenpair (C71), has the Rayleigh quotient it says. -/
example : ∃ lam : Fin 1 → ℚ, [q (169/625)] = List.ofFn (fun i => Ext.fin (lam i)) ∧
    RitzPairs (Matrix.of (fun i j : Fin 3 => crsAt genA i j)) (Matrix.of (fun i j : Fin 3 => crsAt genB i j)) lam
      (fun _ => ![3/5, 4/5, 0]) ∧
    Improves (Matrix.of (fun i j : Fin 3 => crsAt genA i j)) (Matrix.of (fun i j : Fin 3 => crsAt genB i j)) Ext.fin
      [[q 1, q 0, q 0]] lam :=
  C119_lobpcg_generalized_partial (n := 3) (sq := lobSq) (L := genLib) (cfg := lobCfg) (create := noPrecond) (l := [q 0])
    (xin := [[q 1, q 0, q 0]]) (xcol := 3) (itype := 1) (rs := none) (fuel := 5) (by decide)
    (isMat_crsExt genA genA_safe (by decide) rfl rfl [0, 1, 2] [0, 1, 2] (by unfold Order; decide)
      (by unfold Order; decide))
    (isMat_crsExt genB genB_safe (by decide) rfl rfl [0, 1, 2] [0, 1, 2] (by unfold Order; decide)
      (by unfold Order; decide))
    (by ext i j; fin_cases i <;> fin_cases j <;> decide +kernel)
    (by ext i j; fin_cases i <;> fin_cases j <;> decide +kernel) genLib_ok (by decide) (by intro r h; cases h)
    gen_run (by decide +kernel) (by decide) (v := fun _ => ![3/5, 4/5, 0]) (by decide +kernel)

/-! ### An error that is ignored -/

/-- `[[14, 2, 0], [2, 1, 1], [0, 1, 2]]` -/
def ignA : Crs ℚ := ⟨3, 3, [0, 2, 5, 7], [0, 1, 0, 1, 2, 1, 2], [14, 2, 2, 1, 1, 1, 2], 7, 7, true⟩

theorem ignA_safe : ignA.Safe :=
  { created := rfl, lenV := rfl, nnz_le := by decide, lenP := rfl, ptr_le := by decide,
    lenC := by decide, col_lt := by decide }

def ignM : Matrix (Fin 3) (Fin 3) ℚ := Matrix.of (fun i j : Fin 3 => crsAt ignA i j)

/-- the square roots of 1, 4, 9 and 121 -/
def ignSq (a : ℚ) : ℚ := if a = 4 then 2 else if a = 9 then 3 else if a = 121 then 11 else a

/-- the projected matrices of the first iteration from the first and the third unit vector: both residuals are multiples
of the second unit vector, so the matrix `S_b` is singular, its leading minor of order 2 is 0 -/
def ignSa : List ℚ := [1, 1, 2, 1, 1, 1, 2, 1, 2, 2, 14, 0, 1, 1, 0, 2]
def ignSb : List ℚ := [1, 1, 0, 0, 1, 1, 0, 0, 0, 0, 1, 0, 0, 0, 0, 1]

/-- `dsygvd` says `info = 4 + 2`: the leading minor of order 2 of `B` is not positive definite. `A` and `W` are as they
were. -/
def ignLib : Lib (Ext ℚ) := answer ignSa ignSb (ignSa.map q, ignSb.map q, [], 6)

def ignRun (L : Lib (Ext ℚ)) (cfg : Cfg (Ext ℚ)) : Option (Res (Out (Ext ℚ))) :=
  standard (Ext.num ignSq) L cfg (ofCrs [0, 1, 2] [0, 1, 2] (crsMap Ext.fin ignA)) noPrecond [q 0, q 0]
    [[q 1, q 0, q 0], [q 0, q 0, q 1]] 3 none 5

def ignCfg : Cfg (Ext ℚ) := { tol := .fin (1 / 100000000), maxiter := 1, omega := .fin 1, prevResid := .fin 0 }

theorem ignM_pos (u : Fin 3 → ℚ) (hu : u ≠ 0) : 0 < u ⬝ᵥ (ignM *ᵥ u) := by
  have e : u ⬝ᵥ (ignM *ᵥ u) = 2 * (u 2 + u 1 / 2) ^ 2 + (u 1 + 4 * u 0) ^ 2 / 2 + 6 * u 0 ^ 2 := by
    have m : ignM = !![14, 2, 0; 2, 1, 1; 0, 1, 2] := by
      ext i j
      fin_cases i <;> fin_cases j <;> decide +kernel
    rw [m]
    simp only [dotProduct, Matrix.mulVec, Fin.sum_univ_three, Matrix.of_apply, Matrix.cons_val]
    ring
  rw [e]
  by_contra hle
  have h1 := sq_nonneg (u 2 + u 1 / 2)
  have h2 := sq_nonneg (u 1 + 4 * u 0)
  have h3 := sq_nonneg (u 0)
  have z0 : u 0 = 0 := by
    have : u 0 ^ 2 = 0 := by linarith
    exact pow_eq_zero_iff (two_ne_zero) |>.mp this
  have z1 : u 1 = 0 := by
    have : (u 1 + 4 * u 0) ^ 2 = 0 := by linarith
    have := pow_eq_zero_iff (two_ne_zero) |>.mp this
    linarith
  have z2 : u 2 = 0 := by
    have : (u 2 + u 1 / 2) ^ 2 = 0 := by linarith
    have := pow_eq_zero_iff (two_ne_zero) |>.mp this
    linarith
  apply hu
  funext i
  fin_cases i
  · exact z0
  · exact z1
  · exact z2

/-- **C119, violated**: a symmetric positive definite matrix, orthonormal start vectors, and a LAPACK that works as
documented and says that the matrix `S_b` is not positive definite (`info = 6`). The solver goes on as if nothing had
happened and returns `MAXITER` with the numbers 0, 0 (which are no Rayleigh quotients of any vectors, all quotients
being positive) and twice the same vector. -/
theorem C119_not_without_error :
    ignMᵀ = ignM ∧ (∀ u : Fin 3 → ℚ, u ≠ 0 → 0 < u ⬝ᵥ (ignM *ᵥ u)) ∧ Dsygvd ignLib ∧
    (mat 2 (sym false ignSb 4)).det = 0 ∧
    (ignLib.sygvd 1 true false 4 (ignSa.map q) 4 (ignSb.map q) 4).2.2.2 = 6 ∧
    ignRun ignLib ignCfg = some (.ok { status := MAXITER, l := [q 0, q 0],
                                       x := [[q (2/3), q (2/3), q (1/3)], [q (2/3), q (2/3), q (1/3)]],
                                       finalIter := 1, finalResid := q 11 }) ∧
    ignRun (loud 2 ignLib) ignCfg = some (.throw "internal LAPACK sygvd returned error") ∧
    ¬ ∃ (lam : Fin 2 → ℚ) (v : Fin 2 → Fin 3 → ℚ), [q 0, q 0] = List.ofFn (fun i => Ext.fin (lam i)) ∧
      RitzPairs ignM 1 lam v := by
  refine ⟨?_, ignM_pos, ?_, ?_, by decide +kernel, by decide +kernel, by decide +kernel, ?_⟩
  · ext i j
    fin_cases i <;> fin_cases j <;> decide +kernel
  · exact dsygvd_answer (k := 4) (z := ignSa) (w := []) rfl (fun h => absurd h (by decide))
  · rw [Matrix.det_fin_two]
    decide +kernel
  · rintro ⟨lam, v, h1, h2⟩
    have h0 : lam 0 = 0 := by
      have := congrArg (fun l : List (Ext ℚ) => l[0]?) h1
      simp [q] at this
      exact this.symm
    have hq := h2.quot 0
    have hp := h2.pos 0
    rw [h0, zero_mul] at hq
    have hne : v 0 ≠ 0 := by
      intro hz
      rw [hz] at hp
      simp at hp
    have := ignM_pos (v 0) hne
    linarith

end Verif.Lobpcg
