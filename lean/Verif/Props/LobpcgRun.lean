import Verif.Props.LobpcgProg
import Mathlib.Data.Nat.Sqrt
import Mathlib.Data.Rat.Cast.Order
import Mathlib.Tactic.Positivity

/-!
Concrete runs for C104, over the rational numbers with a rounded square root.
-/

namespace Verif.Prog

open Verif.Spec Verif.Solver Verif.Lobpcg Matrix

/-- the square root of a rational number, rounded down, with relative error below one millionth -/
def ratSqrt (a : ℚ) : ℚ :=
  (Nat.sqrt (a.num.toNat * a.den * 1000000 ^ 2) : ℚ) / (a.den * 1000000)

theorem ratSqrt_near : NearSqrt ratSqrt (1 / 1000000) := by
  intro a ha
  unfold ratSqrt
  set N := a.num.toNat * a.den with hN
  set k := Nat.sqrt (N * 1000000 ^ 2) with hk
  have hd : (0 : ℚ) < a.den := by exact_mod_cast a.den_pos
  have haN : a = (N : ℚ) / (a.den : ℚ) ^ 2 := by
    have h1 : (a.num.toNat : ℚ) = (a.num : ℚ) := by
      have : ((a.num.toNat : ℤ) : ℚ) = (a.num : ℚ) := by
        rw [Int.toNat_of_nonneg (Rat.num_nonneg.mpr ha)]
      exact_mod_cast this
    rw [hN]
    push_cast
    rw [h1, eq_div_iff (by positivity), sq, ← mul_assoc, Rat.mul_den_eq_num]
  have haN' : ∀ c : ℚ, c * a = c * ((N : ℚ) / (a.den : ℚ) ^ 2) := fun c => by rw [← haN]
  have h1 : k * k ≤ N * 1000000 ^ 2 := Nat.sqrt_le _
  have h2 : N * 1000000 ^ 2 < (k + 1) * (k + 1) := Nat.lt_succ_sqrt _
  have e : ((k : ℚ) / (a.den * 1000000)) ^ 2 = (k : ℚ) ^ 2 / 1000000 ^ 2 / (a.den : ℚ) ^ 2 := by
    rw [div_pow, mul_pow, div_div, mul_comm]
  refine ⟨by positivity, ?_, ?_⟩
  · rw [e, haN']
    clear haN haN' e
    generalize (a.den : ℚ) = D at hd
    rw [mul_div_assoc', div_le_div_iff_of_pos_right (by positivity), le_div_iff₀ (by positivity)]
    rcases Nat.eq_zero_or_pos N with h0 | h0
    · rw [h0]
      simp
    · have h3 : 1000000 ≤ k := by
        rw [hk, Nat.le_sqrt]
        nlinarith
      have h2' : (N : ℚ) * 1000000 ^ 2 ≤ (k + 1) ^ 2 := by
        have : N * 1000000 ^ 2 ≤ (k + 1) ^ 2 := h2.le.trans (le_of_eq (sq _).symm)
        exact_mod_cast this
      have h3' : (1000000 : ℚ) ≤ k := by exact_mod_cast h3
      have h4 : (999999 * ((k : ℚ) + 1)) ^ 2 ≤ (1000000 * (k : ℚ)) ^ 2 :=
        pow_le_pow_left₀ (by positivity) (by linarith) 2
      nlinarith
  · rw [e, haN']
    clear haN haN' e
    generalize (a.den : ℚ) = D at hd
    rw [mul_div_assoc', div_le_div_iff_of_pos_right (by positivity), div_le_iff₀ (by positivity)]
    have h1' : (k : ℚ) ^ 2 ≤ N * 1000000 ^ 2 := by
      rw [sq]
      exact_mod_cast h1
    have : (0 : ℚ) ≤ N := by positivity
    nlinarith

/-- `diag(1, 2)` from `(3/5, 4/5)` -/
theorem near_run :
    standard (Ext.num ratSqrt) (answer [34/25, 12/25, 12/25, 41/25] [1, 0, 0, 1]
        ([q (-4/5), q (3/5), q (3/5), q (4/5)], [], [q 1, q 2], 0)) lobCfg
      (ofCrs [1, 0] [0, 1] (crsMap Ext.fin lobA)) noPrecond [q 0] [[q (3/5), q (4/5)]] 2 none 5 =
    some (.ok { status := SUCCESS, l := [q 1], x := [[q 1, q 0]], finalIter := 1, finalResid := q 0 }) := by
  decide +kernel

/-- the hypotheses of C104 are met by this run: `1` is near an eigenvalue of `diag(1, 2)` -/
example : ∃ lam : ℚ, [q 1][0]? = some (.fin lam) ∧ ∃ (mu : ℝ) (w : Fin 2 → ℝ), w ≠ 0 ∧
    ((Matrix.of (fun i j : Fin 2 => crsAt lobA i j)).map (Rat.castHom ℝ)) *ᵥ w = mu • w ∧
      |Rat.castHom ℝ lam - mu| ≤
        Rat.castHom ℝ (1 * (1 / 100000000) * ((1 + 1 / 1000000) / (1 - 1 / 1000000))) :=
  (C104_eigenvalues (n := 2) ratSqrt_near (by norm_num) (by norm_num) (Rat.castHom ℝ)
    Rat.cast_strictMono (by decide) rfl
    (isMat_crsExt lobA lobA_safe (by decide) rfl rfl [1, 0] [0, 1] (by unfold Order; decide) (by unfold Order; decide))
    (Matrix.ext (show ∀ i j : Fin 2, crsAt lobA j i = crsAt lobA i j by decide +kernel)) strict_id (κ := 1) (by norm_num) (fun u => by simp)
    (by intro r h; cases h) near_run rfl).2 0 (by decide)

/-- **the converse is not promised**: `diag(1, 2, 0)` has the eigenvalue 0, but from `(3/5, 4/5, 0)` the solver
succeeds with 1, the smallest eigenvalue of the part of the space its vectors stay in -/
def lobZ : Crs ℚ := ⟨3, 3, [0, 1, 2, 3], [0, 1, 2], [1, 2, 0], 3, 3, true⟩

theorem C104_smallest_violated :
    standard (Ext.num ratSqrt) (answer [34/25, 12/25, 12/25, 41/25] [1, 0, 0, 1]
        ([q (-4/5), q (3/5), q (3/5), q (4/5)], [], [q 1, q 2], 0)) lobCfg
      (ofCrs [0, 1, 2] [0, 1, 2] (crsMap Ext.fin lobZ)) noPrecond [q 0] [[q (3/5), q (4/5), q 0]] 3 none 5 =
    some (.ok { status := SUCCESS, l := [q 1], x := [[q 1, q 0, q 0]], finalIter := 1, finalResid := q 0 }) ∧
    (Matrix.of (fun i j : Fin 3 => crsAt lobZ i j)) *ᵥ ![0, 0, 1] = (0 : ℚ) • ![0, 0, 1] := by
  decide +kernel

/-! ### Runs of the example program -/

/-- a library that answers `r` to every `sygvd` -/
def saying (r : List (Ext ℚ) × List (Ext ℚ)) : Lapack.Lib (Ext ℚ) where
  getrf _ _ a _ := (a, [], 0)
  getrs _ _ _ _ _ _ b _ := (b, 0)
  sytrf _ _ a _ _ := (a, [], 0)
  sytrs _ _ _ _ _ _ b _ := (b, 0)
  syevd _ _ _ a _ := (a, [], 0)
  sygvd _ _ _ _ _ _ _ _ := (r.1, [], r.2, 0)

/-- the coefficients that make `(1, 1)` of the start `(1, 3/2)` -/
def one : List (Ext ℚ) × List (Ext ℚ) :=
  ([q (-2640623991299042489758200953478934228401893/9520905199787168822509127868011734375000000), q (24999978149611/18027755000000)],
   [q 9, q 11])

/-- the coefficients that make `(1, 0, -1, 0, 1)` and `(1, 1, 0, -1, -1)` of the start `(2, 1, -1, -1, 0)` -/
def two : List (Ext ℚ) × List (Ext ℚ) :=
  ([q (6286699235558689185888033815886432653701199/4801545853013265358548389124213000000000000), q (0/1), q (1000004937997/881917000000), q (0/1)] ++
   [q (-6286699235558689185888033815886432653701199/4801545853013265358548389124213000000000000), q (0/1), q (133332784667/88191700000), q (0/1)],
   [q 10, q 9, q 11, q 12])

def succeeded : Option (Res (Lobpcg.Out (Ext ℚ))) → Bool
  | some (.ok o) => o.status == SUCCESS
  | _ => false

theorem succeeded_iff {r : Option (Res (Lobpcg.Out (Ext ℚ)))} (h : succeeded r = true) :
    ∃ o, r = some (.ok o) ∧ o.status = SUCCESS := by
  unfold succeeded at h
  split at h
  · exact ⟨_, rfl, by simpa using h⟩
  · cases h

theorem one_success : succeeded (lobpcgSolve (Ext.num ratSqrt) Ext.fin (saying one) 2 1 10 (-1) (.fin (1 / 1000000))
    (q 1) (q 0) List.range List.range (fun _ => q 1) [[q 1, q (3/2)]] 5) = true := by
  decide +kernel

theorem two_success : succeeded (lobpcgSolve (Ext.num ratSqrt) Ext.fin (saying two) 5 2 10 (-1) (.fin (1 / 1000000))
    (q 1) (q 0) List.range List.range (fun _ => q 1) [[q 2, q 1, q (-1), q (-1), q 0], [q 1, q 0, q 0, q 0, q 1]] 5) =
    true := by
  decide +kernel

/-- the hypotheses of `C104_example_partial` are met: one eigenpair -/
example : ∃ (lam : ℚ) (v : Fin 2 → ℚ),
    lobpcgExample (Ext.num ratSqrt) Ext.fin (saying one) 2 1 10 (-1) (.fin (1 / 1000000)) (q 1) (q 0) List.range
        List.range (fun _ => q 1) [[q 1, q (3/2)]] 5 =
      some (.ok { code := 0
                  values := [([], Ext.fin lam)]
                  vectors := [List.ofFn fun j => ([], Ext.fin (v j))] }) := by
  obtain ⟨o, h, hs⟩ := succeeded_iff one_success
  obtain ⟨lam, v, e, -⟩ := C104_example_partial ratSqrt_near (by norm_num) (by norm_num) (Rat.castHom ℝ)
    Rat.cast_strictMono (saying one) (by decide) (by decide) (by norm_num) (fun n => List.Perm.refl _)
    (fun n => List.Perm.refl _) (by decide) h hs
  exact ⟨lam, v, e⟩

/-- the hypotheses of `C104_example_violated` and of `C104_example_repaired` are met: two eigenpairs -/
example : (∃ e, lobpcgExample (Ext.num ratSqrt) Ext.fin (saying two) 5 2 10 (-1) (.fin (1 / 1000000)) (q 1) (q 0)
      List.range List.range (fun _ => q 1) [[q 2, q 1, q (-1), q (-1), q 0], [q 1, q 0, q 0, q 0, q 1]] 5 =
      some (.ub e)) ∧
    ∃ r, lobpcgRepaired (Ext.num ratSqrt) Ext.fin (saying two) 5 2 10 (-1) (.fin (1 / 1000000)) (q 1) (q 0)
      List.range List.range (fun _ => q 1) [[q 2, q 1, q (-1), q (-1), q 0], [q 1, q 0, q 0, q 0, q 1]] 5 =
      some (.ok r) := by
  obtain ⟨o, h, hs⟩ := succeeded_iff two_success
  refine ⟨C104_example_violated ratSqrt_near (by norm_num) (by norm_num) (Rat.castHom ℝ)
    Rat.cast_strictMono (saying two) (by decide) (by decide) (by norm_num) (fun n => List.Perm.refl _)
    (fun n => List.Perm.refl _) (by decide) h hs (by decide), ?_⟩
  obtain ⟨lam, v, e, -⟩ := C104_example_repaired ratSqrt_near (by norm_num) (by norm_num) (Rat.castHom ℝ)
    Rat.cast_strictMono (saying two) (by decide) (by decide) (by norm_num) (fun n => List.Perm.refl _)
    (fun n => List.Perm.refl _) (by decide) h hs
  exact ⟨_, e⟩

end Verif.Prog
