import Verif.Props.LobpcgBlock
import Verif.Props.LobpcgUnit
import Verif.Props.LobpcgConvEx

/-! C119, C120: a run that meets the hypotheses of the theorems on several vectors. -/

namespace Verif.Lobpcg

open Spec Solver Lapack Matrix

/-- `realLib` gives no error LOBPCG ignores -/
theorem realLib_loud {m : Nat} (hm : 0 < m) : loud m realLib = realLib := by
  unfold loud
  have : (fun (itype : Int) vectors upper n a lda b ldb =>
      let r := realLib.sygvd itype vectors upper n a lda b ldb
      (r.1, r.2.1, r.2.2.1, if Ignored m n r.2.2.2 then (-1 : Int) else r.2.2.2)) = realLib.sygvd := by
    funext itype vectors upper n a lda b ldb
    have : ¬ Ignored m n (realLib.sygvd itype vectors upper n a lda b ldb).2.2.2 := by
      simp only [realLib, Ignored]
      split
      · simp only; omega
      · simp only; split <;> omega
    simp only [if_neg this]
  simp only [this]

/-- the hypotheses of `C120_block_partial` are met by the run of `two_run` -/
example : ∃ out, standard (Ext.num Real.sqrt) realLib
      { tol := .fin (1 / 10), maxiter := 1000, omega := .fin 1, prevResid := .fin 0 }
      (ofCrs [1, 0] [0, 1] (crsMap Ext.fin twoA)) noPrecond [.fin 0] [vec Ext.fin (![3/5, 4/5] : Fin 2 → ℝ)] 2 none 2001 =
        some (.ok out) ∧ (out.status = SUCCESS ∨ out.status = RESIDUAL_NAN) := by
  obtain ⟨out, h, -⟩ := two_run
  refine ⟨out, h, C120_block_partial (n := 2) (lo := 1) (D := 2) (tol := 1 / 10) (fun _ h => Real.mul_self_sqrt h)
    (fun _ _ => Real.sqrt_nonneg _) (by decide)
    (isMat_crsExt (n := 2) twoA twoA_safe twoA_distinct rfl rfl [1, 0] [0, 1] (by unfold Order; decide) (by unfold Order; decide))
    twoA_symm twoA_lo twoA_hi realLib_dsygvd rfl (by norm_num) rfl (fun r hr => by cases hr) (by norm_num) h ?_⟩
  rw [List.length_singleton, realLib_loud (by decide), h]
  simp

/-- and so are those of `C119_unit_vectors` and `C119_no_precond_partial` -/
example : ∃ out, standard (Ext.num Real.sqrt) realLib
      { tol := .fin (1 / 10), maxiter := 1000, omega := .fin 1, prevResid := .fin 0 }
      (ofCrs [1, 0] [0, 1] (crsMap Ext.fin twoA)) noPrecond [.fin 0] [vec Ext.fin (![3/5, 4/5] : Fin 2 → ℝ)] 2 none 2001 =
        some (.ok out) ∧ UnitVecs (K := ℝ) 2 1 out.x ∧ ∃ v : Fin 1 → Fin 2 → ℝ, ∃ lam : Fin 1 → ℝ,
          out.l = List.ofFn (fun i => Ext.fin (lam i)) ∧
          RitzPairs (Matrix.of fun i j : Fin 2 => crsAt twoA i j) 1 lam v := by
  obtain ⟨out, h, hf⟩ := two_run
  have hA := isMat_crsExt (n := 2) twoA twoA_safe twoA_distinct rfl rfl [1, 0] [0, 1] (by unfold Order; decide)
    (by unfold Order; decide)
  have hst : out.status ≠ RESIDUAL_NAN := by
    rw [hf.1]; decide
  refine ⟨out, h, C119_unit_vectors (n := 2) (fun _ h => Real.mul_self_sqrt h) (fun _ _ => Real.sqrt_nonneg _) (by decide) hA
    (by decide) (fun r hr => by cases hr) h hst, ?_⟩
  obtain ⟨v, lam, -, h1, -, h2, -⟩ := C119_no_precond_partial (n := 2) (fun _ h => Real.mul_self_sqrt h)
    (fun _ _ => Real.sqrt_nonneg _) (by decide) hA twoA_symm realLib_dsygvd (by decide) (fun r hr => by cases hr) h (by
      rw [List.length_singleton, realLib_loud (by decide), h]
      simp) hst
  exact ⟨v, lam, h1, h2⟩

end Verif.Lobpcg
