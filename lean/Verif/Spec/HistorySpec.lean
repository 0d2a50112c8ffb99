import Verif.Model.History

/-!
Specification of the residual history: what a user who only sees the printed lines, the return code and
`get_final_iter()`, `get_final_residual()` expects them to have to do with each other.
-/

namespace Verif.Spec

open Verif.Solver

variable {α : Type}

/-- the line shows a residual below the tolerance, after enough iterations -/
def Passes (N : Num α) (cfg : Cfg α) (l : Nat × α) : Prop :=
  N.lt l.2 cfg.tol = true ∧ cfg.miniter ≤ l.1

/-- The history and the result of a run agree: the lines are numbered 1, 2, 3, …; no line but the last
shows a reason to stop; the last one shows the reason given by the return code; and the number of lines
is the number of iterations (one less if the last iteration was left early by a breakdown). -/
structure Reports (N : Num α) (cfg : Cfg α) (h : History α) (o : Out α) : Prop where
  numbers : h.map Prod.fst = List.range' 1 h.length
  earlier : ∀ l ∈ h.dropLast, ¬ Passes N cfg l ∧ N.isNaN l.2 = false
  codes : o.status = SUCCESS ∨ o.status = RESIDUAL_NAN ∨ o.status = MAXITER ∨ o.status = BREAKDOWN
  success : o.status = SUCCESS ↔ ∃ l, h.getLast? = some l ∧ Passes N cfg l
  nan : o.status = RESIDUAL_NAN ↔ ∃ l, h.getLast? = some l ∧ ¬ Passes N cfg l ∧ N.isNaN l.2 = true
  maxiter : o.status = MAXITER → h.length = cfg.maxiter
  iters : o.finalIter = h.length + (if o.status = BREAKDOWN then 1 else 0)

/-- the result of a run, its history forgotten -/
def outcome (r : Res (Out α × History α)) : Res (Out α) := do
  let p ← r
  .ok p.1

end Verif.Spec
