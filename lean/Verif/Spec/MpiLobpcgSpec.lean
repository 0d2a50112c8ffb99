import Verif.Model.MpiLobpcg
import Verif.Spec.MpiSolverSpec

/-!
C118: what LOBPCG called by all processes of an MPI job should do.
-/

namespace Verif.MpiLobpcg

open Verif.Solver Verif.Lapack Verif.MpiSolver

variable {α β : Type} {P : Nat}

/-- the result of a run on one process, `none` if it has not ended -/
def asRes : Option (Res β) → Res (Option β)
  | none => .ok none
  | some (.ok b) => .ok (some b)
  | some (.throw e) => .throw e
  | some (.abort e) => .abort e
  | some (.ub e) => .ub e

/-- `m` vectors of `n` elements -/
def Rows (m n : Nat) (x : List (List α)) : Prop := x.length = m ∧ ∀ v ∈ x, v.length = n

/-- LAPACK's `sygvd` answers every `k × k` problem with `k` eigenvalues and a `k × k` matrix of eigenvectors, and reports no
error -/
def Answers (L : Lib α) : Prop := ∀ (k : Nat) (a b : List α), a.length = k * k → b.length = k * k →
  (L.sygvd 1 true false k a k b k).1.length = k * k ∧ (L.sygvd 1 true false k a k b k).2.2.1.length = k ∧
  (L.sygvd 1 true false k a k b k).2.2.2 = 0

/-- All processes return, together, with the same return code (one of those documented), iteration count and residual. -/
def Return (comb : (Fin P → α) → α) (cfg : Cfg α) (m : Nat) (ns : Fin P → Nat)
    (ps : Fin P → Proc α (Option (Lobpcg.Out α))) : Prop :=
  ∃ (l : Fin P → List α) (x : Fin P → List (List α)) (status : Int) (iters : Nat) (resid : α),
    (∀ i, (l i).length = m) ∧ (∀ i, Rows m (ns i) (x i)) ∧
    (status = SUCCESS ∨ status = MAXITER ∨ status = RESIDUAL_NAN) ∧ iters ≤ cfg.maxiter ∧
    Completes comb ps (fun i => .ok (some { status := status, l := l i, x := x i, finalIter := iters, finalResid := resid }))

/-- what the user of several processes expects: they also agree about the eigenvalues -/
def SameEigenvalues (comb : (Fin P → α) → α) (ps : Fin P → Proc α (Option (Lobpcg.Out α))) : Prop :=
  ∀ o : Fin P → Lobpcg.Out α, Completes comb ps (fun i => .ok (some (o i))) → ∀ i j, (o i).l = (o j).l

/-- the job does not hang: there is a number of passes through the main loop after which all processes have returned -/
def Ends (comb : (Fin P → α) → α) (ps : Nat → Fin P → Proc α (Option (Lobpcg.Out α))) : Prop :=
  ∃ fuel, ∃ o : Fin P → Lobpcg.Out α, Completes comb (ps fuel) (fun i => .ok (some (o i)))

end Verif.MpiLobpcg
