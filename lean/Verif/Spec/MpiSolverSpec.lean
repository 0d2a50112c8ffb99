import Verif.Model.MpiSolver

/-!
C108: vectors and matrices distributed over `P` processes, and what a distributed solve should do.
-/

namespace Verif.MpiSolver

open Verif.Solver

variable {α : Type} {P : Nat}

/-- the whole vector: the parts of the processes one after the other -/
def cat (x : Fin P → List α) : List α := (List.ofFn x).flatten

/-- process `i` holds `ns i` elements -/
def Shape (ns : Fin P → Nat) (x : Fin P → List α) : Prop := ∀ i, (x i).length = ns i

/-- the length of the whole -/
def total (ns : Fin P → Nat) : Nat := (List.ofFn ns).sum

/-- applying `f` to the whole vector is applying `fs i` to the part of each process -/
def Block (ns : Fin P → Nat) (fs : Fin P → List α → Res (List α)) (f : List α → Res (List α)) : Prop :=
  ∀ x, Shape ns x → ∃ y, Shape ns y ∧ (∀ i, fs i (x i) = .ok (y i)) ∧ f (cat x) = .ok (cat y)

/-- the same for a kernel with three arguments -/
def Block3 (ns : Fin P → Nat) (fs : Fin P → List α → List α → List α → Res (List α))
    (f : List α → List α → List α → Res (List α)) : Prop :=
  ∀ d t x, Shape ns d → Shape ns t → Shape ns x →
    ∃ y, Shape ns y ∧ (∀ i, fs i (d i) (t i) (x i) = .ok (y i)) ∧ f (cat d) (cat t) (cat x) = .ok (cat y)

/-- `A` is the block-diagonal matrix with the square blocks `As i` of size `ns i` -/
structure BlockMat (ns : Fin P → Nat) (As : Fin P → Mat α) (A : Mat α) : Prop where
  rows : ∀ i, (As i).row = ns i
  cols : ∀ i, (As i).col = ns i
  row : A.row = total ns
  col : A.col = total ns
  mv : Block ns (fun i => (As i).mv) A.mv
  diag : ∃ d, Shape ns d ∧ (∀ i, (As i).diag = .ok (d i)) ∧ A.diag = .ok (cat d)

/-- the preconditioner of the whole is that of each process on its part -/
def BlockPc (ns : Fin P → Nat) (creates : Fin P → Res (List α → Res (List α))) (create : Res (List α → Res (List α))) :
    Prop :=
  ∃ fs f, (∀ i, creates i = .ok (fs i)) ∧ create = .ok f ∧ Block ns fs f

/-- Solving on `P` processes is solving the whole: there is a result `o` of the whole solve, all processes arrive at the end
together, each with the same return code, iteration count and residual, and with its part of `x`. -/
def Agrees (comb : (Fin P → α) → α) (ns : Fin P → Nat) (ps : Fin P → Proc α (Out α)) (whole : Res (Out α)) : Prop :=
  ∃ (x : Fin P → List α) (status : Int) (iters : Nat) (resid : α), Shape ns x ∧
    whole = .ok { status := status, x := cat x, finalIter := iters, finalResid := resid } ∧
    Completes comb ps (fun i => .ok { status := status, x := x i, finalIter := iters, finalResid := resid })

/-- The numbers for the whole: as `N`, but the sums of the parts are combined by `Allreduce`. -/
structure Sums (N : Num α) (comb : (Fin P → α) → α) (ns : Fin P → Nat) (S : List α → α) : Prop where
  sum : ∀ x, Shape ns x → S (cat x) = comb (fun i => N.sum (x i))

/-- a matrix-vector product, or a preconditioner, that works for all vectors of length `n` -/
def Works (n : Nat) (f : List α → Res (List α)) : Prop := ∀ l, l.length = n → ∃ y, y.length = n ∧ f l = .ok y

/-- the matrix of a process can be used by the solvers -/
structure Good (n : Nat) (A : Mat α) : Prop where
  row : A.row = n
  col : A.col = n
  mv : Works n A.mv
  diag : ∃ d, d.length = n ∧ A.diag = .ok d

/-- all processes end together, with the same return code, iteration count and residual -/
def Together (comb : (Fin P → α) → α) (ns : Fin P → Nat) (ps : Fin P → Proc α (Out α)) : Prop :=
  ∃ (x : Fin P → List α) (status : Int) (iters : Nat) (resid : α), Shape ns x ∧
    Completes comb ps (fun i => .ok { status := status, x := x i, finalIter := iters, finalResid := resid })

end Verif.MpiSolver
