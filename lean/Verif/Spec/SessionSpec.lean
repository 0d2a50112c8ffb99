import Verif.Model.Session

/-!
Specification of solver objects: which settings are in force after a sequence of statements, and what a
call of `solve` has to return. Stated on the sequence of statements alone.
-/

namespace Verif.Spec

open Verif.Solver

variable {α : Type}

/-- where the history goes -/
inductive Dest | unset | stdout | file (name : String)
  deriving DecidableEq, Repr

/-- what the setters of one object set -/
structure Settings (α : Type) where
  lib : Nat := 0
  tol : α
  miniter : Nat := 0
  maxiter : Nat := 18446744073709551615
  residMethod : Nat := 0
  omega : α
  print : Bool := false
  dest : Dest := .unset
  create : Option Nat := none
  apply : Option Nat := none

/-- the effect of one statement on the settings of object `i` -/
def Settings.after (i : Nat) (s : Settings α) : Op α → Settings α
  | .setLib j l => if j = i then { s with lib := l } else s
  | .setTol j t => if j = i then { s with tol := t } else s
  | .setMiniter j m => if j = i then { s with miniter := m } else s
  | .setMaxiter j m => if j = i then { s with maxiter := m } else s
  | .setResidMethod j m => if j = i then { s with residMethod := m } else s
  | .setOmega j t => if j = i then { s with omega := t } else s
  | .setPrint j b => if j = i then { s with print := b, dest := .stdout } else s
  | .setFile j n => if j = i then { s with dest := .file n } else s
  | .setCreate j p => if j = i then { s with create := some p } else s
  | .setApply j p => if j = i then { s with apply := some p } else s
  | _ => s

/-- the settings of object `i` after a program: those of the last calls of its setters -/
def inForce (tol0 omega0 : α) (ops : List (Op α)) (i : Nat) : Settings α :=
  ops.foldl (Settings.after i) { tol := tol0, omega := omega0 }

/-- the classes of the objects in the order of their creation -/
def made (ops : List (Op α)) : List Kind :=
  ops.filterMap fun
    | .new k => some k
    | _ => none

/-- the program copies no solver object -/
def NoCopy (ops : List (Op α)) : Prop := ∀ i, Op.copy i ∉ ops

/-- the settings as the solvers see them; the counters of an earlier call are zero -/
def Settings.cfg (N : Num α) (s : Settings α) : Cfg α where
  lib := s.lib
  tol := s.tol
  miniter := s.miniter
  maxiter := s.maxiter
  residMethod := s.residMethod
  omega := s.omega
  prevIter := 0
  prevResid := N.zero

/-- a single call of `solve` of a class, with nothing before it (C29 to C32) -/
def single (N : Num α) (k : Kind) (cfg : Cfg α) (A : SMat α) (create : Res (List α → Res (List α)))
    (x b : List α) : Res (Out α) :=
  match k with
  | .none => .ok { status := 0, x := x, finalIter := cfg.prevIter, finalResid := cfg.prevResid }
  | .cg => CG.solve N cfg A.mat create x b
  | .bicg => BiCG.solve N cfg A.mat create x b
  | .jacobi => Jacobi.solve N cfg A.mat create x b
  | .sor => SOR.solve N cfg A.mat A.lower create x b

/-- a preconditioner of a class made for the matrix `A`, with nothing before it -/
def precondOf (N : Num α) (k : Kind) (omega : α) (A : SMat α) : Res (List α → Res (List α)) :=
  match k with
  | .jacobi => jacobiPrecond N A.mat
  | .sor => sorPrecond N omega A.mat A.prec
  | _ => .ok (fun r => Num.copyV r A.mat.row)

/-- If the matrix is square, `A.diag(M)` overwrites all of `M`, and nothing more. (Proved for CRS and
Dense in `C98_crs`, `C98_dense`.) -/
structure Overwrites (A : SMat α) : Prop where
  all : A.mat.row = A.mat.col → ∀ M : List α, M.length = A.mat.row → A.diagTo M = A.mat.diag
  len : A.mat.row = A.mat.col → ∀ d, A.mat.diag = .ok d → d.length = A.mat.row

/-- the objects a statement uses -/
def uses : Op α → List Nat
  | .new _ => []
  | .setLib i _ | .setTol i _ | .setMiniter i _ | .setMaxiter i _ | .setResidMethod i _ | .setOmega i _
  | .setPrint i _ | .setFile i _ | .solve i _ _ _ | .copy i | .destroy i => [i]
  | .setCreate i j | .setApply i j => [i, j]

/-- The lines `h` have gone to `d` and nothing else was written. Lines for a file that could not be
opened are dropped. -/
def Went (opens : String → Bool) (w w' : World α) (h : History α) : Dest → Prop
  | .unset => h = [] ∧ w'.cout = w.cout ∧ w'.files = w.files
  | .stdout => w'.cout = w.cout ++ h ∧ w'.files = w.files
  | .file name => w'.cout = w.cout ∧ ∃ id f, w.files[id]? = some f ∧ f.name = name ∧
      w'.files = w.files.set id { f with lines := f.lines ++ (if opens name then h else []) }

/-- the result of a statement as the program sees it -/
def seen (r : Res (World α × Eff α)) : Res (Out α) :=
  match r with
  | .ok (_, .ret out) => .ok out
  | .ok (_, .threw m) => .throw m
  | .ok (_, .done) => .ub "no result"
  | .throw m => .throw m
  | .abort m => .abort m
  | .ub m => .ub m

end Verif.Spec
