import Verif.Model.History
import Verif.Model.SolverMat

/-!
Solver objects over their lifetime: a program creates solver objects, calls their setters, registers one
object as the preconditioner of another, calls `solve` any number of times with any matrices, copies and
destroys objects. An exception is caught by the program and leaves the objects as they are at that point.
Host side (no device memory).
-/

namespace Verif.Solver

variable {α : Type}

/-- the solver classes with an iterative solver or a usable preconditioner: include/monolish_equation.hpp:41-306 -/
inductive Kind | none | cg | bicg | jacobi | sor
  deriving DecidableEq, Repr

/-- A matrix argument with what the preconditioners need: `diagTo M` is `A.diag(M)` as a function of
the old contents of `M`, `lower d t r` is `sor_kernel_lower(A, d, t, r)`, `prec M z r` is
`sor_kernel_precond(A, M, z, r)`. -/
structure SMat (α : Type) where
  mat : Mat α
  diagTo : List α → Res (List α)
  lower : List α → List α → List α → Res (List α)
  prec : List α → List α → List α → Res (List α)

/-- a CRS matrix (`order`, `zo`: schedules of the parallel loops of `matvec` and `diag`) -/
def smatCrs [Zero α] [One α] [Add α] [Mul α] (N : Num α) (order zo : List Nat) (A : Crs α) : SMat α where
  mat := ofCrs order zo A
  diagTo M := do
    let d ← A.diag zo order ⟨M, 0, M.length⟩
    .ok d.buf
  lower := crsLower N A
  prec := crsPrecond N A

/-- a Dense matrix -/
def smatDense [Zero α] [One α] [Add α] [Mul α] (N : Num α) (order : List Nat) (A : Dense α) : SMat α where
  mat := ofDense order A
  diagTo M := do
    let d ← A.diag order ⟨M, 0, M.length⟩
    .ok d.buf
  lower := denseLower N A
  prec := densePrecond N A

/-- `rhistory_stream`: not initialised, `&std::cout`, or the result of a `new std::ofstream` -/
inductive Sink | unset | cout | file (id : Nat)
  deriving DecidableEq, Repr

/-- The fields of a solver object: include/monolish_solver.hpp:35-54, 235-251. `create`, `apply` hold
the object that `set_create_precond`, `set_apply_precond` bound by reference (`none`: the default
functions); `named` says whether `rhistory_file` is not empty; `M`, `A` are `precond.M`, `precond.A`. -/
structure Obj (α : Type) where
  kind : Kind
  lib : Nat := 0
  tol : α
  miniter : Nat := 0
  maxiter : Nat := 18446744073709551615
  residMethod : Nat := 0
  omega : α
  print : Bool := false
  named : Bool := false
  sink : Sink := .unset
  finalIter : Nat := 0
  finalResid : α
  create : Option Nat := .none
  apply : Option Nat := .none
  M : List α := []
  A : Option (SMat α) := .none

/-- An `std::ofstream` on the heap: the file name, the lines written so far, whether it could be opened,
whether it has been deleted -/
structure File (α : Type) where
  name : String
  lines : History α := []
  good : Bool
  deleted : Bool := false
  deriving DecidableEq, Repr

/-- objects (`none`: destroyed), what went to the standard output, the streams created so far -/
structure World (α : Type) where
  objs : List (Option (Obj α)) := []
  cout : History α := []
  files : List (File α) := []

/-- the statements of the program -/
inductive Op (α : Type)
  | new (k : Kind)
  | setLib (i l : Nat)
  | setTol (i : Nat) (t : α)
  | setMiniter (i m : Nat)
  | setMaxiter (i m : Nat)
  | setResidMethod (i m : Nat)
  | setOmega (i : Nat) (w : α)
  | setPrint (i : Nat) (b : Bool)
  | setFile (i : Nat) (name : String)
  | setCreate (i j : Nat)
  | setApply (i j : Nat)
  | solve (i : Nat) (A : SMat α) (x b : List α)
  | copy (i : Nat)
  | destroy (i : Nat)

/-- what the program sees of a statement -/
inductive Eff (α : Type)
  | done
  | ret (out : Out α)
  | threw (msg : String)

/-- use of an object: undefined behaviour once it is destroyed -/
def World.obj (w : World α) (i : Nat) : Res (Obj α) :=
  match w.objs[i]? with
  | some (some o) => .ok o
  | _ => .ub "no such object"

/-- the object `i` after a change of its fields -/
def World.put (w : World α) (i : Nat) (o : Obj α) : World α := { w with objs := w.objs.set i (some o) }

/-- a setter -/
def World.modify (w : World α) (i : Nat) (f : Obj α → Obj α) : Res (World α × Eff α) := do
  let o ← w.obj i
  .ok (w.put i (f o), .done)

/-- the settings a call of `solve` reads -/
def Obj.cfg (o : Obj α) : Cfg α where
  lib := o.lib
  tol := o.tol
  miniter := o.miniter
  maxiter := o.maxiter
  residMethod := o.residMethod
  omega := o.omega
  prevIter := o.finalIter
  prevResid := o.finalResid

/-- `M.resize(n)`: include/monolish/common/monolish_vector.hpp:446-465 (C05): the old elements are kept -/
def resizeV (N : Num α) (M : List α) (n : Nat) : List α := M.take n ++ List.replicate (n - M.length) N.zero

/-- `create_precond(A)` of the object `p`: none.cpp, jacobi.cpp:13-33, sor.cpp:13-40; the solvers
without preconditioner throw (include/monolish_equation.hpp:103-105). The result is the changed object. -/
def Obj.createPrecond (N : Num α) (p : Obj α) (A : SMat α) : Res (Obj α) :=
  match p.kind with
  | .none => .ok p
  | .jacobi =>
    if A.mat.row ≠ A.mat.col then .throw "error A.row != A.col"
    else do
      let M ← A.diagTo (resizeV N p.M A.mat.row)
      .ok { p with M := N.reciprocal M }
  | .sor =>
    if A.mat.row ≠ A.mat.col then .throw "error A.row != A.col"
    else do
      let M ← A.diagTo (resizeV N p.M A.mat.row)
      .ok { p with
        M := N.reciprocal (M.map (N.mul p.omega))
        A := some A }
  | _ => .throw "this precond. is not impl."

/-- `apply_precond(r, z)` of the object `p` (`z` has been allocated with as many elements as the matrix
of the solve has rows): none.cpp, jacobi.cpp:54-62, sor.cpp:60-68 -/
def Obj.applyPrecond (N : Num α) (row : Nat) (p : Obj α) (r : List α) : Res (List α) :=
  match p.kind with
  | .none => Num.copyV r row
  | .jacobi => N.vmul p.M r row
  | .sor =>
    match p.A with
    | some A => A.prec p.M (List.replicate row N.zero) r
    | .none => .ub "precond.A"
  | _ => .throw "this precond. is not impl."

/-- `this->precond.create_precond(A)`: the bound function, or the default that does nothing
(include/monolish_solver.hpp:247-250) -/
def World.create (N : Num α) (w : World α) (o : Obj α) (A : SMat α) : Res (World α) :=
  match o.create with
  | .none => .ok w
  | some j => do
    let p ← w.obj j
    let p ← p.createPrecond N A
    .ok (w.put j p)

/-- `this->precond.apply_precond(r, z)`: the bound function, or the default `z = r` -/
def World.apply (N : Num α) (w : World α) (o : Obj α) (row : Nat) (r : List α) : Res (List α) :=
  match o.apply with
  | .none => .ok r
  | some j => do
    let p ← w.obj j
    p.applyPrecond N row r

/-- `solve` of the class `k`, with its history. `none::solve` does nothing: none.cpp -/
def Kind.solveH (N : Num α) (k : Kind) (cfg : Cfg α) (A : SMat α)
    (create : Res (List α → Res (List α))) (print : Bool) (x b : List α) : Res (Out α × History α) :=
  match k with
  | .none => .ok ({ status := 0, x := x, finalIter := cfg.prevIter, finalResid := cfg.prevResid }, [])
  | .cg => CG.solveH N cfg A.mat create print x b
  | .bicg => BiCG.solveH N cfg A.mat create print x b
  | .jacobi => Jacobi.solveH N cfg A.mat create print x b
  | .sor => SOR.solveH N cfg A.mat A.lower create print x b

/-- Writing lines to the history stream. An `ofstream` in a failed state drops them. -/
def World.write (w : World α) (s : Sink) (h : History α) : Res (World α) :=
  if h.isEmpty then .ok w
  else match s with
    | .unset => .ub "rhistory_stream"
    | .cout => .ok { w with cout := w.cout ++ h }
    | .file id =>
      match w.files[id]? with
      | some f =>
        if f.deleted then .ub "rhistory_stream"
        else if f.good then .ok { w with files := w.files.set id { f with lines := f.lines ++ h } }
        else .ok w
      | .none => .ub "rhistory_stream"

/-- does `solve` of this object call `create_precond(A)`: cg.cpp:16-36, bicgstab.cpp, jacobi.cpp:87-112,
sor.cpp (the size check comes first; another library is not implemented and does nothing) -/
def Obj.creates (o : Obj α) (A : SMat α) : Bool :=
  decide (o.kind ≠ .none ∧ o.lib = 0 ∧ A.mat.row = A.mat.col)

/-- A call `objs[i].solve(A, x, b)`. An exception thrown by `create_precond` or by the iteration is
caught by the program (no line has been written then: the only exceptions in an iteration come from
the residual method and the preconditioner, and stop the first iteration). -/
def World.solve (N : Num α) (w : World α) (i : Nat) (A : SMat α) (x b : List α) :
    Res (World α × Eff α) := do
  let o ← w.obj i
  match (if o.creates A then w.create N o A else .ok w) with
  | .throw m => .ok (w, .threw m)
  | .abort m => .abort m
  | .ub m => .ub m
  | .ok w =>
    match o.kind.solveH N o.cfg A (.ok (w.apply N o A.mat.row)) o.print x b with
    | .throw m => .ok (w, .threw m)
    | .abort m => .abort m
    | .ub m => .ub m
    | .ok (out, h) => do
      let o' ← w.obj i
      let w ← (w.put i { o' with
        finalIter := out.finalIter
        finalResid := out.finalResid }).write o.sink h
      .ok (w, .ret out)

/-- `~solver()`: include/monolish_solver.hpp:64-68 -/
def World.destroy (w : World α) (i : Nat) : Res (World α × Eff α) := do
  let o ← w.obj i
  let dead : World α := { w with objs := w.objs.set i .none }
  if o.sink ≠ .cout ∧ o.named = true then
    match o.sink with
    | .file id =>
      match w.files[id]? with
      | some f =>
        if f.deleted then .ub "double delete"
        else .ok ({ dead with files := w.files.set id { f with deleted := true } }, .done)
      | .none => .ub "delete"
    | _ => .ub "delete"
  else .ok (dead, .done)

/-- One statement. `opens name` says whether a file of this name can be opened; `tol0`, `omega0` are the
default tolerance and relaxation factor (1.0e-8 and 1.9), include/monolish_solver.hpp:35-48.
Setters: include/monolish_solver.hpp:76-170; src/equation/precond.cpp:9-17. -/
def World.step (N : Num α) (opens : String → Bool) (tol0 omega0 : α) (w : World α) :
    Op α → Res (World α × Eff α)
  | .new k =>
    .ok ({ w with objs := w.objs ++ [some { kind := k, tol := tol0, omega := omega0, finalResid := N.zero }] },
      .done)
  | .setLib i l => w.modify i (fun o => { o with lib := l })
  | .setTol i t => w.modify i (fun o => { o with tol := t })
  | .setMiniter i m => w.modify i (fun o => { o with miniter := m })
  | .setMaxiter i m => w.modify i (fun o => { o with maxiter := m })
  | .setResidMethod i m => w.modify i (fun o => { o with residMethod := m })
  | .setOmega i t => w.modify i (fun o => { o with omega := t })
  | .setPrint i b => w.modify i (fun o => { o with
      print := b
      sink := .cout })
  | .setFile i name => do
    let o ← w.obj i
    let w := w.put i { o with
      named := decide (name ≠ "")
      sink := .file w.files.length }
    .ok ({ w with files := w.files ++ [{ name := name, good := opens name }] },
      if opens name then .done else .threw "error bad filename")
  | .setCreate i j => do
    let _ ← w.obj j
    w.modify i (fun o => { o with create := some j })
  | .setApply i j => do
    let _ ← w.obj j
    w.modify i (fun o => { o with apply := some j })
  | .solve i A x b => w.solve N i A x b
  | .copy i => do
    let o ← w.obj i
    .ok ({ w with objs := w.objs ++ [some o] }, .done)
  | .destroy i => w.destroy i

/-- a program -/
def World.run (N : Num α) (opens : String → Bool) (tol0 omega0 : α) (w : World α) :
    List (Op α) → Res (World α)
  | [] => .ok w
  | op :: ops => do
    let p ← w.step N opens tol0 omega0 op
    World.run N opens tol0 omega0 p.1 ops

end Verif.Solver
