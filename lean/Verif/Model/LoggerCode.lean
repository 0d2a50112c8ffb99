import Verif.Spec.LoggerSpec

/-!
# Control-flow skeletons of the logged functions

A C++ function body is reduced to what matters for the logger: entries, exits, branches, loops, returns
and exceptions.  Everything else is an opaque statement `op`, which may call other library functions and may
throw.  Conditions are not interpreted: both branches of an `if` are possible, and a loop runs any number of
times.  So the executions of a skeleton include all executions of the C++ function, and a theorem about all
executions of a skeleton holds for the function.
-/

namespace Verif
namespace Log

/-- Skeletons. `brk` stands for `break` and `continue`. -/
inductive Code
  | skip
  | op
  | enter (k : Kind)
  | leave (k : Kind)
  | seq (a b : Code)
  | ite (a b : Code)
  | loop (a : Code)
  | ret
  | thr
  | brk
  deriving DecidableEq, Repr

/-- Sequence of statements. -/
def seqs : List Code → Code
  | [] => .skip
  | [a] => a
  | a :: l => .seq a (seqs l)

/-- How a statement ends. -/
inductive Out
  | norm
  | ret
  | thr
  | brk
  deriving DecidableEq, Repr

/-- `Exec c t o`: an execution of `c` can make the logger calls `t` and end as `o`.

An opaque statement makes the calls of some forest (the functions it calls are assumed to be balanced when
they return), or it throws; an exception may leave a forest and any number of calls that were entered and
never left, in any order (`Unfinished`). -/
inductive Unfinished : List Ev → Prop
  | forest (f : Forest) : Unfinished f.events
  | more (f : Forest) (k : Kind) (n : String) (now : Int) {t : List Ev} :
      Unfinished t → Unfinished (f.events ++ .enter k n now :: t)

/-- Executions of a skeleton, see above. -/
inductive Exec : Code → List Ev → Out → Prop
  | skip : Exec .skip [] .norm
  | op (f : Forest) : Exec .op f.events .norm
  | opThr {t : List Ev} : Unfinished t → Exec .op t .thr
  | enter (k : Kind) (n : String) (now : Int) : Exec (.enter k) [.enter k n now] .norm
  | leave (k : Kind) (now : Int) : Exec (.leave k) [.leave k now] .norm
  | seqNorm {a b : Code} {t u : List Ev} {o : Out} :
      Exec a t .norm → Exec b u o → Exec (.seq a b) (t ++ u) o
  | seqStop {a b : Code} {t : List Ev} {o : Out} : Exec a t o → o ≠ .norm → Exec (.seq a b) t o
  | iteLeft {a b : Code} {t : List Ev} {o : Out} : Exec a t o → Exec (.ite a b) t o
  | iteRight {a b : Code} {t : List Ev} {o : Out} : Exec b t o → Exec (.ite a b) t o
  | loopDone {a : Code} : Exec (.loop a) [] .norm
  | loopNext {a : Code} {t u : List Ev} {o o' : Out} :
      Exec a t o → (o = .norm ∨ o = .brk) → Exec (.loop a) u o' → Exec (.loop a) (t ++ u) o'
  | loopStop {a : Code} {t : List Ev} {o : Out} : Exec a t o → (o = .ret ∨ o = .thr) → Exec (.loop a) t o
  | ret : Exec .ret [] .ret
  | thr : Exec .thr [] .thr
  | brk : Exec .brk [] .brk

/-- A function returns to its caller when its body ends normally or by `return`. -/
def Returns (c : Code) (t : List Ev) : Prop := Exec c t .norm ∨ Exec c t .ret

/-- A logged function of the library: file, first and last line, name and skeleton. -/
structure Fn where
  file : String
  first : Nat
  last : Nat
  name : String
  code : Code
  deriving DecidableEq, Repr

end Log
end Verif
