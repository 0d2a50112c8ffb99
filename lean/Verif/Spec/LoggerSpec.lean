import Verif.Model.Logger

/-!
# What the logger should do

Independent of the stacks in the code: an execution is a *forest* of calls (each call has a kind, a name, a
start time, an end time and a list of inner calls), and the log that should be written for it is given by
recursion on this forest.
-/

namespace Verif
namespace Log

/-- A finite ordered forest of calls: the first call with its inner calls, and the following calls. -/
inductive Forest
  | nil
  | node (k : Kind) (name : String) (tin tout : Int) (kids next : Forest)
  deriving Repr

/-- Documented log levels (`monolish_logger.hpp:66-72`): 1 logs solvers, 2 also BLAS functions, 3 also
utilities. -/
def Logged (level : Nat) : Kind → Bool
  | .solver => 1 ≤ level
  | .func => 2 ≤ level
  | .util => 3 ≤ level

/-- The logger calls made by a forest, in time order. -/
def Forest.events : Forest → List Ev
  | .nil => []
  | .node k n ti to kids next => .enter k n ti :: (kids.events ++ .leave k to :: next.events)

/-- The log expected for a forest of calls made while the calls `path` are running: one line when a solver
starts and one line when a logged call ends, with the names of all logged calls that are running and the
duration of the call.  Calls that are not logged at this level leave no trace, but their inner calls do. -/
def Forest.lines (level : Nat) (path : List String) : Forest → List Line
  | .nil => []
  | .node k n ti to kids next =>
    (if Logged level k then
      (if k = .solver then [⟨k, path ++ [n], .start⟩] else []) ++ kids.lines level (path ++ [n]) ++
        [⟨k, path ++ [n], .finish (to - ti)⟩]
    else kids.lines level path) ++ next.lines level path

/-- A sequence of logger calls is *balanced* if it is the sequence of some forest of calls: every entry is
matched by exactly one exit, of the same kind, and calls are properly nested. -/
def Balanced (t : List Ev) : Prop := ∃ f : Forest, t = f.events

/-- Number of entries in a sequence that are logged at this level. -/
def entries (level : Nat) (t : List Ev) : Nat :=
  t.countP (fun e => match e with
    | .enter k _ _ => Logged level k
    | .leave _ _ => false)

/-- Number of exits in a sequence that are logged at this level. -/
def exits (level : Nat) (t : List Ev) : Nat :=
  t.countP (fun e => match e with
    | .enter _ _ _ => false
    | .leave k _ => Logged level k)

/-- An interleaving of two sequences of logger calls (two threads). -/
inductive Shuffle : List Ev → List Ev → List Ev → Prop
  | nil : Shuffle [] [] []
  | left {a b c : List Ev} (e : Ev) : Shuffle a b c → Shuffle (e :: a) b (e :: c)
  | right {a b c : List Ev} (e : Ev) : Shuffle a b c → Shuffle a (e :: b) (e :: c)

end Log
end Verif
