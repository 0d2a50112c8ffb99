import Verif.Model.Viewer
import Verif.Spec.LoggerSpec

/-!
What the log viewer should show, in terms of the calls that were made (`Log.Forest`).
-/

namespace Verif.Log

/-- concatenation of forests -/
def Forest.append : Forest → Forest → Forest
  | .nil, g => g
  | .node k n ti te kids next, g => .node k n ti te kids (next.append g)

/-- the calls that are logged at this level; the inner calls of a call that is not logged move up -/
def Forest.prune (level : Nat) : Forest → Forest
  | .nil => .nil
  | .node k n ti te kids next =>
    if Logged level k then .node k n ti te (kids.prune level) (next.prune level)
    else (kids.prune level).append (next.prune level)

/-- all calls of a forest: path of names from the outermost call, duration -/
def Forest.calls : Forest → List (List String × Rat)
  | .nil => []
  | .node _ n ti te kids next =>
    kids.calls.map (fun c => (n :: c.1, c.2)) ++ ([n], ((te - ti : Int) : Rat)) :: next.calls

/-- the outermost calls, each with its inner calls -/
def Forest.tops : Forest → List Forest
  | .nil => []
  | .node k n ti te kids next => .node k n ti te kids .nil :: next.tops

/-- all names -/
def Forest.names : Forest → List String
  | .nil => []
  | .node _ n _ _ kids next => n :: (kids.names ++ next.names)

/-- a clock that does not run backwards: inner calls one after the other between start and end -/
def Forest.Timed (lo hi : Int) : Forest → Prop
  | .nil => lo ≤ hi
  | .node _ _ ti te kids next => lo ≤ ti ∧ kids.Timed ti te ∧ next.Timed te hi

end Verif.Log

namespace Verif.Viewer

/-- the paths that occur -/
def paths (C : List (List String × Rat)) : List (List String) := C.map (·.1)

/-- total duration of the calls with path `p` -/
def total (C : List (List String × Rat)) (p : List String) : Rat :=
  ((C.filter (fun c => c.1 = p)).map (·.2)).foldr (· + ·) 0

/-- number of calls with path `p` -/
def times (C : List (List String × Rat)) (p : List String) : Nat := (C.filter (fun c => c.1 = p)).length

/-- `p` has inner calls -/
def hasInner (C : List (List String × Rat)) (p : List String) : Prop :=
  ∃ q ∈ paths C, 2 ≤ q.length ∧ q.dropLast = p

/-- the share of the calls with path `p` in the time of the enclosing calls, in percent -/
def share (C : List (List String × Rat)) (p : List String) : Rat := total C p / total C p.dropLast * 100

/-- the outermost calls alone -/
def outer (F : Log.Forest) : List (List String × Rat) := F.calls.filter (fun c => c.1.length = 1)

/-- a call with path `p` is (in) a solver call: some name of the path ends with `solve` -/
def Solves (p : List String) : Prop := ∃ n ∈ p, "solve".toList <:+ n.toList

/-- the outermost call `t` contains a solver call -/
def HasSolve (t : Log.Forest) : Prop := ∃ p ∈ paths t.calls, Solves p

open Classical in
/-- the number of an outermost call among the outermost calls with a solver call, from 1 -/
noncomputable def rank (T : List Log.Forest) (i : Nat) : Nat :=
  ((List.range i).filter (fun j => ∃ t, T[j]? = some t ∧ HasSolve t)).length + 1

open Classical in
/-- the two numbers in the columns of layer `n + 1` in layer `n` for the calls with path `p`: 100 for a call of
layer `n` with inner calls; for a call of layer `n + 1` the share in the enclosing calls, and this per call. -/
noncomputable def columns (C : List (List String × Rat)) (p : List String) (n : Nat) : Option Rat × Option Rat :=
  if p.length = n ∧ hasInner C p then (some 100, some 100)
  else if p.length = n + 1 ∧ total C p.dropLast ≠ 0 then (some (share C p), some (share C p / times C p))
  else (none, none)

/-- `m` is the greatest depth of a call that is (in) a solver call, 0 if there is none -/
def Deepest (F : Log.Forest) (m : Nat) : Prop :=
  (∀ p ∈ paths F.calls, Solves p → p.length ≤ m) ∧ (m = 0 ∨ ∃ p ∈ paths F.calls, Solves p ∧ p.length = m)

/-- no name contains a slash (names are C++ identifiers and operator names; there is no `operator/`) -/
def Plain (F : Log.Forest) : Prop := ∀ n ∈ F.names, '/' ∉ n.toList

end Verif.Viewer
