import Verif.Core.Res

/-!
# The logger

Model of the logger singleton: `src/utils/system/logger_utils.cpp:7-177` and
`include/monolish/common/monolish_logger.hpp:33-115`.

Every public function of the library calls `solver_in`/`func_in`/`util_in` at its beginning and the
matching `_out` before it returns.  An execution of library code is seen here as the sequence of these
calls (`Ev`).

Simplifications: the printed characters are abstracted to `Line` (kind of the line, path, status); the
wall clock is an integer carried by each event; the output stream (console or file, `set_log_filename`)
is the list of lines; the GPU synchronisation is not modelled.
-/

namespace Verif
namespace Log

/-- The three kinds of logged functions (`monolish_logger.hpp:103-113`). -/
inductive Kind
  | solver
  | func
  | util
  deriving DecidableEq, Repr

/-- The smallest log level at which functions of this kind are logged
(`logger_utils.cpp:8,40,78,96,135,153`). -/
def Kind.level : Kind → Nat
  | .solver => 1
  | .func => 2
  | .util => 3

/-- A call of `X_in(name)` or `X_out()`, with the reading of the clock at that time. -/
inductive Ev
  | enter (k : Kind) (name : String) (now : Int)
  | leave (k : Kind) (now : Int)
  deriving DecidableEq, Repr

/-- What a log line reports: the start of a solver, or the end of a function and its duration. -/
inductive Stat
  | start
  | finish (time : Int)
  deriving DecidableEq, Repr

/-- A log line: type, name (the whole call path), status. -/
structure Line where
  kind : Kind
  path : List String
  stat : Stat
  deriving DecidableEq, Repr

/-- The logger object (`monolish_logger.hpp:46-52`): `calls`, `times`, `LogLevel` and what has been
written to the stream. -/
structure State where
  level : Nat
  calls : List String
  times : List Int
  log : List Line
  deriving DecidableEq, Repr

/-- `set_log_level` (`monolish_logger.hpp:75-80`). -/
def setLevel (s : State) (l : Nat) : Res State :=
  if 3 < l then .throw "error bad LogLevel" else .ok { s with level := l }

/-- `solver_in`, `func_in`, `util_in` (`logger_utils.cpp:7-37, 77-90, 134-147`): push the name and the
clock; `solver_in` also writes a line. -/
def enter (k : Kind) (name : String) (now : Int) (s : State) : State :=
  if k.level ≤ s.level then
    let calls := s.calls ++ [name]
    let line := if k = .solver then [⟨k, calls, .start⟩] else []
    { s with calls := calls, times := s.times ++ [now], log := s.log ++ line }
  else s

/-- `solver_out`, `func_out`, `util_out` (`logger_utils.cpp:39-74, 92-131, 149-177`): write the path and
the time since the last recorded clock, `times[times.size() - 1]`, then pop both stacks.  Reading
`times[-1]` and popping an empty vector are undefined behaviour. -/
def leave (k : Kind) (now : Int) (s : State) : Res State :=
  if k.level ≤ s.level then
    match s.times.getLast? with
    | none => .ub "times[-1]"
    | some t =>
      if s.calls = [] then .ub "pop_back on an empty vector"
      else .ok
        { s with
          calls := s.calls.dropLast
          times := s.times.dropLast
          log := s.log ++ [⟨k, s.calls, .finish (now - t)⟩] }
  else .ok s

/-- One logger call. -/
def step (e : Ev) (s : State) : Res State :=
  match e with
  | .enter k n t => .ok (enter k n t s)
  | .leave k t => leave k t s

/-- A sequence of logger calls. -/
def run : List Ev → State → Res State
  | [], s => .ok s
  | e :: t, s => do
    let s ← step e s
    run t s

/-! ## Logger calls of some functions, as functions of their arguments -/

/-- `vector::equal` and `operator==` on vectors without device memory (`src/utils/compare/compare_vector.cpp:10-36`):
result and logger calls.  `now` is the clock, the comparison of the values stands for `internal::vequal`. -/
def vectorEqual {α : Type} [DecidableEq α] (x y : List α) (t0 t1 : Int) : Bool × List Ev :=
  if x.length ≠ y.length then (false, [.enter .util "equal_core" t0])
  else if x ≠ y then (false, [.enter .util "equal_core" t0])
  else (true, [.enter .util "equal_core" t0, .leave .util t1])

/-- `util::is_same_size` for two Dense matrices (`src/utils/compare/compare_dense.cpp:233-247`), the same text
as `is_same_structure` for Dense (`:78-92`). -/
def denseSameSize (r1 c1 r2 c2 : Nat) (t0 t1 t2 : Int) : Bool × List Ev :=
  let e0 := [Ev.enter .util "is_same_size" t0]
  let (ans, e1) := if r1 ≠ r2 ∨ c1 ≠ c2 then (false, [Ev.leave .util t1]) else (true, [])
  (ans, e0 ++ e1 ++ [.leave .util t2])

/-- `util::is_same_structure` for two LinearOperators (`src/utils/compare/compare_linearoperator.cpp:9-25`). -/
def linopSameStructure (r1 c1 r2 c2 : Nat) (t0 t1 t2 : Int) : Bool × List Ev :=
  let e0 := [Ev.enter .util "is_same_structure" t0]
  let (ans, e1) := if r1 = r2 ∧ c1 = c2 then (true, [Ev.leave .util t1]) else (false, [])
  (ans, e0 ++ e1 ++ [.leave .util t2])

/-- Copying a LinearOperator (`src/utils/linearoperator_constructor.cpp:117-129`). -/
def linopCopy (t0 : Int) : List Ev := [.enter .util "LinearOperator" t0]

/-- `equation::CG::solve` on a matrix that is not square (`src/equation/cg.cpp:104-115` calling
`:12-20`): the logger calls made before the exception leaves `solve`. -/
def cgRejected (t0 t1 : Int) : List Ev := [.enter .solver "solve" t0, .enter .solver "monolish_CG" t1]

end Log
end Verif
