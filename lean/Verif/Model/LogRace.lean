import Verif.Model.Logger
import Mathlib.Logic.Function.Basic

/-!
# The logger used by several threads

The logger is one object for the whole process (`monolish_logger.hpp:49-52`, `static Logger instance`) and its two
vectors are protected by nothing. `Model/Logger.lean` treats a logger call as one step; here a call is the sequence of
its reads and writes of the sizes of `calls` and `times`, and the steps of different threads interleave.

Simplifications: only the sizes of the two vectors are modelled (not the strings and clock readings in them, not the
reallocation of `push_back`, not the stream); reads and writes of a size are atomic and happen in program order (the
C++ standard promises less: a race is undefined behaviour as such, see `Races`).
-/

namespace Verif
namespace LogRace

open Log

/-- The two vectors of the logger (`monolish_logger.hpp:33-34`). -/
inductive Loc
  | calls
  | times
  deriving DecidableEq, Repr

/-- Steps of a thread: read a size into the thread's register; write back one more (end of `push_back`); write back
one less (`pop_back`, undefined for an empty vector); use the last element (`times[times.size() - 1]`). -/
inductive Micro
  | load (v : Loc)
  | grow (v : Loc)
  | shrink (v : Loc)
  | last (v : Loc)
  deriving DecidableEq, Repr

/-- The steps of one logger call at log level `level`. `X_in`: `calls.push_back`, `times.push_back`, and for
`solver_in` the loop over `calls` (`logger_utils.cpp:7-37, 77-90, 134-147`). `X_out`: the loop over `calls`,
`times[times.size() - 1]`, `calls.pop_back()`, `times.pop_back()` (`logger_utils.cpp:39-74, 92-131, 149-177`). -/
def micro (level : Nat) : Ev → List Micro
  | .enter k _ _ =>
    if k.level ≤ level then
      [.load .calls, .grow .calls, .load .times, .grow .times] ++ (if k = .solver then [.load .calls] else [])
    else []
  | .leave k _ =>
    if k.level ≤ level then
      [.load .calls, .load .times, .last .times, .load .calls, .shrink .calls, .load .times, .shrink .times]
    else []

/-- The steps of a sequence of logger calls. -/
def micros (level : Nat) (t : List Ev) : List Micro := t.flatMap (micro level)

/-- The sizes of the two vectors. -/
structure Sizes where
  calls : Nat
  times : Nat
  deriving DecidableEq, Repr

def Sizes.get (z : Sizes) : Loc → Nat
  | .calls => z.calls
  | .times => z.times

def Sizes.set (z : Sizes) (v : Loc) (n : Nat) : Sizes :=
  match v with
  | .calls => { z with calls := n }
  | .times => { z with times := n }

/-- One step of a thread with register `r`. -/
def exec (m : Micro) (z : Sizes) (r : Nat) : Res (Sizes × Nat) :=
  match m with
  | .load v => .ok (z, z.get v)
  | .grow v => .ok (z.set v (r + 1), r)
  | .shrink v => if r = 0 then .ub "pop_back on an empty vector" else .ok (z.set v (r - 1), r)
  | .last _ => if r = 0 then .ub "times[-1]" else .ok (z, r)

/-- The threads: the sizes, and for each thread its register and the steps it still has to do. -/
structure State where
  sizes : Sizes
  reg : Nat → Nat
  prog : Nat → List Micro

/-- Thread `t` does its next step, if it has one. -/
def step (t : Nat) (s : State) : Res State :=
  match s.prog t with
  | [] => .ok s
  | m :: rest => do
    let (z, r) ← exec m s.sizes (s.reg t)
    .ok { sizes := z, reg := Function.update s.reg t r, prog := Function.update s.prog t rest }

/-- A schedule: which thread moves next. -/
def run : List Nat → State → Res State
  | [], s => .ok s
  | t :: ts, s => do
    let s ← step t s
    run ts s

/-- Several threads start making logger calls, `prog t` those of thread `t`. -/
def start (level : Nat) (z : Sizes) (prog : Nat → List Ev) : State :=
  { sizes := z, reg := fun _ => 0, prog := fun t => micros level (prog t) }

/-- The logger calls of thread `t` in the parallel region of `LinearOperator::diag`
(`src/utils/getvec/linearoperator_getvec.cpp:41-49`): the constructor of `vec_tmp` (`vector_constructor.cpp:18-30`), then
for each iteration given to the thread those of the callback `matvec`. -/
def diagCalls (callback : Nat → List Ev) (work : List Nat) : List Ev :=
  [.enter .util "vector" 0, .leave .util 0] ++ work.flatMap callback

/-- The logger calls of the callback of an operator made from a CRS matrix (`convert_linearoperator.cpp:58-65`): the
constructor of `vec`, and `Dmatvec_core` (`crs_matvec.hpp:8-12`). -/
def crsCallback : List Ev :=
  [.enter .util "vector" 0, .leave .util 0, .enter .func "Dmatvec_core" 0, .leave .func 0]

/-- `LinearOperator::diag` (`linearoperator_getvec.cpp:8-54`) as seen by the logger, on `T` threads under a schedule:
`func_in`, the parallel region, `func_out`. A schedule that ends before all threads have finished is no execution (the
region ends with a barrier). -/
def diag (level : Nat) (T : Nat) (callback : Nat → List Ev) (work : Nat → List Nat) (sched : List Nat) (z : Sizes) :
    Res State := do
  let s ← run (List.replicate (micro level (.enter .func "diag" 0)).length 0)
    { sizes := z, reg := fun _ => 0, prog := fun t => if t = 0 then micro level (.enter .func "diag" 0) else [] }
  let s ← run sched (start level s.sizes (fun t => if t < T then diagCalls callback (work t) else []))
  if (List.range T).any (fun t => !(s.prog t).isEmpty) then .throw "not an execution: unfinished threads"
  else
    run (List.replicate (micro level (.leave .func 0)).length 0)
      { sizes := s.sizes, reg := fun _ => 0, prog := fun t => if t = 0 then micro level (.leave .func 0) else [] }

/-! ### Races -/

/-- Which size a step reads, which it writes. `pop_back` and `push_back` write the size; the other steps read it. -/
def Micro.loc : Micro → Loc
  | .load v => v
  | .grow v => v
  | .shrink v => v
  | .last v => v

def Micro.writes : Micro → Bool
  | .load _ => false
  | .grow _ => true
  | .shrink _ => true
  | .last _ => false

/-- Two threads access the same size, at least one of them writes it, and nothing orders the accesses (a parallel region
without synchronisation): a data race, undefined behaviour whatever the schedule is ([intro.races] in the C++
standard). -/
def Races (level : Nat) (prog : Nat → List Ev) : Prop :=
  ∃ t u, t ≠ u ∧ ∃ a ∈ micros level (prog t), ∃ b ∈ micros level (prog u),
    a.loc = b.loc ∧ (a.writes ∨ b.writes)

end LogRace
end Verif
