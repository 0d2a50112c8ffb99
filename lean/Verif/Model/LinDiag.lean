import Verif.Core.Res

/-!
# `LinearOperator::diag`

Model of `src/utils/getvec/linearoperator_getvec.cpp`.  The threads of the parallel region take their iterations
from lists (`omp for` gives every iteration to exactly one thread); a schedule is an arbitrary sequence of thread
numbers.  The scratch vector `vec_tmp` is private to each thread in the overload for `vector` (declared inside
`omp parallel`, `:43-51`) and shared in the overloads for `view1D` (declared before `omp parallel for`, `:96-102,
:147-153, :198-204`).

Simplifications: one call of the operator's `matvec` reads its argument in one step (it can only be interrupted
at more points in the code); the operator is a function of its argument; host memory only.
-/

namespace Verif
namespace LinDiag

variable {α : Type}

/-- What a thread is doing: between iterations, or in iteration `i` after `vec_tmp[i] = 1`, after the call of
`matvec`, after the store to the result. -/
inductive Phase (α : Type)
  | idle
  | set (i : Nat)
  | got (i : Nat) (v : α)
  | stored (i : Nat)

/-- A thread: iterations whose result is not stored yet, and the position in the loop body. -/
structure Thread (α : Type) where
  todo : List Nat
  ph : Phase α

/-- The machine: memory of the result, scratch vectors, threads. -/
structure State (α : Type) where
  mem : List α
  scr : Nat → List α
  thr : Nat → Thread α

/-- Replace an entry of a family. -/
def upd {β : Type} (f : Nat → β) (t : Nat) (b : β) : Nat → β := fun u => if u = t then b else f u

/-- One step of thread `t`, which uses the scratch vector `sc t` (`linearoperator_getvec.cpp:46-50`). -/
def step [Zero α] [One α] (mv : List α → Res (List α)) (sc : Nat → Nat) (s : State α) (t : Nat) :
    Res (State α) :=
  let th := s.thr t
  match th.ph with
  | .idle =>
    match th.todo with
    | [] => .ok s
    | i :: _ => do
      let v ← wr (s.scr (sc t)) i 1
      .ok { s with scr := upd s.scr (sc t) v, thr := upd s.thr t { th with ph := .set i } }
  | .set i => do
    let y ← mv (s.scr (sc t))
    let v ← rd y i
    .ok { s with thr := upd s.thr t { th with ph := .got i v } }
  | .got i v => do
    let m ← wr s.mem i v
    .ok { s with mem := m, thr := upd s.thr t { todo := th.todo.tail, ph := .stored i } }
  | .stored i => do
    let v ← wr (s.scr (sc t)) i 0
    .ok { s with scr := upd s.scr (sc t) v, thr := upd s.thr t { th with ph := .idle } }

/-- A schedule. -/
def run [Zero α] [One α] (mv : List α → Res (List α)) (sc : Nat → Nat) : List Nat → State α → Res (State α)
  | [], s => .ok s
  | t :: ts, s => do
    let s' ← step mv sc s t
    run mv sc ts s'

/-- `A.diag(vec)` for an operator with `cols` columns whose `matvec` is `mv`, writing to the array `mem`
(`vec.data()`, `linearoperator_getvec.cpp:12, 65, 116, 167`); `work` is the distribution of the iterations. -/
def start [Zero α] (cols : Nat) (mem : List α) (work : Nat → List Nat) : State α where
  mem := mem
  scr := fun _ => List.replicate cols 0
  thr := fun t => ⟨work t, .idle⟩

/-- `diag(vector &)`: private scratch vectors (`:9-54`). -/
def diagVector [Zero α] [One α] (rows cols : Nat) (mv : List α → Res (List α)) (mem : List α) (size : Nat)
    (work : Nat → List Nat) (sched : List Nat) : Res (State α) := do
  cassert (decide (min rows cols = size))
  run mv id sched (start cols mem work)

/-- `diag(view1D &)`: one shared scratch vector (`:61-207`, three overloads). -/
def diagView [Zero α] [One α] (rows cols : Nat) (mv : List α → Res (List α)) (mem : List α) (size : Nat)
    (work : Nat → List Nat) (sched : List Nat) : Res (State α) := do
  cassert (decide (min rows cols = size))
  run mv (fun _ => 0) sched (start cols mem work)

/-- All iterations are finished. -/
def Finished (s : State α) : Prop := ∀ t, (s.thr t).todo = [] ∧ (s.thr t).ph = .idle

/-- `omp for` over `n` iterations: every iteration belongs to exactly one thread, and occurs once there. -/
structure Shares (n : Nat) (work : Nat → List Nat) : Prop where
  nodup : ∀ t, (work t).Nodup
  disj : ∀ t u i, t ≠ u → i ∈ work t → i ∉ work u
  mem : ∀ i, i < n ↔ ∃ t, i ∈ work t

end LinDiag
end Verif
