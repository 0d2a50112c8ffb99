import Verif.Model.Reduce

/-!
# `mpi::comm`

Model of `src/mpi/` (`send_recv.hpp`, `isend_irecv.hpp`, `Bcast.hpp`, `Scatter.hpp`, `Gather.hpp`, `allreduce.hpp`,
`monolish_mpi.cpp`) with `MONOLISH_USE_MPI`, and of the MPI parts of `src/blas/vector/{sum,asum,nrm1,nrm2,dot}.hpp`.

The MPI library itself is specified here by the rules of its standard (trusted): messages with the same source,
destination and tag are received in the order in which they were sent, by the receives in the order in which they
were posted; an element type or count mismatch and a message longer than the receive buffer are errors; buffers of
a collective operation must not overlap.  Message contents are taken when the send is posted (MPI forbids changing
the buffer before completion).  Sends complete without a matching receive (as for small messages).

An execution is an arbitrary sequence of events of all processes and of the network; the restriction that a
process does not continue before its blocking receive is delivered only removes executions.
-/

namespace Verif
namespace Mpi

variable {α : Type}

/-- Where a posted receive puts its data: into an object of the caller, into a parameter that was passed by value
and is alive because the call is blocking, or into such a parameter after the call has returned. -/
inductive Tgt
  | addr (a : Nat)
  | copy
  | gone

/-- A posted receive. -/
structure Post where
  id : Nat
  tgt : Tgt

/-- The processes and the network.  `buf r a` is the vector at address `a` of process `r` (`none`: no object).
`sent`, `calls` and `got` are histories that no operation reads. -/
structure World (α : Type) where
  buf : Nat → Nat → Option (List α)
  chan : Nat → Nat → Nat → List (List α)
  posted : Nat → Nat → Nat → List Post
  reqs : Nat → List (Option Nat)
  next : Nat
  done : List Nat
  sent : Nat → Nat → Nat → List (List α)
  calls : Nat → Nat → Nat → List Post
  got : Nat → Nat → Nat → List (Post × List α)

/-- Replace an entry of a family indexed by source, destination and tag. -/
def upd3 {β : Type} (f : Nat → Nat → Nat → β) (i j k : Nat) (b : β) : Nat → Nat → Nat → β :=
  fun x y z => if x = i ∧ y = j ∧ z = k then b else f x y z

/-- Replace a buffer. -/
def upd2 {β : Type} (f : Nat → Nat → β) (i j : Nat) (b : β) : Nat → Nat → β :=
  fun x y => if x = i ∧ y = j then b else f x y

/-- Replace the request list of a process. -/
def upd1 {β : Type} (f : Nat → β) (i : Nat) (b : β) : Nat → β := fun x => if x = i then b else f x

/-- What processes and network can do. -/
inductive Ev
  | send (r a dst tag : Nat)
  | sendScalar (r a dst tag : Nat)
  | recv (r a src tag : Nat)
  | recvScalar (r a src tag : Nat)
  | isend (r a dst tag : Nat)
  | isendVector (r a dst tag : Nat)
  | isendScalar (r a dst tag : Nat)
  | irecv (r a src tag : Nat)
  | irecvScalar (r a src tag : Nat)
  | waitall (r : Nat)
  | deliver (src dst tag : Nat)

/-- Access to an object of a process. -/
def World.get (w : World α) (r a : Nat) : Res (List α) :=
  match w.buf r a with
  | some v => .ok v
  | none => .ub "no object"

/-- The wrappers evaluate `vec[0]` to find the element type (`send_recv.hpp:29, 43, 81, 101`). -/
def firstElement (v : List α) : Res Unit := do
  let _ ← rd v 0
  .ok ()

/-- A message enters the network. -/
def World.push (w : World α) (src dst tag : Nat) (m : List α) : World α :=
  { w with
    chan := upd3 w.chan src dst tag (w.chan src dst tag ++ [m])
    sent := upd3 w.sent src dst tag (w.sent src dst tag ++ [m]) }

/-- A receive is posted. -/
def World.post (w : World α) (src dst tag : Nat) (t : Tgt) : World α :=
  { w with
    posted := upd3 w.posted src dst tag (w.posted src dst tag ++ [⟨w.next, t⟩])
    calls := upd3 w.calls src dst tag (w.calls src dst tag ++ [⟨w.next, t⟩])
    next := w.next + 1 }

/-- One event.

* `send`: `Send_core` for vectors (`send_recv.hpp:20-47`); `sendScalar`: `:12-19`
* `recv`: `Recv_core` for vectors (`:66-106`); `recvScalar`: parameter by value (`:52-64`)
* `isend`: `Isend_core` for `std::vector` (`isend_irecv.hpp:22-35`); `isendVector`: for `monolish::vector`, which
  does not add a request and stores into `rq.back()` (`:38-49`); `isendScalar`: sends from a parameter that is
  dead when the call has returned (`:10-20`)
* `irecv`: `:68-96`; `irecvScalar`: `:55-66`
* `waitall`: `:98-106` (no effect while an operation is not finished) -/
def step (w : World α) : Ev → Res (World α)
  | .send r a dst tag => do
    let v ← w.get r a
    firstElement v
    .ok (w.push r dst tag v)
  | .sendScalar r a dst tag => do
    let v ← w.get r a
    let x ← rd v 0
    .ok (w.push r dst tag [x])
  | .recv r a src tag => do
    let v ← w.get r a
    firstElement v
    .ok (w.post src r tag (.addr a))
  | .recvScalar r a src tag => do
    let v ← w.get r a
    firstElement v
    .ok (w.post src r tag .copy)
  | .isend r a dst tag => do
    let v ← w.get r a
    firstElement v
    .ok { w.push r dst tag v with reqs := upd1 w.reqs r (w.reqs r ++ [none]) }
  | .isendVector r a dst tag => do
    let v ← w.get r a
    firstElement v
    if (w.reqs r).isEmpty then .ub "back() of an empty vector"
    else .ok { w.push r dst tag v with reqs := upd1 w.reqs r ((w.reqs r).dropLast ++ [none]) }
  | .isendScalar r a _ _ => do
    let v ← w.get r a
    firstElement v
    .ub "reads a dead object"
  | .irecv r a src tag => do
    let v ← w.get r a
    firstElement v
    .ok { w.post src r tag (.addr a) with reqs := upd1 w.reqs r (w.reqs r ++ [some w.next]) }
  | .irecvScalar r a src tag => do
    let v ← w.get r a
    firstElement v
    .ok { w.post src r tag .gone with reqs := upd1 w.reqs r (w.reqs r ++ [some w.next]) }
  | .waitall r =>
    if (w.reqs r).all (fun q => match q with | none => true | some i => w.done.contains i) then
      .ok { w with reqs := upd1 w.reqs r [] }
    else .ok w
  | .deliver src dst tag =>
    match w.chan src dst tag, w.posted src dst tag with
    | m :: ms, p :: ps =>
      let w' : World α :=
        { w with
          chan := upd3 w.chan src dst tag ms
          posted := upd3 w.posted src dst tag ps
          done := p.id :: w.done
          got := upd3 w.got src dst tag (w.got src dst tag ++ [(p, m)]) }
      match p.tgt with
      | .copy => .ok w'
      | .gone => .ub "writes to a dead object"
      | .addr a => do
        let b ← w.get dst a
        if b.length < m.length then .abort "message truncated"
        else .ok { w' with buf := upd2 w.buf dst a (some (m ++ b.drop m.length)) }
    | _, _ => .ok w

/-- An execution. -/
def run (w : World α) : List Ev → Res (World α)
  | [] => .ok w
  | e :: es => do
    let w' ← step w e
    run w' es

/-- Before any communication. -/
def World.init (buf : Nat → Nat → Option (List α)) : World α where
  buf := buf
  chan := fun _ _ _ => []
  posted := fun _ _ _ => []
  reqs := fun _ => []
  next := 0
  done := []
  sent := fun _ _ _ => []
  calls := fun _ _ _ => []
  got := fun _ _ _ => []

/-! ## Collective operations: the arguments and results of all processes `0, ..., P-1` -/

/-- `Bcast_core` (`Bcast.hpp:22-50`): every process passes its own vector by reference. -/
def bcast (P root : Nat) (vec : Nat → List α) : Res (Nat → List α) := do
  forN P (fun i _ => firstElement (vec i)) ()
  if (List.range P).all (fun i => (vec i).length == (vec root).length) then
    .ok (fun i => if i < P then vec root else vec i)
  else .abort "count mismatch"

/-- `MPI_Scatter` by its standard: `sendcount` elements go to **each** process. -/
def mpiScatter (P root : Nat) (send : List α) (sendcount : Nat) (recv : Nat → List α) : Res (Nat → List α) :=
  if (List.range P).all (fun i => (recv i).length == sendcount) then
    if root < P ∧ send.length < P * sendcount then .ub "reads beyond the send buffer"
    else .ok (fun i => if i < P then (send.drop (i * sendcount)).take sendcount else recv i)
  else .abort "count mismatch"

/-- `Scatter_core` (`Scatter.hpp:7-37`): the receive vector is passed by value, the send count is the size of the
send vector.  The result is what the callers' receive vectors hold afterwards. -/
def scatter (P root : Nat) (send recv : Nat → List α) : Res (Nat → List α) := do
  forN P (fun i _ => firstElement (send i)) ()
  forN P (fun i _ => firstElement (recv i)) ()
  let _ ← mpiScatter P root (send root) (send root).length recv
  .ok recv

/-- `MPI_Gather` by its standard: `recvcount` elements come from **each** process. -/
def mpiGather (P root : Nat) (send : Nat → List α) (recv : Nat → List α) (recvcount : Nat) :
    Res (Nat → List α) :=
  if (List.range P).all (fun i => (send i).length == recvcount) then
    if (recv root).length < P * recvcount then .ub "writes beyond the receive buffer"
    else .ok (fun i => if i = root then
      (List.range P).flatMap send ++ (recv root).drop (P * recvcount) else recv i)
  else .abort "count mismatch"

/-- `Gather_core` (`Gather.hpp:7-37`): the receive vector is passed by value, the receive count is its size. -/
def gather (P root : Nat) (send recv : Nat → List α) : Res (Nat → List α) := do
  forN P (fun i _ => firstElement (send i)) ()
  forN P (fun i _ => firstElement (recv i)) ()
  let _ ← mpiGather P root send recv (recv root).length
  .ok recv

/-- `Allreduce_core` with `MPI_SUM` (`allreduce.hpp:8-20`): the send and the receive buffer are the same object.
`aliasOk`: the MPI library treats equal buffers like `MPI_IN_PLACE` (the standard does not allow them). -/
def allreduceSum [Zero α] [Add α] (aliasOk : Bool) (vals : List α) : Res (List α) :=
  if aliasOk then .ok (vals.map (fun _ => vals.foldr (· + ·) 0)) else .ub "overlapping buffers"

/-- `comm::Initialized()` (`monolish_mpi.cpp:46-57`); `flag` is what `MPI_Initialized` stores. -/
def initialized (flag : Bool) : Bool := if flag == false then true else false

/-- Evaluate on every process. -/
def eachRank {β : Type} (f : Nat → Res β) : List Nat → Res (List β)
  | [] => .ok []
  | r :: rs => do
    let v ← f r
    let vs ← eachRank f rs
    .ok (v :: vs)

/-- `blas::dot` on `P` processes (`src/blas/vector/dot.hpp:4-42`): local product, then `Allreduce`.  Process `r`
holds the vectors `x r`, `y r` and its library adds in the order `t r`. -/
def distDot [Zero α] [Add α] [Mul α] (aliasOk : Bool) (P : Nat) (t : Nat → RTree) (x y : Nat → List α) :
    Res (List α) := do
  let loc ← eachRank (fun r => dotCore (t r) (x r) 0 (x r).length (y r) 0 (y r).length) (List.range P)
  allreduceSum aliasOk loc

/-- `blas::sum` on `P` processes (`src/blas/vector/sum.hpp`). -/
def distSum [Zero α] [Add α] (aliasOk : Bool) (P : Nat) (t : Nat → RTree) (x : Nat → List α) :
    Res (List α) := do
  let loc ← eachRank (fun r => sumCore (t r) (x r) 0) (List.range P)
  allreduceSum aliasOk loc

/-- `blas::asum` and `blas::nrm1` on `P` processes (`asum.hpp`, `nrm1.hpp`). -/
def distNrm1 [Zero α] [Add α] (absf : α → α) (aliasOk : Bool) (P : Nat) (t : Nat → RTree) (x : Nat → List α) :
    Res (List α) := do
  let loc ← eachRank (fun r => nrm1Core absf (t r) (x r) 0) (List.range P)
  allreduceSum aliasOk loc

/-- `blas::nrm2` on `P` processes (`nrm2.hpp:4-36`): the root is taken after `Allreduce`. -/
def distNrm2 [Zero α] [Add α] [Mul α] (sqrtf : α → α) (aliasOk : Bool) (P : Nat) (t : Nat → RTree)
    (x : Nat → List α) : Res (List α) := do
  let loc ← eachRank (fun r => dotCore (t r) (x r) 0 (x r).length (x r) 0 (x r).length) (List.range P)
  let g ← allreduceSum aliasOk loc
  .ok (g.map sqrtf)

end Mpi
end Verif
