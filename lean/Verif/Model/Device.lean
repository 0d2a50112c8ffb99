import Verif.Core.Res

/-!
Model of the host/device transfers of a GPU build (`MONOLISH_USE_NVIDIA_GPU`): `send`, `recv`,
`nonfree_recv`, `device_free`, destructors and `move`, on top of the OpenMP device data environment.

Memory is addressed by numbers. An object has the memory sections its transfer functions list in their
pragmas (one for vector, Dense and tensor_Dense, three for CRS, one and two per slice for tensor_CRS), a
status flag shared with the objects it was moved from or to, and `val_create_flag`.

OpenMP (5.0, 2.19.7 and 2.14.6): the device data environment is a set of regions with reference counts.
`enter data map(to)` of a section inside an existing region only increments its count; of a section that
partly overlaps one is not allowed; otherwise it creates a region with count 1 and copies the host section.
`exit data` decrements; when the count reaches 0 the region disappears, after copying the *listed section* to
the host in the case of `map(from)`. `target update` copies the listed section if it is present and does
nothing otherwise. Zero-length sections do nothing. A kernel that uses a pointer whose section is not present
is undefined behaviour.

Host memory itself is not bounds-checked here (`new` and `delete` are not modelled, except that an address may
be used again after its object is gone); the other models check bounds.
-/

namespace Verif.Dev

variable {α : Type}

/-- a region of the device data environment; `data` gives the device copy by (host) address -/
structure Region (α : Type) where
  base : Nat
  len : Nat
  ref : Nat
  data : Nat → α

/-- host memory, device data environment, status flags -/
structure St (α : Type) where
  host : Nat → α
  regions : List (Region α)
  flags : Nat → Bool

/-- an object: sections (address, length), status flag, `val_create_flag` -/
structure Obj where
  bufs : List (Nat × Nat)
  flag : Nat
  owner : Bool
  deriving DecidableEq

/-- the section `[b, b + l)` lies in the region -/
def Region.has (r : Region α) (b l : Nat) : Bool := decide (r.base ≤ b ∧ b + l ≤ r.base + r.len)

/-- the section `[b, b + l)` has an element in common with the region -/
def Region.meets (r : Region α) (b l : Nat) : Bool := decide (r.base < b + l ∧ b < r.base + r.len)

/-- memory `old`, with the section `[b, b + l)` taken from `new` -/
def over (b l : Nat) (new old : Nat → α) : Nat → α := fun a => if b ≤ a ∧ a < b + l then new a else old a

/-- `omp target enter data map(to : d [0:N])` -/
def enter (s : St α) (b l : Nat) : Res (St α) :=
  if l = 0 then .ok s
  else if s.regions.any (·.has b l) then
    .ok { s with regions := s.regions.map fun r => if r.has b l then { r with ref := r.ref + 1 } else r }
  else if s.regions.any (·.meets b l) then .ub "section extends a mapped region"
  else .ok { s with regions := { base := b, len := l, ref := 1, data := s.host } :: s.regions }

/-- `omp target exit data map(from : d [0:N])` (`copy = true`) and `map(release : ...)` -/
def exit (copy : Bool) (s : St α) (b l : Nat) : St α :=
  if l = 0 then s
  else match s.regions.find? (·.has b l) with
    | none => s
    | some r =>
      { s with
        host := if copy && decide (r.ref ≤ 1) then over b l r.data s.host else s.host
        regions := s.regions.filterMap fun q =>
          if q.has b l then (if q.ref ≤ 1 then none else some { q with ref := q.ref - 1 }) else some q }

/-- `omp target update to(d [0:N])` -/
def updateTo (s : St α) (b l : Nat) : St α :=
  { s with regions := s.regions.map fun r =>
      if r.has b l then { r with data := over b l s.host r.data } else r }

/-- `omp target update from(d [0:N])` -/
def updateFrom (s : St α) (b l : Nat) : St α :=
  match s.regions.find? (·.has b l) with
  | none => s
  | some r => { s with host := over b l r.data s.host }

def setFlag (s : St α) (f : Nat) (v : Bool) : St α :=
  { s with flags := fun g => if g = f then v else s.flags g }

/-- all sections of an object, one after the other -/
def enterAll (s : St α) : List (Nat × Nat) → Res (St α)
  | [] => .ok s
  | (b, l) :: t => do
    let s ← enter s b l
    enterAll s t

/-- `send()`: src/utils/system/gpu_comm.cpp:8-24 (vector), 89-110 (CRS), 186-202 (Dense), 268-284
(tensor_Dense), 350-383 (tensor_CRS) -/
def send (s : St α) (o : Obj) : Res (St α) :=
  if s.flags o.flag then .ok (o.bufs.foldl (fun s bl => updateTo s bl.1 bl.2) s)
  else do
    let s ← enterAll s o.bufs
    .ok (setFlag s o.flag true)

/-- `recv()`: gpu_comm.cpp:27-42, 113-131, 205-219, 287-301, 386-409 -/
def recv (s : St α) (o : Obj) : St α :=
  if s.flags o.flag then setFlag (o.bufs.foldl (fun s bl => exit true s bl.1 bl.2) s) o.flag false else s

/-- `nonfree_recv()`: gpu_comm.cpp:45-57, 134-150, 222-235, 304-317, 412-433 -/
def nonfreeRecv (s : St α) (o : Obj) : St α :=
  if s.flags o.flag then o.bufs.foldl (fun s bl => updateFrom s bl.1 bl.2) s else s

/-- `device_free()`: gpu_comm.cpp:60-73, 153-172, 238-253, 320-335, 436-459 -/
def deviceFree (s : St α) (o : Obj) : St α :=
  if s.flags o.flag then setFlag (o.bufs.foldl (fun s bl => exit false s bl.1 bl.2) s) o.flag false else s

/-- the destructors, `~vector()` etc.: monolish_vector.hpp:290-296, monolish_dense.hpp:600-606,
monolish_crs.hpp:484-490 -/
def destroy (s : St α) (o : Obj) : St α :=
  if o.owner then deviceFree s o else s

/-- `x.move(t)`: src/utils/move/move_vector.cpp:9-26, move_dense.cpp:10-30: storage, size, offset and status
flag of `t`; `val_create_flag` false. `first`, `len`: the part of the storage of `t` (all of it, or the part
seen by a view, move_dense.cpp:38-60). The previous storage of `x` is abandoned. -/
def moved (t : Obj) (first len : Nat) : Obj :=
  { bufs := [((t.bufs.headD (0, 0)).1 + first, len)], flag := t.flag, owner := false }

/-- the addresses of an object -/
def Obj.covers (o : Obj) (a : Nat) : Prop := ∃ bl ∈ o.bufs, bl.1 ≤ a ∧ a < bl.1 + bl.2

instance (o : Obj) (a : Nat) : Decidable (o.covers a) :=
  inferInstanceAs (Decidable (∃ bl ∈ o.bufs, bl.1 ≤ a ∧ a < bl.1 + bl.2))

/-- memory as a kernel running on the device sees it -/
def devMem (s : St α) (a : Nat) : α :=
  match s.regions.find? (·.has a 1) with
  | none => s.host a
  | some r => r.data a

/-- every section of the object is on the device -/
def present (s : St α) (o : Obj) : Bool := o.bufs.all fun bl => bl.2 == 0 || s.regions.any (·.has bl.1 bl.2)

/-- A computing function `f(xs..., y)` (blas, vml, fill, a kernel of a solver): `assert` that all arguments are
on the same side (`util::is_same_device_mem_stat`), then run on the device or on the host. `g` gives the new
value at every address of `y` from the memory before the call. -/
def compute (s : St α) (y : Obj) (xs : List Obj) (g : (Nat → α) → Nat → α) : Res (St α) := do
  cassert (xs.all fun x => s.flags x.flag == s.flags y.flag)
  if s.flags y.flag then
    if (y :: xs).all (present s) then
      .ok { s with regions := s.regions.map fun r =>
              { r with data := fun a => if y.covers a then g (devMem s) a else r.data a } }
    else .ub "section not present on the device"
  else .ok { s with host := fun a => if y.covers a then g s.host a else s.host a }

/-- `x[i] = v`, `at`, `insert`: monolish_vector.hpp:600-605: an exception while on the device -/
def set (s : St α) (o : Obj) (a : Nat) (v : α) : Res (St α) :=
  if s.flags o.flag then .throw "Error, GPU vector cant use operator[]"
  else .ok { s with host := fun c => if c = a then v else s.host c }

/-- one call -/
inductive Op (α : Type) where
  | send (o : Obj)
  | recv (o : Obj)
  | nonfreeRecv (o : Obj)
  | deviceFree (o : Obj)
  | compute (y : Obj) (xs : List Obj) (g : (Nat → α) → Nat → α)
  | set (o : Obj) (a : Nat) (v : α)

/-- one call in a GPU build (`gpu = true`) or a CPU build: without `MONOLISH_USE_NVIDIA_GPU` the bodies of the
transfer functions are empty -/
def step (gpu : Bool) (s : St α) : Op α → Res (St α)
  | .send o => if gpu then send s o else .ok s
  | .recv o => .ok (if gpu then recv s o else s)
  | .nonfreeRecv o => .ok (if gpu then nonfreeRecv s o else s)
  | .deviceFree o => .ok (if gpu then deviceFree s o else s)
  | .compute y xs g => compute s y xs g
  | .set o a v => set s o a v

/-- a program: a sequence of calls -/
def run (gpu : Bool) (s : St α) : List (Op α) → Res (St α)
  | [] => .ok s
  | op :: p => do
    let s ← step gpu s op
    run gpu s p

/-- the copy constructors: src/utils/vector_constructor.cpp:159-176, crs_constructor.cpp:154-185: when the
source is on the device, `send()` the new object and copy there as well; always copy on the host. `o` is the
new object, its sections correspond to those of `src` (address `a` of `o` is address `from_ a` of `src`). -/
def copyTo (s : St α) (o src : Obj) (from_ : Nat → Nat) : Res (St α) := do
  let s ← if s.flags src.flag then do
      let s ← send s o
      compute s o [src] (fun m a => m (from_ a))
    else .ok s
  .ok { s with host := fun a => if o.covers a then s.host (from_ a) else s.host a }

end Verif.Dev
