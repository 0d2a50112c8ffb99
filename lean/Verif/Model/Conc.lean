import Verif.Core.Res

/-!
Small-step model of an `#pragma omp parallel for` loop over shared memory.

All arrays live in one memory, so that arguments may alias or overlap. One iteration loads its source
elements one after the other into private registers and then stores one result. A step of the machine
is one load or one store of one iteration; a schedule is an arbitrary sequence of iteration numbers
("who moves next"). Every execution of the loop by any number of threads, under any assignment of
iterations to threads, is such a sequence (threads only restrict the order). Accesses to one
`float`/`double`/`int` element are atomic and the memory is sequentially consistent (trusted, see
DESIGN.md; for loops without data races the C++ memory model guarantees this).
-/

namespace Verif.Conc

variable {α : Type}

/-- A parallel loop: iteration `i < N` loads the addresses `srcs i` in order, then stores
`f i registers` at `dst i`. -/
structure Loop (α : Type) where
  N : Nat
  srcs : Nat → List Nat
  dst : Nat → Nat
  f : Nat → (Nat → α) → α

/-- private state of an iteration: number of completed loads, registers, finished or not -/
structure It (α : Type) where
  pc : Nat
  reg : Nat → α
  done : Bool

/-- state of the machine -/
structure State (α : Type) where
  mem : List α
  its : Nat → It α

/-- replace the state of iteration `i` -/
def State.setIt (s : State α) (i : Nat) (t : It α) : State α :=
  { s with its := fun j => if j = i then t else s.its j }

/-- Iteration `i` makes its next step (nothing if it is finished or not an iteration of the loop). -/
def step (L : Loop α) (s : State α) (i : Nat) : Res (State α) :=
  let t := s.its i
  if L.N ≤ i ∨ t.done then .ok s
  else match (L.srcs i)[t.pc]? with
    | some a => do
      let v ← rd s.mem a
      .ok (s.setIt i { t with pc := t.pc + 1, reg := fun k => if k = t.pc then v else t.reg k })
    | none => do
      let m ← wr s.mem (L.dst i) (L.f i t.reg)
      .ok ({ s with mem := m }.setIt i { t with done := true })

/-- run a schedule -/
def run (L : Loop α) : List Nat → State α → Res (State α)
  | [], s => .ok s
  | i :: is, s => do
    let s' ← step L s i
    run L is s'

/-- the machine before the loop; registers hold arbitrary garbage -/
def start (mem : List α) (garbage : Nat → Nat → α) : State α :=
  { mem, its := fun i => { pc := 0, reg := garbage i, done := false } }

/-- the loop has ended: every iteration has finished (implicit barrier of `parallel for`) -/
def Finished (L : Loop α) (s : State α) : Prop := ∀ i, i < L.N → (s.its i).done = true

/-- A vector or view argument of a call: `begin()` points at `off`, `size()` is `size`. -/
structure Arr where
  off : Nat
  size : Nat
  deriving DecidableEq, Repr

/-- Element-wise functions of the BLAS and VML layer, with their arguments in the order of the API.
`fn` stands for the functions of `<cmath>` (sqrt, sin, exp, ...). -/
inductive Call (α : Type) where
  | vaddS (a : Arr) (alpha : α) (y : Arr)
  | vsubS (a : Arr) (alpha : α) (y : Arr)
  | vmulS (a : Arr) (alpha : α) (y : Arr)
  | vdivS (a : Arr) (alpha : α) (y : Arr)
  | vadd (a b y : Arr)
  | vsub (a b y : Arr)
  | vmul (a b y : Arr)
  | vdiv (a b y : Arr)
  | timesS (alpha : α) (a y : Arr)
  | times (a b y : Arr)
  | copy (a y : Arr)
  | fill (alpha : α) (y : Arr)
  | axpy (alpha : α) (x y : Arr)
  | axpyz (alpha : α) (x y z : Arr)
  | xpay (alpha : α) (x y : Arr)
  | scal (alpha : α) (x : Arr)
  | vmax (a b y : Arr)
  | vmaxS (a : Arr) (alpha : α) (y : Arr)
  | vmin (a b y : Arr)
  | vminS (a : Arr) (alpha : α) (y : Arr)
  | alo (a : Arr) (alpha beta : α) (y : Arr)
  | reciprocal (a y : Arr)
  | sign (a y : Arr)
  | math (fn : α → α) (a y : Arr)
  | pow (fn : α → α → α) (a b y : Arr)
  | powS (fn : α → α → α) (a : Arr) (alpha : α) (y : Arr)

/-- loop over one input: `y[i] = g(a[i])` -/
def loop1 (a y : Arr) (g : α → α) : Loop α :=
  { N := y.size, srcs := fun i => [a.off + i], dst := fun i => y.off + i, f := fun _ r => g (r 0) }

/-- loop over two inputs: `y[i] = g(a[i], b[i])` -/
def loop2 (a b y : Arr) (g : α → α → α) : Loop α :=
  { N := y.size, srcs := fun i => [a.off + i, b.off + i], dst := fun i => y.off + i,
    f := fun _ r => g (r 0) (r 1) }

/-- `assert(is_same_size(a, y))` and then `k` -/
def same2 (a y : Arr) (k : Loop α) : Res (Loop α) := do
  cassert (decide (a.size = y.size))
  .ok k

/-- `assert(is_same_size(a, b, y))` and then `k` -/
def same3 (a b y : Arr) (k : Loop α) : Res (Loop α) := do
  cassert (decide (a.size = b.size ∧ a.size = y.size))
  .ok k

variable [Zero α] [One α] [Add α] [Sub α] [Neg α] [Mul α] [Div α] [Max α] [Min α]

/-- The checks and the loop of each function.
* vml: `svadd_core`, `vvadd_core` and siblings (src/vml/vector/arithmetic/vec{add,sub,mul,div}.hpp:6-36)
  with `internal::v{add,sub,mul,div}` (src/internal/arithmetic/double_arithmetic.cpp:9-229);
* blas `vecadd`, `vecsub` (src/blas/vector/vec{add,sub}.hpp:5-19) run the same loops as `vadd`, `vsub`;
* blas `times` (src/blas/vector/times.hpp:6-34): only `a` and `y` are compared;
* `copy` (src/blas/vector/copy.hpp:5-16, `cblas_?copy`), `fill` (`vbroadcast`,
  double_arithmetic.cpp:254-274), `axpy` (axpy.hpp:7-34, `cblas_?axpy`), `axpyz` (axpyz.hpp:7-37),
  `xpay` (xpay.hpp:6-37), `scal` (scal.hpp:6-28, `cblas_?scal`);
* vml `max`, `min` (src/vml/vector/math_1_3op/vec{max,min}.hpp, src/internal/math/double_math.cpp:462-590),
  `alo` (double_math.cpp:594-620), `reciprocal` (double_arithmetic.cpp:308-331), `sign`
  (double_math.cpp:376-399, `-1 * a[i]`), `pow` (double_math.cpp:40-95), the other unary functions
  (double_math.cpp:10-430).
`cblas_?copy/axpy/scal` are external: their reference loops are used, with iterations in any order. -/
def Call.loop : Call α → Res (Loop α)
  | .vaddS a al y => same2 a y (loop1 a y (fun u => u + al))
  | .vsubS a al y => same2 a y (loop1 a y (fun u => u - al))
  | .vmulS a al y => same2 a y (loop1 a y (fun u => u * al))
  | .vdivS a al y => same2 a y (loop1 a y (fun u => u / al))
  | .vadd a b y => same3 a b y (loop2 a b y (fun u v => u + v))
  | .vsub a b y => same3 a b y (loop2 a b y (fun u v => u - v))
  | .vmul a b y => same3 a b y (loop2 a b y (fun u v => u * v))
  | .vdiv a b y => same3 a b y (loop2 a b y (fun u v => u / v))
  | .timesS al a y => same2 a y (loop1 a y (fun u => u * al))
  | .times a b y => same2 a y (loop2 a b y (fun u v => u * v))
  | .copy a y => same2 a y (loop1 a y (fun u => u))
  | .fill al y => .ok { N := y.size, srcs := fun _ => [], dst := fun i => y.off + i, f := fun _ _ => al }
  | .axpy al x y => same2 x y (loop2 x y y (fun u v => al * u + v))
  | .axpyz al x y z => same3 x y z (loop2 x y z (fun u v => al * u + v))
  | .xpay al x y => same2 x y (loop2 x y y (fun u v => u + al * v))
  | .scal al x => .ok (loop1 x x (fun u => al * u))
  | .vmax a b y => same3 a b y (loop2 a b y (fun u v => max u v))
  | .vmaxS a al y => same2 a y (loop1 a y (fun u => max u al))
  | .vmin a b y => same3 a b y (loop2 a b y (fun u v => min u v))
  | .vminS a al y => same2 a y (loop1 a y (fun u => min u al))
  | .alo a al be y => same2 a y (loop1 a y (fun u => al * u + (be - al) * min u 0))
  | .reciprocal a y => same2 a y (loop1 a y (fun u => 1 / u))
  | .sign a y => same2 a y (loop1 a y (fun u => -1 * u))
  | .math fn a y => same2 a y (loop1 a y fn)
  | .pow fn a b y => same3 a b y (loop2 a b y fn)
  | .powS fn a al y => same2 a y (loop1 a y (fun u => fn u al))

/-- the call runs its loop under the given schedule -/
def Call.exec (c : Call α) (sched : List Nat) (mem : List α) (garbage : Nat → Nat → α) :
    Res (State α) := do
  let L ← c.loop
  run L sched (start mem garbage)

end Verif.Conc
