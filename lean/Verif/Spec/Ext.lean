import Verif.Spec.SolverSpec

/-!
Numbers with the IEEE-754 special values: an ordered field (no rounding) extended by two infinities
and NaN. There is one zero; it counts as positive when something is divided by it.
-/

namespace Verif.Spec

inductive Ext (K : Type) where
  | fin (k : K)
  | pinf
  | ninf
  | nan
  deriving DecidableEq, Repr

namespace Ext

variable {K : Type} [Field K] [LinearOrder K]

def neg : Ext K → Ext K
  | fin a => fin (-a)
  | pinf => ninf
  | ninf => pinf
  | nan => nan

def add : Ext K → Ext K → Ext K
  | nan, _ => nan
  | _, nan => nan
  | fin a, fin b => fin (a + b)
  | fin _, i => i
  | i, fin _ => i
  | pinf, pinf => pinf
  | ninf, ninf => ninf
  | pinf, ninf => nan
  | ninf, pinf => nan

/-- an infinity times a finite number -/
def scaleInf (i : Ext K) (b : K) : Ext K :=
  if b = 0 then nan else if 0 < b then i else neg i

def mul : Ext K → Ext K → Ext K
  | nan, _ => nan
  | _, nan => nan
  | fin a, fin b => fin (a * b)
  | fin a, i => scaleInf i a
  | i, fin b => scaleInf i b
  | pinf, i => i
  | ninf, i => neg i

def div : Ext K → Ext K → Ext K
  | nan, _ => nan
  | _, nan => nan
  | fin a, fin b =>
    if b = 0 then (if a = 0 then nan else if 0 < a then pinf else ninf) else fin (a / b)
  | fin _, _ => fin 0
  | i, fin b => if b < 0 then neg i else i
  | _, _ => nan

def sqrt (sq : K → K) : Ext K → Ext K
  | fin a => if a < 0 then nan else fin (sq a)
  | pinf => pinf
  | ninf => nan
  | nan => nan

def lt : Ext K → Ext K → Bool
  | nan, _ => false
  | _, nan => false
  | fin a, fin b => decide (a < b)
  | _, ninf => false
  | ninf, _ => true
  | pinf, _ => false
  | fin _, pinf => true

def isNaN : Ext K → Bool
  | nan => true
  | _ => false

def isZero : Ext K → Bool
  | fin a => decide (a = 0)
  | _ => false

instance : Zero (Ext K) := ⟨fin 0⟩
instance : One (Ext K) := ⟨fin 1⟩
instance : Add (Ext K) := ⟨add⟩
instance : Mul (Ext K) := ⟨mul⟩

/-- the operations, sums from left to right -/
def num (sq : K → K) : Solver.Num (Ext K) where
  zero := fin 0
  one := fin 1
  add := add
  sub := fun a b => add a (neg b)
  mul := mul
  div := div
  neg := neg
  sqrt := sqrt sq
  lt := lt
  isNaN := isNaN
  isZero := isZero
  sum := List.foldl add (fin 0)

end Ext

/-- plain field arithmetic, `x / 0 = 0` -/
def fieldNum {K : Type} [Field K] [LinearOrder K] (sq : K → K) : Solver.Num K where
  zero := 0
  one := 1
  add := fun a b => a + b
  sub := fun a b => a - b
  mul := fun a b => a * b
  div := fun a b => a / b
  neg := fun a => -a
  sqrt := sq
  lt := fun a b => decide (a < b)
  isNaN := fun _ => false
  isZero := fun a => decide (a = 0)
  sum := List.sum

end Verif.Spec
