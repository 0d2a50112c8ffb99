import Mathlib.Data.Rat.Defs

/-! What "the data size in GB" of a sparse or dense object means. -/

namespace Verif.Spec

/-- An array: how many elements of it are in use, and the bytes of one element. -/
structure Arr where
  count : Nat
  bytes : Nat

/-- the memory of some arrays, in GB -/
def gigabytes (l : List Arr) : ℚ := (((l.map fun a => a.count * a.bytes).sum : Nat) : ℚ) / 1000000000

end Verif.Spec
