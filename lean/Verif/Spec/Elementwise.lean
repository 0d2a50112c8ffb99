import Verif.Model.Conc

/-!
Specification of the element-wise functions: for each call its inputs, its output and the value that
output element `i` must have, in terms of the elements `i` of the inputs before the call.
-/

namespace Verif.Conc

variable {α : Type}

/-- the output argument -/
def Call.out : Call α → Arr
  | .vaddS _ _ y | .vsubS _ _ y | .vmulS _ _ y | .vdivS _ _ y | .vadd _ _ y | .vsub _ _ y
  | .vmul _ _ y | .vdiv _ _ y | .timesS _ _ y | .times _ _ y | .copy _ y | .fill _ y
  | .axpy _ _ y | .axpyz _ _ _ y | .xpay _ _ y | .scal _ y | .vmax _ _ y | .vmaxS _ _ y
  | .vmin _ _ y | .vminS _ _ y | .alo _ _ _ y | .reciprocal _ y | .sign _ y | .math _ _ y
  | .pow _ _ _ y | .powS _ _ _ y => y

/-- the input arguments (for updates in place, the output is also an input) -/
def Call.ins : Call α → List Arr
  | .vaddS a _ _ | .vsubS a _ _ | .vmulS a _ _ | .vdivS a _ _ | .timesS _ a _ | .copy a _
  | .vmaxS a _ _ | .vminS a _ _ | .alo a _ _ _ | .reciprocal a _ | .sign a _ | .math _ a _
  | .powS _ a _ _ => [a]
  | .vadd a b _ | .vsub a b _ | .vmul a b _ | .vdiv a b _ | .times a b _ | .vmax a b _
  | .vmin a b _ | .pow _ a b _ => [a, b]
  | .fill _ _ => []
  | .axpy _ x y | .xpay _ x y => [x, y]
  | .axpyz _ x y _ => [x, y]
  | .scal _ x => [x]

/-- element `i` of an array in memory `m` -/
def Arr.el (a : Arr) (m : List α) (i : Nat) : Option α := m[a.off + i]?

variable [Zero α] [One α] [Add α] [Sub α] [Neg α] [Mul α] [Div α] [Max α] [Min α]

/-- the value the output's element `i` must have after the call -/
def Call.want (m : List α) (i : Nat) : Call α → Option α
  | .vaddS a al _ => do let u ← a.el m i; pure (u + al)
  | .vsubS a al _ => do let u ← a.el m i; pure (u - al)
  | .vmulS a al _ => do let u ← a.el m i; pure (u * al)
  | .vdivS a al _ => do let u ← a.el m i; pure (u / al)
  | .vadd a b _ => do let u ← a.el m i; let v ← b.el m i; pure (u + v)
  | .vsub a b _ => do let u ← a.el m i; let v ← b.el m i; pure (u - v)
  | .vmul a b _ => do let u ← a.el m i; let v ← b.el m i; pure (u * v)
  | .vdiv a b _ => do let u ← a.el m i; let v ← b.el m i; pure (u / v)
  | .timesS al a _ => do let u ← a.el m i; pure (u * al)
  | .times a b _ => do let u ← a.el m i; let v ← b.el m i; pure (u * v)
  | .copy a _ => a.el m i
  | .fill al _ => some al
  | .axpy al x y => do let u ← x.el m i; let v ← y.el m i; pure (al * u + v)
  | .axpyz al x y _ => do let u ← x.el m i; let v ← y.el m i; pure (al * u + v)
  | .xpay al x y => do let u ← x.el m i; let v ← y.el m i; pure (u + al * v)
  | .scal al x => do let u ← x.el m i; pure (al * u)
  | .vmax a b _ => do let u ← a.el m i; let v ← b.el m i; pure (max u v)
  | .vmaxS a al _ => do let u ← a.el m i; pure (max u al)
  | .vmin a b _ => do let u ← a.el m i; let v ← b.el m i; pure (min u v)
  | .vminS a al _ => do let u ← a.el m i; pure (min u al)
  | .alo a al be _ => do let u ← a.el m i; pure (al * u + (be - al) * min u 0)
  | .reciprocal a _ => do let u ← a.el m i; pure (1 / u)
  | .sign a _ => do let u ← a.el m i; pure (-1 * u)
  | .math fn a _ => do let u ← a.el m i; pure (fn u)
  | .pow fn a b _ => do let u ← a.el m i; let v ← b.el m i; pure (fn u v)
  | .powS fn a al _ => do let u ← a.el m i; pure (fn u al)

/-- two arguments either denote the same window or do not overlap -/
def Arr.Compatible (a y : Arr) : Prop :=
  a.off = y.off ∨ a.off + y.size ≤ y.off ∨ y.off + y.size ≤ a.off

/-- A legal call: all arguments have the same size, lie in memory, and the output coincides with an
input or is disjoint from it. -/
structure Call.Legal (c : Call α) (m : List α) : Prop where
  size : ∀ a ∈ c.ins, a.size = c.out.size
  inside : ∀ a ∈ c.ins, a.off + a.size ≤ m.length
  outInside : c.out.off + c.out.size ≤ m.length
  alias : ∀ a ∈ c.ins, a.Compatible c.out

end Verif.Conc
