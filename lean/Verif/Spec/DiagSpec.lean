import Verif.Model.Diag

/-! Specification of the diagonal operations: what the member functions are named after. -/

namespace Verif.Spec

variable {α : Type} [Add α] [Sub α] [Mul α] [Div α]

/-- the new diagonal element for the old one `a` and the operand `y` -/
def diagResult (o : Diag.Op) (a y : α) : α :=
  match o with
  | .add => a + y
  | .sub => a - y
  | .mul => a * y
  | .div => a / y

end Verif.Spec
