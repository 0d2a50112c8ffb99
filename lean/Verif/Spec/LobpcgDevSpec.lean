import Verif.Model.LobpcgDev

/-!
What it means that an eigenvalue calculation in a GPU build ends like a given calculation on the host.
-/

namespace Verif.Lobpcg.Dev

variable {α β γ : Type}

/-- the same outcome: the same kind of error with the same message, or results that are related by `R` -/
def Sim (R : β → γ → Prop) : Res β → Res γ → Prop
  | .ok a, .ok b => R a b
  | .throw e, .throw e' => e = e'
  | .abort e, .abort e' => e = e'
  | .ub e, .ub e' => e = e'
  | _, _ => False

/-- what the caller can see of a result: return code, eigenvalues, the rows of `xinout` on the side where it is, iterations, residual -/
def out (r : Ret α) : Out α :=
  { status := r.status, l := r.s.l.get, x := r.s.xin.get, finalIter := r.finalIter, finalResid := r.finalResid }

/-- The call ends like the calculation `b` on the host (or neither has ended by the given number of passes); afterwards the
eigenvalues are on the host, and `xinout` is on the device if and only if `side`. -/
def Agree (side : Bool) : Option (Res (Ret α)) → Option (Res (Out α)) → Prop
  | none, none => True
  | some a, some b => Sim (fun r o => out r = o ∧ r.s.l.on = false ∧ r.s.xin.on = side) a b
  | _, _ => False

end Verif.Lobpcg.Dev
