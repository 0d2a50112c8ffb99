import Verif.Model.View

/-! Memory cells, and which cells the elements of an object or view are. -/

namespace Verif.Shared

variable {α : Type}

/-- the memory cell `p` of buffer `a` -/
def Sys.cell (s : Sys α) (a p : Nat) : Option α := s.bufs[a]?.bind (fun b => b[p]?)

/-- `k`-th element of an object or view is cell `off + k` of buffer `addr`, there are `size` of them, and
they are live memory -/
structure Window (s : Sys α) (t : Tgt) (addr off size : Nat) : Prop where
  begin_eq : s.beginOf t = .ok (addr, off)
  size_eq : s.nnzOf t = .ok size
  owned : s.owned addr = true
  inside : ∀ k, k < size → (s.cell addr (off + k)).isSome = true

/-- a view as its constructors and `resize` leave it -/
def Tgt.Fresh : Tgt → Prop
  | .obj _ => True
  | .view _ d => d.last = d.first + d.range

/-- nothing changed outside the cells `off .. off + size` of buffer `addr` -/
def SameElsewhere (s s' : Sys α) (addr off size : Nat) : Prop :=
  s'.objs = s.objs ∧ ∀ a p, ¬ (a = addr ∧ off ≤ p ∧ p < off + size) → s'.cell a p = s.cell a p

end Verif.Shared
