import Verif.Model.Device

/-! What the transfer theorems (C83, C84) are stated with. -/

namespace Verif.Spec.Device

open Verif Verif.Dev

variable {α : Type}

/-- two memory sections (address, length) have no element in common -/
def Apart (p q : Nat × Nat) : Prop := p.1 + p.2 ≤ q.1 ∨ q.1 + q.2 ≤ p.1 ∨ p.2 = 0 ∨ q.2 = 0

/-- Where the objects of a program are: the sections belonging to each status flag. Distinct objects do not
overlap; objects that share a flag (by `move` of a whole object) have the same sections. -/
structure Separate (U : Nat → List (Nat × Nat)) : Prop where
  inside : ∀ f, (U f).Pairwise Apart
  across : ∀ f g, f ≠ g → ∀ p ∈ U f, ∀ q ∈ U g, Apart p q

/-- the object is one of the program's -/
def Known (U : Nat → List (Nat × Nat)) (o : Obj) : Prop := o.bufs = U o.flag

/-- the value of the object at an address: that of the device copy while the object is on the device -/
def value (s : St α) (o : Obj) (a : Nat) : α := if s.flags o.flag then devMem s a else s.host a

/-- the new values of `y` depend only on the arguments -/
def Local (y : Obj) (xs : List Obj) (g : (Nat → α) → Nat → α) : Prop :=
  ∀ m m' : Nat → α, (∀ o ∈ y :: xs, ∀ a, o.covers a → m a = m' a) → ∀ a, y.covers a → g m a = g m' a

def upd (f : Nat → Bool) (i : Nat) (v : Bool) : Nat → Bool := fun j => if j = i then v else f j

/-- The rules for a portable program: `on` says which objects are on the device, `dirty` which of them have
been computed on there since the last transfer.
* no `send` of, and no `device_free` of, an object with results that exist only on the device;
* a computing function gets all its arguments on the same side, and depends on nothing else;
* elements are accessed only while the object is on the host. -/
def Portable (U : Nat → List (Nat × Nat)) : (on dirty : Nat → Bool) → List (Op α) → Prop
  | _, _, [] => True
  | on, dirty, .send o :: p => Known U o ∧ (on o.flag = true → dirty o.flag = false) ∧
      Portable U (upd on o.flag true) (upd dirty o.flag false) p
  | on, dirty, .recv o :: p => Known U o ∧ Portable U (upd on o.flag false) (upd dirty o.flag false) p
  | on, dirty, .nonfreeRecv o :: p => Known U o ∧ Portable U on (upd dirty o.flag false) p
  | on, dirty, .deviceFree o :: p => Known U o ∧ (on o.flag = true → dirty o.flag = false) ∧
      Portable U (upd on o.flag false) (upd dirty o.flag false) p
  | on, dirty, .compute y xs g :: p => (∀ o ∈ y :: xs, Known U o ∧ on o.flag = on y.flag) ∧ Local y xs g ∧
      Portable U on (upd dirty y.flag (on y.flag)) p
  | on, dirty, .set o a _ :: p => Known U o ∧ on o.flag = false ∧ o.covers a ∧ Portable U on dirty p

/-- all objects are known, nothing else is required -/
def AllKnown (U : Nat → List (Nat × Nat)) : List (Op α) → Prop
  | [] => True
  | .send o :: p => Known U o ∧ AllKnown U p
  | .recv o :: p => Known U o ∧ AllKnown U p
  | .nonfreeRecv o :: p => Known U o ∧ AllKnown U p
  | .deviceFree o :: p => Known U o ∧ AllKnown U p
  | .compute y xs _ :: p => (∀ o ∈ y :: xs, Known U o) ∧ AllKnown U p
  | .set o _ _ :: p => Known U o ∧ AllKnown U p

/-- nothing has been sent yet -/
def start (host : Nat → α) : St α := { host := host, regions := [], flags := fun _ => false }

end Verif.Spec.Device
