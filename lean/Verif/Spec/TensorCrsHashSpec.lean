import Verif.Model.TensorCrsHash
import Verif.Spec.CrsSpec

/-!
Which `tensor_CRS` objects have a structure hash (C111).
-/

namespace Verif.Spec

open Verif

variable {α : Type} [Zero α]

/-- A tensor whose last structural operation was `set_ptr` (with row pointers of the right length), a conversion from COO
form, from a CRS matrix or from such a tensor (also the copy constructor), followed by any number of assignments and
`fill`s and other changes of the values (element access, element-wise functions). `T` is the previous state of the target: any. -/
inductive Made (sch : Nat → Sched) : HTCrs α → Prop
  | setPtr {T A : HTCrs α} {shape : List Nat} {rps cis : List (List Nat)} {n : Nat} {v : List α}
      (hs : shape ≠ []) (hl : rps.length = cis.length)
      (hp : ∀ p ∈ rps, p.length = shape.getD (shape.length - 2) 0 + 1)
      (h : T.setPtr sch shape rps cis n v = .ok A) : Made sch A
  | setPtrFill {T A : HTCrs α} {order : List Nat} {shape : List Nat} {rps cis : List (List Nat)} {n : Nat} {v : α}
      (hs : shape ≠ []) (hl : rps.length = cis.length)
      (hp : ∀ p ∈ rps, p.length = shape.getD (shape.length - 2) 0 + 1)
      (h : T.setPtrFill sch order shape rps cis n v = .ok A) : Made sch A
  | coo {T A : HTCrs α} {c : TCoo α} (h : T.convertCoo sch c = .ok A) : Made sch A
  | mat {T A : HTCrs α} {M : Crs α} (hM : M.Safe) (h : T.convertMat (HCrs.make sch M) = .ok A) : Made sch A
  | copy {T A B : HTCrs α} (hA : Made sch A) (h : T.convertCrs A = .ok B) : Made sch B
  | assign {A B C : HTCrs α} (hA : Made sch A) (h : A.assign B = .ok C) : Made sch C
  | fill {A B : HTCrs α} {order : List Nat} {v : α} (hA : Made sch A) (h : A.fill order v = .ok B) : Made sch B
  | values {A : HTCrs α} {v : List α} (hA : Made sch A) : Made sch ⟨{ A.tens with val := v }, A.hash⟩

end Verif.Spec
