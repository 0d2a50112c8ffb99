import Verif.Model.Dispatch

/-!
Checking that one long list of small numbers is contained in another with a few operations on large numbers.
-/

namespace Verif

/-- the number whose binary digits say which numbers are in the list -/
def mask : List Nat → Nat
  | [] => 0
  | c :: cs => mask cs ||| (1 <<< c)

theorem testBit_mask (c : Nat) : ∀ cs : List Nat, (mask cs).testBit c = true ↔ c ∈ cs
  | [] => by simp [mask]
  | d :: cs => by
    rw [mask, Nat.testBit_or, Bool.or_eq_true, testBit_mask c cs, List.mem_cons]
    have : (1 <<< d).testBit c = true ↔ c = d := by
      rw [Nat.shiftLeft_eq, Nat.one_mul, Nat.testBit_two_pow]
      simp [eq_comm]
    rw [this]
    exact Or.comm

/-- containment from one equation between numbers -/
theorem subset_of_mask {w h : List Nat} (e : mask w ||| mask h = mask h) {c : Nat} (hc : c ∈ w) : c ∈ h := by
  rw [← testBit_mask c h, ← e, Nat.testBit_or, (testBit_mask c w).mpr hc, Bool.true_or]

namespace Dispatch

def Own.code : Own → Nat
  | .vec => 0
  | .mat => 1
  | .ten => 2

def Ty.code : Ty → Nat
  | .vector => 0
  | .view1D o => 1 + o.code
  | .dense => 4
  | .viewDense o => 5 + o.code
  | .crs => 8
  | .tdense => 9
  | .viewTDense o => 10 + o.code
  | .tcrs => 13

def Prec.code : Prec → Nat
  | .d => 0
  | .s => 1

theorem Ty.code_lt (t : Ty) : t.code < 16 := by
  cases t <;> first | decide | (rename_i o; cases o <;> decide)

theorem Ty.code_inj {t u : Ty} (h : t.code = u.code) : t = u := by
  have key : ∀ t u : Ty, t.code = u.code → t = u := by
    intro t u
    cases t <;> (try rename_i o; cases o) <;> cases u <;> (try rename_i o; cases o) <;> decide
  exact key t u h

theorem Prec.code_inj {p q : Prec} (h : p.code = q.code) : p = q := by
  cases p <;> cases q <;> first | rfl | cases h

/-- a number for a signature with three containers of one precision -/
def sigCode (s : Prec × Ty × Ty × Ty) : Nat :=
  ((s.2.1.code * 16 + s.2.2.1.code) * 16 + s.2.2.2.code) * 2 + s.1.code

theorem sigCode_inj {s t : Prec × Ty × Ty × Ty} (h : sigCode s = sigCode t) : s = t := by
  obtain ⟨p, a, x, c⟩ := s
  obtain ⟨p', a', x', c'⟩ := t
  have hp : p.code < 2 := by cases p <;> decide
  have hp' : p'.code < 2 := by cases p' <;> decide
  have := a.code_lt
  have := a'.code_lt
  have := x.code_lt
  have := x'.code_lt
  have := c.code_lt
  have := c'.code_lt
  simp only [sigCode] at h
  have h1 : a = a' := Ty.code_inj (by omega)
  have h2 : x = x' := Ty.code_inj (by omega)
  have h3 : c = c' := Ty.code_inj (by omega)
  have h4 : p = p' := Prec.code_inj (by omega)
  rw [h1, h2, h3, h4]

end Dispatch

end Verif
