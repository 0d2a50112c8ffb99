import Verif.Spec.Ext
import Verif.Lemmas.Solver

/-! The extended numbers compute exactly on finite values, and NaN spreads. -/

namespace Verif.Spec

open Solver

variable {K : Type} [Field K] [LinearOrder K] [IsStrictOrderedRing K]

theorem Ext.foldl_fin (l : List K) (a : K) :
    List.foldl Ext.add (Ext.fin a) (l.map Ext.fin) = Ext.fin (a + l.sum) := by
  induction l generalizing a with
  | nil => simp
  | cons b l ih => simp [Ext.add, ih, add_assoc]

theorem Ext.exact (sq : K → K) : Exact (Ext.num sq) (Ext.fin : K → Ext K) sq where
  zero := rfl
  one := rfl
  add _ _ := rfl
  sub a b := by simp [Ext.num, Ext.add, Ext.neg, sub_eq_add_neg]
  mul _ _ := rfl
  div a b hb := by simp [Ext.num, Ext.div, hb]
  neg _ := rfl
  sqrt a ha := by simp [Ext.num, Ext.sqrt, not_lt.2 ha]
  lt _ _ := rfl
  isNaN _ := rfl
  isZero _ := rfl
  sum l := by simp [Ext.num, Ext.foldl_fin]

theorem fieldNum_exact (sq : K → K) : Exact (fieldNum sq) (id : K → K) sq where
  zero := rfl
  one := rfl
  add _ _ := rfl
  sub _ _ := rfl
  mul _ _ := rfl
  div _ _ _ := rfl
  neg _ := rfl
  sqrt _ _ := rfl
  lt _ _ := rfl
  isNaN _ := rfl
  isZero _ := rfl
  sum l := by simp [fieldNum]

theorem Ext.nan_add (a : Ext K) : Ext.add .nan a = .nan := by cases a <;> rfl
theorem Ext.add_nan (a : Ext K) : Ext.add a .nan = .nan := by cases a <;> rfl
theorem Ext.nan_mul (a : Ext K) : Ext.mul .nan a = .nan := by cases a <;> rfl
theorem Ext.mul_nan (a : Ext K) : Ext.mul a .nan = .nan := by cases a <;> rfl
theorem Ext.nan_div (a : Ext K) : Ext.div .nan a = .nan := by cases a <;> rfl
theorem Ext.div_nan (a : Ext K) : Ext.div a .nan = .nan := by cases a <;> rfl

theorem Ext.foldl_nan (l : List (Ext K)) : List.foldl Ext.add .nan l = .nan := by
  induction l with
  | nil => rfl
  | cons a l ih => rw [List.foldl_cons, Ext.nan_add, ih]

theorem Ext.foldl_mem_nan (l : List (Ext K)) (a : Ext K) (h : Ext.nan ∈ l) :
    List.foldl Ext.add a l = .nan := by
  induction l generalizing a with
  | nil => simp at h
  | cons b l ih =>
    rw [List.foldl_cons]
    rcases List.mem_cons.1 h with h | h
    · rw [← h, Ext.add_nan, Ext.foldl_nan]
    · exact ih _ h

/-- the norm of a vector that contains NaN is NaN -/
theorem Ext.nrm2_nan (sq : K → K) (l : List (Ext K)) (h : Ext.nan ∈ l) :
    (Ext.num sq).nrm2 l = .nan := by
  have : Ext.nan ∈ List.zipWith (Ext.num sq).mul l l := by
    obtain ⟨i, hi, he⟩ := List.getElem_of_mem h
    refine List.mem_of_getElem (i := i) (h := by simpa using hi) ?_
    simp [he, Ext.num, Ext.mul]
  simp only [Num.nrm2]
  show Ext.sqrt sq (List.foldl Ext.add (.fin 0) _) = _
  rw [Ext.foldl_mem_nan _ _ this]
  rfl

end Verif.Spec
