import Verif.Lemmas.Dispatch

/-!
The tables of the API, checked row by row by evaluation in the kernel: symbolic execution of every overload
gives the expression `Fn.code` and writes the last parameter.
-/

namespace Verif.Dispatch

/-- the expression each function is expected to evaluate, from the kinds of its parameters
(`true`: container) -/
def Fn.code : Fn → List Bool → Option Expr
  | .vml_add, [true, true, true] => some (.bin .add (.el 0) (.el 1))
  | .vml_add, [true, false, true] => some (.bin .add (.el 0) (.sc 1))
  | .vml_sub, [true, true, true] => some (.bin .sub (.el 0) (.el 1))
  | .vml_sub, [true, false, true] => some (.bin .sub (.el 0) (.sc 1))
  | .vml_mul, [true, true, true] => some (.bin .mul (.el 0) (.el 1))
  | .vml_mul, [true, false, true] => some (.bin .mul (.el 0) (.sc 1))
  | .vml_div, [true, true, true] => some (.bin .div (.el 0) (.el 1))
  | .vml_div, [true, false, true] => some (.bin .div (.el 0) (.sc 1))
  | .vml_pow, [true, true, true] => some (.bin .pow (.el 0) (.el 1))
  | .vml_pow, [true, false, true] => some (.bin .pow (.el 0) (.sc 1))
  | .vml_max, [true, true, true] => some (.bin .max (.el 0) (.el 1))
  | .vml_max, [true, false, true] => some (.bin .max (.el 0) (.sc 1))
  | .vml_min, [true, true, true] => some (.bin .min (.el 0) (.el 1))
  | .vml_min, [true, false, true] => some (.bin .min (.el 0) (.sc 1))
  | .vml_sin, [true, true] => some (.un .sin (.el 0))
  | .vml_sqrt, [true, true] => some (.un .sqrt (.el 0))
  | .vml_sinh, [true, true] => some (.un .sinh (.el 0))
  | .vml_asin, [true, true] => some (.un .asin (.el 0))
  | .vml_asinh, [true, true] => some (.un .asinh (.el 0))
  | .vml_tan, [true, true] => some (.un .tan (.el 0))
  | .vml_tanh, [true, true] => some (.un .tanh (.el 0))
  | .vml_atan, [true, true] => some (.un .atan (.el 0))
  | .vml_atanh, [true, true] => some (.un .atanh (.el 0))
  | .vml_ceil, [true, true] => some (.un .ceil (.el 0))
  | .vml_floor, [true, true] => some (.un .floor (.el 0))
  | .vml_exp, [true, true] => some (.un .exp (.el 0))
  | .vml_sign, [true, true] => some (.bin .mul (.lit (-1)) (.el 0))
  | .vml_reciprocal, [true, true] => some (.bin .div (.lit 1) (.el 0))
  | .vml_alo, [true, false, false, true] => some (.bin .add (.bin .mul (.sc 1) (.el 0))
      (.bin .mul (.bin .sub (.sc 2) (.sc 1)) (.bin .min (.el 0) (.lit 0))))
  | .blas_vecadd, [true, true, true] => some (.bin .add (.el 0) (.el 1))
  | .blas_vecsub, [true, true, true] => some (.bin .sub (.el 0) (.el 1))
  | .blas_matadd, [true, true, true] => some (.bin .add (.el 0) (.el 1))
  | .blas_matsub, [true, true, true] => some (.bin .sub (.el 0) (.el 1))
  | .blas_tensadd, [true, true, true] => some (.bin .add (.el 0) (.el 1))
  | .blas_tenssub, [true, true, true] => some (.bin .sub (.el 0) (.el 1))
  | .blas_times, [true, true, true] => some (.bin .mul (.el 0) (.el 1))
  | .blas_times, [false, true, true] => some (.bin .mul (.el 1) (.sc 0))
  | .blas_adds, [false, true, true] => some (.bin .add (.el 1) (.sc 0))
  | .blas_copy, [true, true] => some (.el 0)
  | .blas_axpy, [false, true, true] => some (.bin .add (.bin .mul (.sc 0) (.el 1)) (.el 2))
  | .blas_axpyz, [false, true, true, true] => some (.bin .add (.bin .mul (.sc 0) (.el 1)) (.el 2))
  | .blas_xpay, [false, true, true] => some (.bin .add (.el 1) (.bin .mul (.sc 0) (.el 2)))
  | .blas_scal, [false, true] => some (.bin .mul (.sc 0) (.el 1))
  | .blas_mscal, [false, true] => some (.bin .mul (.el 1) (.sc 0))
  | .blas_tscal, [false, true] => some (.bin .mul (.el 1) (.sc 0))
  | _, _ => none

/-- all container parameters are sparse, or none is -/
def uniform (ps : List Par) : Bool :=
  ps.all fun p => match p with
    | .obj t _ _ => t.sparse == anySparse ps
    | .scal _ => true

/-- one row of the tables is as expected in one build configuration -/
def Overload.good1 (o : Overload) (mode : Mode) : Bool :=
  match o.sym mode with
  | some (_, dst, e) =>
    decide (dst + 1 = o.pars.length) && decide (Fn.code o.fn (o.pars.map Par.isObj) = some e)
  | none => false

/-- one row of the tables is as expected -/
def Overload.good (o : Overload) : Bool :=
  uniform o.pars && (o.good1 .cpu && (o.good1 .mkl && o.good1 .gpu))

/-- the containers compared by some check -/
def Overload.compared (o : Overload) (structure_ : Bool) : List (List Nat) :=
  o.coreDef.checks.filterMap fun c => match c with
    | .sameSize ps => if structure_ then none else some (ps.map fun k => o.args.getD k 0)
    | .sameStructure ps => some (ps.map fun k => o.args.getD k 0)

/-- the positions of the containers among the parameters -/
def objIdx (ps : List Par) : List Nat := (List.range ps.length).filter fun j => (ps.map Par.isObj)[j]?.getD false

/-- some check compares all containers (its `structure_` variant: compares their structure) -/
def Overload.checksAll (structure_ : Bool) (o : Overload) : Bool :=
  (o.compared structure_).any fun ps => (objIdx o.pars).all fun j => decide (j ∈ ps)

/-- the functions with one container only have nothing to compare -/
def Overload.single (o : Overload) : Bool := decide ((objIdx o.pars).length = 1)

/-- `blas::times(a, b, y)` -/
def Overload.isTimesVec (o : Overload) : Bool :=
  decide (o.fn = .blas_times) && decide (o.pars.map Par.isObj = [true, true, true])

/-- `vml::add/sub/mul/div(A, alpha, C)` -/
def Overload.isScalarArith (o : Overload) : Bool :=
  (decide (o.fn = .vml_add) || decide (o.fn = .vml_sub) || decide (o.fn = .vml_mul) || decide (o.fn = .vml_div)) &&
    decide (o.pars.map Par.isObj = [true, false, true])

def Overload.goodChecks (o : Overload) : Bool :=
  (o.single || o.isTimesVec || o.checksAll false) &&
    (o.single || !anySparse o.pars || o.isScalarArith || o.checksAll true)

def Overload.good2 (o : Overload) : Bool := o.good && o.goodChecks

def allGood (t : List (List Overload)) : Bool := t.all fun l => l.all Overload.good2

set_option maxRecDepth 100000 in
theorem good_vmlVec : allGood tVmlVec = true := by decide +kernel
set_option maxRecDepth 100000 in
theorem good_vmlMat : allGood tVmlMat = true := by decide +kernel
set_option maxRecDepth 100000 in
theorem good_vmlTen : allGood tVmlTen = true := by decide +kernel
set_option maxRecDepth 100000 in
theorem good_blas : allGood (tBlasVec ++ tBlasMatAddSub ++ tBlasMatTimes ++ tBlasMatAdds ++ tBlasMatScal ++
    tBlasMatCopy ++ tBlasTenAddSub ++ tBlasTenTimes ++ tBlasTenAdds ++ tBlasTenScal ++ tBlasTenCopy) = true := by
  decide +kernel

theorem good_api {o : Overload} (ho : o ∈ api) : o.good2 = true := by
  have h : allGood (tVmlVec ++ tVmlMat ++ tVmlTen ++ (tBlasVec ++ tBlasMatAddSub ++ tBlasMatTimes ++
      tBlasMatAdds ++ tBlasMatScal ++ tBlasMatCopy ++ tBlasTenAddSub ++ tBlasTenTimes ++ tBlasTenAdds ++
      tBlasTenScal ++ tBlasTenCopy)) = true := by
    have h1 := good_vmlVec; have h2 := good_vmlMat; have h3 := good_vmlTen; have h4 := good_blas
    unfold allGood at h1 h2 h3 h4 ⊢
    simp only [List.all_append, h1, h2, h3, Bool.true_and] at h4 ⊢
    exact h4
  unfold api at ho
  simp only [List.append_assoc] at ho h
  obtain ⟨l, hl, hol⟩ := List.mem_flatten.mp ho
  exact List.all_eq_true.mp (List.all_eq_true.mp h l hl) o hol

end Verif.Dispatch
