import Verif.Spec.DispatchSpec

/-!
C66: the element-wise API is complete: every function exists for every combination of storage classes.
-/

namespace Verif.Dispatch

/-- the classes holding a vector, a dense matrix, a dense tensor -/
def vectorLike : List Ty := [.vector, .view1D .vec, .view1D .mat, .view1D .ten]
def matrixLike : List Ty := [.dense, .viewDense .vec, .viewDense .mat, .viewDense .ten]
def tensorLike : List Ty := [.tdense, .viewTDense .vec, .viewTDense .mat, .viewTDense .ten]

/-- functions of two operands -/
def binary : List Fn := [.vml_add, .vml_sub, .vml_mul, .vml_div, .vml_pow, .vml_max, .vml_min]

/-- functions of one operand -/
def unary : List Fn :=
  [.vml_sin, .vml_sqrt, .vml_sinh, .vml_asin, .vml_asinh, .vml_tan, .vml_tanh, .vml_atan, .vml_atanh, .vml_ceil,
    .vml_floor, .vml_exp, .vml_sign, .vml_reciprocal]

/-- the parameter lists of an overload `f(A, B, C)`, `f(A, alpha, C)`, `f(A, C)`, `f(A, alpha, beta, C)` -/
def sig3 (p : Prec) (a b c : Ty) : List Par := [.obj a p true, .obj b p true, .obj c p false]
def sigS (p : Prec) (a c : Ty) : List Par := [.obj a p true, .scal p, .obj c p false]
def sig2 (p : Prec) (a c : Ty) : List Par := [.obj a p true, .obj c p false]
def sigAlo (p : Prec) (a c : Ty) : List Par := [.obj a p true, .scal p, .scal p, .obj c p false]

/-- all signatures of the element-wise VML functions over these classes -/
def wanted (tys : List Ty) : List (Fn × List (List Par)) :=
  let ps : List Prec := [.d, .s]
  binary.map (fun f => (f,
      (ps.flatMap fun p => tys.flatMap fun a => tys.flatMap fun b => tys.map fun c => sig3 p a b c) ++
      (ps.flatMap fun p => tys.flatMap fun a => tys.map fun c => sigS p a c))) ++
    unary.map (fun f => (f, ps.flatMap fun p => tys.flatMap fun a => tys.map fun c => sig2 p a c)) ++
    [(.vml_alo, ps.flatMap fun p => tys.flatMap fun a => tys.map fun c => sigAlo p a c)]

/-- the signatures of one function in a table -/
def sigsOf (t : List (List Overload)) (f : Fn) : List (List Par) :=
  t.flatMap fun l => l.filterMap fun o => if o.fn = f then some o.pars else none

/-- the table has all the wanted signatures -/
def hasAll (t : List (List Overload)) (w : List (Fn × List (List Par))) : Bool :=
  w.all fun fs => let have_ := sigsOf t fs.1; fs.2.all fun s => have_.any fun s' => decide (s' = s)

theorem hasAll_vec : hasAll tVmlVec (wanted vectorLike) = true := by decide +kernel
theorem hasAll_mat : hasAll tVmlMat (wanted matrixLike ++ wanted [.crs]) = true := by decide +kernel
theorem hasAll_ten : hasAll tVmlTen (wanted tensorLike ++ wanted [.tcrs]) = true := by decide +kernel

theorem of_hasAll {t : List (List Overload)} {w : List (Fn × List (List Par))} (h : hasAll t w = true)
    (ht : ∀ l ∈ t, ∀ o ∈ l, o ∈ api) {f : Fn} {ss : List (List Par)} (hf : (f, ss) ∈ w) {s : List Par}
    (hs : s ∈ ss) : ∃ o ∈ api, o.fn = f ∧ o.pars = s := by
  have h1 := List.all_eq_true.mp h _ hf
  have h2 := List.all_eq_true.mp h1 s hs
  obtain ⟨s', h3, h4⟩ := List.any_eq_true.mp h2
  simp only [decide_eq_true_eq] at h4
  subst h4
  simp only [sigsOf, List.mem_flatMap, List.mem_filterMap, Option.ite_none_right_eq_some,
    Option.some.injEq] at h3
  obtain ⟨l, hl, o, ho, h5, h6⟩ := h3
  exact ⟨o, ht l hl o ho, h5, h6⟩

theorem sub_api {l : List Overload} (h : l ∈ tVmlVec ∨ l ∈ tVmlMat ∨ l ∈ tVmlTen) : ∀ o ∈ l, o ∈ api := by
  intro o ho
  unfold api
  refine List.mem_flatten.mpr ⟨l, ?_, ho⟩
  simp only [List.mem_append]
  iterate 11 left
  rcases h with h | h | h
  · exact Or.inl (Or.inl h)
  · exact Or.inl (Or.inr h)
  · exact Or.inr h

/-- a family of classes whose members may be mixed in one call -/
def family (F : List Ty) : Prop :=
  F = vectorLike ∨ F = matrixLike ∨ F = tensorLike ∨ F = [.crs] ∨ F = [.tcrs]

theorem wanted_api {F : List Ty} (hF : family F) {f : Fn} {ss : List (List Par)} (hf : (f, ss) ∈ wanted F)
    {s : List Par} (hs : s ∈ ss) : ∃ o ∈ api, o.fn = f ∧ o.pars = s := by
  rcases hF with rfl | rfl | rfl | rfl | rfl
  · exact of_hasAll hasAll_vec (fun l hl => sub_api (Or.inl hl)) hf hs
  · exact of_hasAll hasAll_mat (fun l hl => sub_api (Or.inr (Or.inl hl))) (List.mem_append_left _ hf) hs
  · exact of_hasAll hasAll_ten (fun l hl => sub_api (Or.inr (Or.inr hl))) (List.mem_append_left _ hf) hs
  · exact of_hasAll hasAll_mat (fun l hl => sub_api (Or.inr (Or.inl hl))) (List.mem_append_right _ hf) hs
  · exact of_hasAll hasAll_ten (fun l hl => sub_api (Or.inr (Or.inr hl))) (List.mem_append_right _ hf) hs

theorem mem_prec (p : Prec) : p ∈ ([.d, .s] : List Prec) := by cases p <;> simp

/-- **C66 (two operands).** `vml::add, sub, mul, div, pow, max, min` accept every combination of storage
classes of one family for the two operands and the result, in both precisions. -/
theorem C66_binary {F : List Ty} (hF : family F) {f : Fn} (hf : f ∈ binary) (p : Prec) {a b c : Ty}
    (ha : a ∈ F) (hb : b ∈ F) (hc : c ∈ F) : ∃ o ∈ api, o.fn = f ∧ o.pars = sig3 p a b c := by
  refine wanted_api hF (f := f) (List.mem_append_left _ (List.mem_append_left _ (List.mem_map.mpr ⟨f, hf, rfl⟩))) ?_
  refine List.mem_append_left _ (List.mem_flatMap.mpr ⟨p, mem_prec p, List.mem_flatMap.mpr ⟨a, ha,
    List.mem_flatMap.mpr ⟨b, hb, List.mem_map.mpr ⟨c, hc, rfl⟩⟩⟩⟩)

/-- **C66 (operand and scalar).** The same with a scalar as second operand. -/
theorem C66_scalar {F : List Ty} (hF : family F) {f : Fn} (hf : f ∈ binary) (p : Prec) {a c : Ty}
    (ha : a ∈ F) (hc : c ∈ F) : ∃ o ∈ api, o.fn = f ∧ o.pars = sigS p a c := by
  refine wanted_api hF (f := f) (List.mem_append_left _ (List.mem_append_left _ (List.mem_map.mpr ⟨f, hf, rfl⟩))) ?_
  refine List.mem_append_right _ (List.mem_flatMap.mpr ⟨p, mem_prec p, List.mem_flatMap.mpr ⟨a, ha,
    List.mem_map.mpr ⟨c, hc, rfl⟩⟩⟩)

/-- **C66 (one operand).** -/
theorem C66_unary {F : List Ty} (hF : family F) {f : Fn} (hf : f ∈ unary) (p : Prec) {a c : Ty}
    (ha : a ∈ F) (hc : c ∈ F) : ∃ o ∈ api, o.fn = f ∧ o.pars = sig2 p a c := by
  refine wanted_api hF (f := f) (List.mem_append_left _ (List.mem_append_right _ (List.mem_map.mpr ⟨f, hf, rfl⟩))) ?_
  exact List.mem_flatMap.mpr ⟨p, mem_prec p, List.mem_flatMap.mpr ⟨a, ha, List.mem_map.mpr ⟨c, hc, rfl⟩⟩⟩

/-- **C66 (alo).** -/
theorem C66_alo {F : List Ty} (hF : family F) (p : Prec) {a c : Ty}
    (ha : a ∈ F) (hc : c ∈ F) : ∃ o ∈ api, o.fn = .vml_alo ∧ o.pars = sigAlo p a c := by
  refine wanted_api hF (f := .vml_alo) (List.mem_append_right _ (List.mem_singleton.mpr rfl)) ?_
  exact List.mem_flatMap.mpr ⟨p, mem_prec p, List.mem_flatMap.mpr ⟨a, ha, List.mem_map.mpr ⟨c, hc, rfl⟩⟩⟩

example : family vectorLike ∧ Fn.vml_pow ∈ binary ∧ Ty.view1D .ten ∈ vectorLike := by
  refine ⟨Or.inl rfl, by decide, by decide⟩

end Verif.Dispatch
