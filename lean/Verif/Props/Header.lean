import Verif.Spec.DispatchSpec
import Verif.Model.HeaderProduct
import Verif.Model.HeaderLine
import Verif.Model.HeaderReduction
import Verif.Model.HeaderElemVec
import Verif.Model.HeaderElemMat
import Verif.Model.HeaderElemTen
import Verif.Model.HeaderElemBlas

/-!
C95: what the public headers declare against what the library defines.

`declared` (Model/Header*.lean) lists the declarations of include/monolish/{blas,vml}/*.hpp, read by a program of its
own (tools/header_gen.py) that knows nothing of the definitions; `products`, `lines`, `reductions` and `api` list the
definitions of src/.  A user can call what is in both lists: a definition without a declaration cannot be named, a
declaration without a definition does not link.
-/

namespace Verif

/-- the keys of the members of a table that are not hidden -/
def visible {β γ : Type} (key : β → γ) (hid : γ → Bool) (t : List (List β)) : List (List γ) :=
  t.map fun l => (l.map key).filter fun k => !hid k

/-- two lists of lists with the same chunks, after a filter, have the same filtered members -/
theorem mem_of_chunks {β γ : Type} [DecidableEq γ] {d : List (List γ)} {t : List (List β)} {key : β → γ}
    {hid : γ → Bool} (h : d = visible key hid t) (k : γ) :
    k ∈ d.flatten ↔ (∃ o ∈ t.flatten, key o = k) ∧ hid k = false := by
  subst h
  simp only [visible, List.mem_flatten, List.mem_map]
  constructor
  · rintro ⟨l, ⟨l', hl', rfl⟩, hk⟩
    rw [List.mem_filter, List.mem_map] at hk
    obtain ⟨⟨o, ho, rfl⟩, hh⟩ := hk
    exact ⟨⟨o, ⟨l', hl', ho⟩, rfl⟩, by simpa using hh⟩
  · rintro ⟨⟨o, ⟨l', hl', ho⟩, rfl⟩, hh⟩
    exact ⟨_, ⟨l', hl', rfl⟩, List.mem_filter.mpr ⟨List.mem_map.mpr ⟨o, ho, rfl⟩, by simpa using hh⟩⟩

namespace Product
open Dispatch

/-- is a parameter a view used as a matrix, as a tensor -/
def isView : Par → Bool
  | .obj (.viewDense _) _ _ => true
  | .obj (.viewTDense _) _ _ => true
  | _ => false

/-- the class of the matrix (or tensor) operand: the first parameter that is not a scalar -/
def operand : List Par → Option Ty
  | .obj t _ _ :: _ => some t
  | .scal _ :: ps => operand ps
  | [] => none

/-- is the function called with scalars, `f(a, A, x, b, y)` -/
def scaled : List Par → Bool
  | .scal _ :: _ => true
  | _ => false

/-- the product overloads the headers leave out: `matvec`, `matvec_N`, `matvec_T` of a matrix view; `matmul` of a CRS
matrix, and `tensmul` of a tensor_CRS, with a view as factor or result; `tensvec` with scalars -/
def hidden : Fn × List Par → Bool
  | (.matvec, ps) | (.matvec_N, ps) | (.matvec_T, ps) =>
    match operand ps with
    | some (.viewDense _) => true
    | _ => false
  | (.matmul, ps) => decide (operand ps = some .crs) && ps.any isView
  | (.tensmul, ps) => decide (operand ps = some .tcrs) && ps.any isView
  | (.tensvec, ps) => scaled ps
  | _ => false

theorem declared_eq : declared =
    visible (fun o : Overload => (o.fn, o.pars)) hidden
      (tMatvec ++ tMatmul ++ tTensvec ++ tTensmat ++ tMattens ++ tTensmul ++ [[]]) := by decide +kernel

/-- **C95 (products).** A product function with these parameters is declared exactly if it is defined and is not one
of the overloads left out. -/
theorem C95_products (f : Fn) (ps : List Par) :
    (f, ps) ∈ declared.flatten ↔ (∃ o ∈ products, o.fn = f ∧ o.pars = ps) ∧ hidden (f, ps) = false := by
  rw [mem_of_chunks declared_eq]
  simp [products, Prod.ext_iff]

/-- **C95 fails for the products.** `matvec` of a matrix view, `matmul` of a CRS matrix with a matrix view, `tensmul`
of a sparse tensor with a tensor view and `tensvec` with scalars are defined but not declared. -/
theorem C95_products_violated :
    ∀ s ∈ [((.matvec, [.obj (.viewDense .vec) .d true, .obj .vector .d true, .obj .vector .d false]) : Fn × List Par),
      (.matmul, [.obj .crs .d true, .obj (.viewDense .mat) .d true, .obj .dense .d false]),
      (.tensmul, [.obj .tcrs .d true, .obj .tdense .d true, .obj (.viewTDense .ten) .d false]),
      (.tensvec, [.scal .d, .obj .tdense .d true, .obj .vector .d true, .scal .d, .obj .tdense .d false])],
    (∃ o ∈ products, o.fn = s.1 ∧ o.pars = s.2) ∧ s ∉ declared.flatten := by
  have h : ∀ s ∈ [((.matvec, [.obj (.viewDense .vec) .d true, .obj .vector .d true, .obj .vector .d false]) :
        Fn × List Par),
      (.matmul, [.obj .crs .d true, .obj (.viewDense .mat) .d true, .obj .dense .d false]),
      (.tensmul, [.obj .tcrs .d true, .obj .tdense .d true, .obj (.viewTDense .ten) .d false]),
      (.tensvec, [.scal .d, .obj .tdense .d true, .obj .vector .d true, .scal .d, .obj .tdense .d false])],
      (products.any fun o => decide (o.fn = s.1 ∧ o.pars = s.2)) = true ∧ hidden s = true := by decide +kernel
  intro s hs
  obtain ⟨h1, h2⟩ := h s hs
  refine ⟨by simpa using h1, fun h3 => ?_⟩
  have := ((C95_products s.1 s.2).mp h3).2
  rw [show (s.1, s.2) = s from rfl, h2] at this
  cases this

/-- declared product functions -/
example : (.matvec, [.obj .crs .d true, .obj (.view1D .ten) .d true, .obj .vector .d false]) ∈ declared.flatten ∧
    (.matmul, [.scal .s, .obj .dense .s true, .obj (.viewDense .vec) .s true, .scal .s, .obj .dense .s false]) ∈
      declared.flatten := by
  constructor
  · refine (C95_products _ _).mpr ⟨?_, by decide⟩
    have : (products.any fun o => decide (o.fn = .matvec ∧
        o.pars = [.obj .crs .d true, .obj (.view1D .ten) .d true, .obj .vector .d false])) = true := by decide +kernel
    simpa using this
  · refine (C95_products _ _).mpr ⟨?_, by decide⟩
    have : (products.any fun o => decide (o.fn = .matmul ∧
        o.pars = [.scal .s, .obj .dense .s true, .obj (.viewDense .vec) .s true, .scal .s, .obj .dense .s false])) =
        true := by decide +kernel
    simpa using this

end Product

namespace LineOp
open Dispatch (Ty Prec)

/-- the row and column operations the headers leave out: those of a CRS matrix with a vector that is a view of a
matrix or of a tensor -/
def hidden : Fn × List Par → Bool
  | (f, .obj .crs _ _ :: ps) =>
    decide (f = .times_row ∨ f = .times_col) && ps.any fun q =>
      match q with
      | .obj (.view1D .mat) _ _ => true
      | .obj (.view1D .ten) _ _ => true
      | _ => false
  | _ => false

theorem declared_eq : declared =
    visible (fun o : Overload => (o.fn, o.pars)) hidden (tMatTimes ++ tMatAdds ++ tTenTimes ++ tTenAdds ++ [[]]) := by decide +kernel

/-- **C95 (row and column operations).** Such an operation is declared exactly if it is defined and is not one of the
overloads left out. -/
theorem C95_lines (f : Fn) (ps : List Par) :
    (f, ps) ∈ declared.flatten ↔ (∃ o ∈ lines, o.fn = f ∧ o.pars = ps) ∧ hidden (f, ps) = false := by
  rw [mem_of_chunks declared_eq]
  simp [lines, Prod.ext_iff]

/-- **C95 fails for the row and column operations.** The products of a CRS matrix with a vector that is a view of a
matrix are defined but not declared; in their place eight operations are declared that take a `view1D` of a CRS matrix
and that no file defines. -/
theorem C95_lines_violated :
    ((∃ o ∈ lines, o.fn = .times_row ∧
        o.pars = [.obj .crs .d true, .obj (.view1D .mat) .d true, .obj .crs .d false]) ∧
      (.times_row, [.obj .crs .d true, .obj (.view1D .mat) .d true, .obj .crs .d false]) ∉ declared.flatten) ∧
    (.times_row, [.known (.obj .crs .d true), .crsView .d true, .known (.obj .crs .d false)]) ∈ crsViewDecls ∧
      ∀ s ∈ crsViewDecls, ∀ o ∈ lines, s.2 ≠ o.pars.map .known := by
  refine ⟨⟨?_, fun h => ?_⟩, by decide, ?_⟩
  · have : (lines.any fun o => decide (o.fn = .times_row ∧
        o.pars = [.obj .crs .d true, .obj (.view1D .mat) .d true, .obj .crs .d false])) = true := by decide +kernel
    simpa using this
  · have := ((C95_lines _ _).mp h).2
    revert this
    decide
  · have h : ∀ s ∈ crsViewDecls, ∃ p c, HPar.crsView p c ∈ s.2 := by
      intro s hs
      have : (crsViewDecls.all fun s => s.2.any fun q => match q with | .crsView _ _ => true | _ => false) = true := by
        decide
      have := List.all_eq_true.mp this s hs
      obtain ⟨q, hq, h2⟩ := List.any_eq_true.mp this
      match q, h2 with
      | .crsView p c, _ => exact ⟨p, c, hq⟩
    intro s hs o _ he
    obtain ⟨p, c, h1⟩ := h s hs
    rw [he, List.mem_map] at h1
    obtain ⟨q, _, h2⟩ := h1
    cases h2

end LineOp

namespace Reduction

theorem declared_eq : declared =
    visible (fun o : Overload => (o.fn, o.pars, o.ret, o.ans)) (fun _ => false)
      [tBlasVec, tVmlVec, tVmlMat, tVmlTen, []] := by decide +kernel

/-- **C95 (reductions).** The declared reductions are the defined ones, with the same result: returned, or stored
through the last parameter. -/
theorem C95_reductions (f : Fn) (ps : List Dispatch.Par) (r a : Option Dispatch.Prec) :
    (f, ps, r, a) ∈ declared.flatten ↔ ∃ o ∈ reductions, o.fn = f ∧ o.pars = ps ∧ o.ret = r ∧ o.ans = a := by
  rw [mem_of_chunks declared_eq]
  simp [reductions, Prod.ext_iff, or_assoc]

end Reduction

namespace Dispatch

/-- what the headers declare of the element-wise functions -/
def headers : List (Fn × List Par) :=
  (HeaderVec.declared ++ HeaderMat.declared ++ HeaderTen.declared ++ HeaderBlas.declared).flatten

/-- the element-wise functions the headers leave out: the exponential of a sparse matrix and of a sparse tensor -/
def hidden : Fn × List Par → Bool
  | (.vml_exp, .obj .crs _ _ :: _) => true
  | (.vml_exp, .obj .tcrs _ _ :: _) => true
  | _ => false

theorem declared_vec : HeaderVec.declared =
    visible (fun o : Overload => (o.fn, o.pars)) hidden (tVmlVec ++ [[]]) := by decide +kernel
theorem declared_mat : HeaderMat.declared =
    visible (fun o : Overload => (o.fn, o.pars)) hidden (tVmlMat ++ [[]]) := by decide +kernel
theorem declared_ten : HeaderTen.declared =
    visible (fun o : Overload => (o.fn, o.pars)) hidden (tVmlTen ++ [[]]) := by decide +kernel
theorem declared_blas : HeaderBlas.declared =
    visible (fun o : Overload => (o.fn, o.pars)) hidden (tBlasVec ++ tBlasMatAddSub ++ tBlasMatTimes ++ tBlasMatAdds ++
    tBlasMatScal ++ tBlasMatCopy ++ tBlasTenAddSub ++ tBlasTenTimes ++ tBlasTenAdds ++ tBlasTenScal ++ tBlasTenCopy ++
    [[]]) := by decide +kernel

/-- **C95 (element-wise functions).** An element-wise function is declared exactly if it is defined and is not the
exponential of a sparse object. -/
theorem C95_elementwise (f : Fn) (ps : List Par) :
    (f, ps) ∈ headers ↔ (∃ o ∈ api, o.fn = f ∧ o.pars = ps) ∧ hidden (f, ps) = false := by
  have h : HeaderVec.declared ++ HeaderMat.declared ++ HeaderTen.declared ++ HeaderBlas.declared =
      visible (fun o : Overload => (o.fn, o.pars)) hidden (tVmlVec ++ [[]] ++ (tVmlMat ++ [[]]) ++ (tVmlTen ++ [[]]) ++ (tBlasVec ++ tBlasMatAddSub ++ tBlasMatTimes ++
        tBlasMatAdds ++ tBlasMatScal ++ tBlasMatCopy ++ tBlasTenAddSub ++ tBlasTenTimes ++ tBlasTenAdds ++
        tBlasTenScal ++ tBlasTenCopy ++ [[]])) := by
    rw [declared_vec, declared_mat, declared_ten, declared_blas]
    simp only [visible, List.map_append]
  rw [headers, mem_of_chunks h]
  simp [api, Prod.ext_iff, or_assoc]

/-- **C95 fails for the element-wise functions.** `vml::exp` of a CRS matrix and of a sparse tensor are defined but
not declared. -/
theorem C95_elementwise_violated :
    ∀ t ∈ [Ty.crs, Ty.tcrs], (∃ o ∈ api, o.fn = .vml_exp ∧ o.pars = [.obj t .d true, .obj t .d false]) ∧
      (.vml_exp, [.obj t .d true, .obj t .d false]) ∉ headers := by
  have h : ∀ t ∈ [Ty.crs, Ty.tcrs], (api.any fun o => decide (o.fn = .vml_exp ∧
      o.pars = [.obj t .d true, .obj t .d false])) = true ∧
      hidden (.vml_exp, [.obj t .d true, .obj t .d false]) = true := by decide +kernel
  intro t ht
  obtain ⟨h1, h2⟩ := h t ht
  refine ⟨by simpa using h1, fun h3 => ?_⟩
  have := ((C95_elementwise _ _).mp h3).2
  rw [h2] at this
  cases this

end Dispatch

end Verif
