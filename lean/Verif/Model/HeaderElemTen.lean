import Verif.Model.DispatchSrcTen

/-!
Generated by tools/header_gen.py from /repo/include/monolish/{blas,vml}/*.hpp: declared element-wise functions of DispatchSrcTen. Do not edit.
-/

namespace Verif.Dispatch.HeaderTen

/-- the overloads of `tVmlTen_0` that are declared -/
def hVmlTen_0 : List (Fn × List Par) := [
  (.vml_add, [.obj .tcrs .d true, .obj .tcrs .d true, .obj .tcrs .d false]),
  (.vml_add, [.obj .tdense .d true, .obj .tdense .d true, .obj .tdense .d false]),
  (.vml_add, [.obj .tdense .d true, .obj .tdense .d true, .obj (.viewTDense .vec) .d false]),
  (.vml_add, [.obj .tdense .d true, .obj .tdense .d true, .obj (.viewTDense .mat) .d false]),
  (.vml_add, [.obj .tdense .d true, .obj .tdense .d true, .obj (.viewTDense .ten) .d false]),
  (.vml_add, [.obj .tdense .d true, .obj (.viewTDense .vec) .d true, .obj .tdense .d false]),
  (.vml_add, [.obj .tdense .d true, .obj (.viewTDense .vec) .d true, .obj (.viewTDense .vec) .d false]),
  (.vml_add, [.obj .tdense .d true, .obj (.viewTDense .vec) .d true, .obj (.viewTDense .mat) .d false]),
  (.vml_add, [.obj .tdense .d true, .obj (.viewTDense .vec) .d true, .obj (.viewTDense .ten) .d false]),
  (.vml_add, [.obj .tdense .d true, .obj (.viewTDense .mat) .d true, .obj .tdense .d false]),
  (.vml_add, [.obj .tdense .d true, .obj (.viewTDense .mat) .d true, .obj (.viewTDense .vec) .d false]),
  (.vml_add, [.obj .tdense .d true, .obj (.viewTDense .mat) .d true, .obj (.viewTDense .mat) .d false]),
  (.vml_add, [.obj .tdense .d true, .obj (.viewTDense .mat) .d true, .obj (.viewTDense .ten) .d false]),
  (.vml_add, [.obj .tdense .d true, .obj (.viewTDense .ten) .d true, .obj .tdense .d false]),
  (.vml_add, [.obj .tdense .d true, .obj (.viewTDense .ten) .d true, .obj (.viewTDense .vec) .d false]),
  (.vml_add, [.obj .tdense .d true, .obj (.viewTDense .ten) .d true, .obj (.viewTDense .mat) .d false]),
  (.vml_add, [.obj .tdense .d true, .obj (.viewTDense .ten) .d true, .obj (.viewTDense .ten) .d false]),
  (.vml_add, [.obj (.viewTDense .vec) .d true, .obj .tdense .d true, .obj .tdense .d false]),
  (.vml_add, [.obj (.viewTDense .vec) .d true, .obj .tdense .d true, .obj (.viewTDense .vec) .d false]),
  (.vml_add, [.obj (.viewTDense .vec) .d true, .obj .tdense .d true, .obj (.viewTDense .mat) .d false]),
  (.vml_add, [.obj (.viewTDense .vec) .d true, .obj .tdense .d true, .obj (.viewTDense .ten) .d false]),
  (.vml_add, [.obj (.viewTDense .vec) .d true, .obj (.viewTDense .vec) .d true, .obj .tdense .d false]),
  (.vml_add, [.obj (.viewTDense .vec) .d true, .obj (.viewTDense .vec) .d true, .obj (.viewTDense .vec) .d false]),
  (.vml_add, [.obj (.viewTDense .vec) .d true, .obj (.viewTDense .vec) .d true, .obj (.viewTDense .mat) .d false]),
  (.vml_add, [.obj (.viewTDense .vec) .d true, .obj (.viewTDense .vec) .d true, .obj (.viewTDense .ten) .d false]),
  (.vml_add, [.obj (.viewTDense .vec) .d true, .obj (.viewTDense .mat) .d true, .obj .tdense .d false]),
  (.vml_add, [.obj (.viewTDense .vec) .d true, .obj (.viewTDense .mat) .d true, .obj (.viewTDense .vec) .d false]),
  (.vml_add, [.obj (.viewTDense .vec) .d true, .obj (.viewTDense .mat) .d true, .obj (.viewTDense .mat) .d false]),
  (.vml_add, [.obj (.viewTDense .vec) .d true, .obj (.viewTDense .mat) .d true, .obj (.viewTDense .ten) .d false]),
  (.vml_add, [.obj (.viewTDense .vec) .d true, .obj (.viewTDense .ten) .d true, .obj .tdense .d false]),
  (.vml_add, [.obj (.viewTDense .vec) .d true, .obj (.viewTDense .ten) .d true, .obj (.viewTDense .vec) .d false]),
  (.vml_add, [.obj (.viewTDense .vec) .d true, .obj (.viewTDense .ten) .d true, .obj (.viewTDense .mat) .d false]),
  (.vml_add, [.obj (.viewTDense .vec) .d true, .obj (.viewTDense .ten) .d true, .obj (.viewTDense .ten) .d false]),
  (.vml_add, [.obj (.viewTDense .mat) .d true, .obj .tdense .d true, .obj .tdense .d false]),
  (.vml_add, [.obj (.viewTDense .mat) .d true, .obj .tdense .d true, .obj (.viewTDense .vec) .d false]),
  (.vml_add, [.obj (.viewTDense .mat) .d true, .obj .tdense .d true, .obj (.viewTDense .mat) .d false]),
  (.vml_add, [.obj (.viewTDense .mat) .d true, .obj .tdense .d true, .obj (.viewTDense .ten) .d false]),
  (.vml_add, [.obj (.viewTDense .mat) .d true, .obj (.viewTDense .vec) .d true, .obj .tdense .d false]),
  (.vml_add, [.obj (.viewTDense .mat) .d true, .obj (.viewTDense .vec) .d true, .obj (.viewTDense .vec) .d false]),
  (.vml_add, [.obj (.viewTDense .mat) .d true, .obj (.viewTDense .vec) .d true, .obj (.viewTDense .mat) .d false]),
  (.vml_add, [.obj (.viewTDense .mat) .d true, .obj (.viewTDense .vec) .d true, .obj (.viewTDense .ten) .d false]),
  (.vml_add, [.obj (.viewTDense .mat) .d true, .obj (.viewTDense .mat) .d true, .obj .tdense .d false]),
  (.vml_add, [.obj (.viewTDense .mat) .d true, .obj (.viewTDense .mat) .d true, .obj (.viewTDense .vec) .d false]),
  (.vml_add, [.obj (.viewTDense .mat) .d true, .obj (.viewTDense .mat) .d true, .obj (.viewTDense .mat) .d false]),
  (.vml_add, [.obj (.viewTDense .mat) .d true, .obj (.viewTDense .mat) .d true, .obj (.viewTDense .ten) .d false]),
  (.vml_add, [.obj (.viewTDense .mat) .d true, .obj (.viewTDense .ten) .d true, .obj .tdense .d false]),
  (.vml_add, [.obj (.viewTDense .mat) .d true, .obj (.viewTDense .ten) .d true, .obj (.viewTDense .vec) .d false]),
  (.vml_add, [.obj (.viewTDense .mat) .d true, .obj (.viewTDense .ten) .d true, .obj (.viewTDense .mat) .d false]),
  (.vml_add, [.obj (.viewTDense .mat) .d true, .obj (.viewTDense .ten) .d true, .obj (.viewTDense .ten) .d false]),
  (.vml_add, [.obj (.viewTDense .ten) .d true, .obj .tdense .d true, .obj .tdense .d false]),
  (.vml_add, [.obj (.viewTDense .ten) .d true, .obj .tdense .d true, .obj (.viewTDense .vec) .d false]),
  (.vml_add, [.obj (.viewTDense .ten) .d true, .obj .tdense .d true, .obj (.viewTDense .mat) .d false]),
  (.vml_add, [.obj (.viewTDense .ten) .d true, .obj .tdense .d true, .obj (.viewTDense .ten) .d false]),
  (.vml_add, [.obj (.viewTDense .ten) .d true, .obj (.viewTDense .vec) .d true, .obj .tdense .d false]),
  (.vml_add, [.obj (.viewTDense .ten) .d true, .obj (.viewTDense .vec) .d true, .obj (.viewTDense .vec) .d false]),
  (.vml_add, [.obj (.viewTDense .ten) .d true, .obj (.viewTDense .vec) .d true, .obj (.viewTDense .mat) .d false]),
  (.vml_add, [.obj (.viewTDense .ten) .d true, .obj (.viewTDense .vec) .d true, .obj (.viewTDense .ten) .d false]),
  (.vml_add, [.obj (.viewTDense .ten) .d true, .obj (.viewTDense .mat) .d true, .obj .tdense .d false]),
  (.vml_add, [.obj (.viewTDense .ten) .d true, .obj (.viewTDense .mat) .d true, .obj (.viewTDense .vec) .d false]),
  (.vml_add, [.obj (.viewTDense .ten) .d true, .obj (.viewTDense .mat) .d true, .obj (.viewTDense .mat) .d false]),
  (.vml_add, [.obj (.viewTDense .ten) .d true, .obj (.viewTDense .mat) .d true, .obj (.viewTDense .ten) .d false]),
  (.vml_add, [.obj (.viewTDense .ten) .d true, .obj (.viewTDense .ten) .d true, .obj .tdense .d false]),
  (.vml_add, [.obj (.viewTDense .ten) .d true, .obj (.viewTDense .ten) .d true, .obj (.viewTDense .vec) .d false]),
  (.vml_add, [.obj (.viewTDense .ten) .d true, .obj (.viewTDense .ten) .d true, .obj (.viewTDense .mat) .d false]),
  (.vml_add, [.obj (.viewTDense .ten) .d true, .obj (.viewTDense .ten) .d true, .obj (.viewTDense .ten) .d false]),
  (.vml_add, [.obj .tcrs .s true, .obj .tcrs .s true, .obj .tcrs .s false]),
  (.vml_add, [.obj .tdense .s true, .obj .tdense .s true, .obj .tdense .s false]),
  (.vml_add, [.obj .tdense .s true, .obj .tdense .s true, .obj (.viewTDense .vec) .s false]),
  (.vml_add, [.obj .tdense .s true, .obj .tdense .s true, .obj (.viewTDense .mat) .s false]),
  (.vml_add, [.obj .tdense .s true, .obj .tdense .s true, .obj (.viewTDense .ten) .s false]),
  (.vml_add, [.obj .tdense .s true, .obj (.viewTDense .vec) .s true, .obj .tdense .s false]),
  (.vml_add, [.obj .tdense .s true, .obj (.viewTDense .vec) .s true, .obj (.viewTDense .vec) .s false]),
  (.vml_add, [.obj .tdense .s true, .obj (.viewTDense .vec) .s true, .obj (.viewTDense .mat) .s false]),
  (.vml_add, [.obj .tdense .s true, .obj (.viewTDense .vec) .s true, .obj (.viewTDense .ten) .s false]),
  (.vml_add, [.obj .tdense .s true, .obj (.viewTDense .mat) .s true, .obj .tdense .s false]),
  (.vml_add, [.obj .tdense .s true, .obj (.viewTDense .mat) .s true, .obj (.viewTDense .vec) .s false]),
  (.vml_add, [.obj .tdense .s true, .obj (.viewTDense .mat) .s true, .obj (.viewTDense .mat) .s false]),
  (.vml_add, [.obj .tdense .s true, .obj (.viewTDense .mat) .s true, .obj (.viewTDense .ten) .s false]),
  (.vml_add, [.obj .tdense .s true, .obj (.viewTDense .ten) .s true, .obj .tdense .s false]),
  (.vml_add, [.obj .tdense .s true, .obj (.viewTDense .ten) .s true, .obj (.viewTDense .vec) .s false])]

/-- the overloads of `tVmlTen_1` that are declared -/
def hVmlTen_1 : List (Fn × List Par) := [
  (.vml_add, [.obj .tdense .s true, .obj (.viewTDense .ten) .s true, .obj (.viewTDense .mat) .s false]),
  (.vml_add, [.obj .tdense .s true, .obj (.viewTDense .ten) .s true, .obj (.viewTDense .ten) .s false]),
  (.vml_add, [.obj (.viewTDense .vec) .s true, .obj .tdense .s true, .obj .tdense .s false]),
  (.vml_add, [.obj (.viewTDense .vec) .s true, .obj .tdense .s true, .obj (.viewTDense .vec) .s false]),
  (.vml_add, [.obj (.viewTDense .vec) .s true, .obj .tdense .s true, .obj (.viewTDense .mat) .s false]),
  (.vml_add, [.obj (.viewTDense .vec) .s true, .obj .tdense .s true, .obj (.viewTDense .ten) .s false]),
  (.vml_add, [.obj (.viewTDense .vec) .s true, .obj (.viewTDense .vec) .s true, .obj .tdense .s false]),
  (.vml_add, [.obj (.viewTDense .vec) .s true, .obj (.viewTDense .vec) .s true, .obj (.viewTDense .vec) .s false]),
  (.vml_add, [.obj (.viewTDense .vec) .s true, .obj (.viewTDense .vec) .s true, .obj (.viewTDense .mat) .s false]),
  (.vml_add, [.obj (.viewTDense .vec) .s true, .obj (.viewTDense .vec) .s true, .obj (.viewTDense .ten) .s false]),
  (.vml_add, [.obj (.viewTDense .vec) .s true, .obj (.viewTDense .mat) .s true, .obj .tdense .s false]),
  (.vml_add, [.obj (.viewTDense .vec) .s true, .obj (.viewTDense .mat) .s true, .obj (.viewTDense .vec) .s false]),
  (.vml_add, [.obj (.viewTDense .vec) .s true, .obj (.viewTDense .mat) .s true, .obj (.viewTDense .mat) .s false]),
  (.vml_add, [.obj (.viewTDense .vec) .s true, .obj (.viewTDense .mat) .s true, .obj (.viewTDense .ten) .s false]),
  (.vml_add, [.obj (.viewTDense .vec) .s true, .obj (.viewTDense .ten) .s true, .obj .tdense .s false]),
  (.vml_add, [.obj (.viewTDense .vec) .s true, .obj (.viewTDense .ten) .s true, .obj (.viewTDense .vec) .s false]),
  (.vml_add, [.obj (.viewTDense .vec) .s true, .obj (.viewTDense .ten) .s true, .obj (.viewTDense .mat) .s false]),
  (.vml_add, [.obj (.viewTDense .vec) .s true, .obj (.viewTDense .ten) .s true, .obj (.viewTDense .ten) .s false]),
  (.vml_add, [.obj (.viewTDense .mat) .s true, .obj .tdense .s true, .obj .tdense .s false]),
  (.vml_add, [.obj (.viewTDense .mat) .s true, .obj .tdense .s true, .obj (.viewTDense .vec) .s false]),
  (.vml_add, [.obj (.viewTDense .mat) .s true, .obj .tdense .s true, .obj (.viewTDense .mat) .s false]),
  (.vml_add, [.obj (.viewTDense .mat) .s true, .obj .tdense .s true, .obj (.viewTDense .ten) .s false]),
  (.vml_add, [.obj (.viewTDense .mat) .s true, .obj (.viewTDense .vec) .s true, .obj .tdense .s false]),
  (.vml_add, [.obj (.viewTDense .mat) .s true, .obj (.viewTDense .vec) .s true, .obj (.viewTDense .vec) .s false]),
  (.vml_add, [.obj (.viewTDense .mat) .s true, .obj (.viewTDense .vec) .s true, .obj (.viewTDense .mat) .s false]),
  (.vml_add, [.obj (.viewTDense .mat) .s true, .obj (.viewTDense .vec) .s true, .obj (.viewTDense .ten) .s false]),
  (.vml_add, [.obj (.viewTDense .mat) .s true, .obj (.viewTDense .mat) .s true, .obj .tdense .s false]),
  (.vml_add, [.obj (.viewTDense .mat) .s true, .obj (.viewTDense .mat) .s true, .obj (.viewTDense .vec) .s false]),
  (.vml_add, [.obj (.viewTDense .mat) .s true, .obj (.viewTDense .mat) .s true, .obj (.viewTDense .mat) .s false]),
  (.vml_add, [.obj (.viewTDense .mat) .s true, .obj (.viewTDense .mat) .s true, .obj (.viewTDense .ten) .s false]),
  (.vml_add, [.obj (.viewTDense .mat) .s true, .obj (.viewTDense .ten) .s true, .obj .tdense .s false]),
  (.vml_add, [.obj (.viewTDense .mat) .s true, .obj (.viewTDense .ten) .s true, .obj (.viewTDense .vec) .s false]),
  (.vml_add, [.obj (.viewTDense .mat) .s true, .obj (.viewTDense .ten) .s true, .obj (.viewTDense .mat) .s false]),
  (.vml_add, [.obj (.viewTDense .mat) .s true, .obj (.viewTDense .ten) .s true, .obj (.viewTDense .ten) .s false]),
  (.vml_add, [.obj (.viewTDense .ten) .s true, .obj .tdense .s true, .obj .tdense .s false]),
  (.vml_add, [.obj (.viewTDense .ten) .s true, .obj .tdense .s true, .obj (.viewTDense .vec) .s false]),
  (.vml_add, [.obj (.viewTDense .ten) .s true, .obj .tdense .s true, .obj (.viewTDense .mat) .s false]),
  (.vml_add, [.obj (.viewTDense .ten) .s true, .obj .tdense .s true, .obj (.viewTDense .ten) .s false]),
  (.vml_add, [.obj (.viewTDense .ten) .s true, .obj (.viewTDense .vec) .s true, .obj .tdense .s false]),
  (.vml_add, [.obj (.viewTDense .ten) .s true, .obj (.viewTDense .vec) .s true, .obj (.viewTDense .vec) .s false]),
  (.vml_add, [.obj (.viewTDense .ten) .s true, .obj (.viewTDense .vec) .s true, .obj (.viewTDense .mat) .s false]),
  (.vml_add, [.obj (.viewTDense .ten) .s true, .obj (.viewTDense .vec) .s true, .obj (.viewTDense .ten) .s false]),
  (.vml_add, [.obj (.viewTDense .ten) .s true, .obj (.viewTDense .mat) .s true, .obj .tdense .s false]),
  (.vml_add, [.obj (.viewTDense .ten) .s true, .obj (.viewTDense .mat) .s true, .obj (.viewTDense .vec) .s false]),
  (.vml_add, [.obj (.viewTDense .ten) .s true, .obj (.viewTDense .mat) .s true, .obj (.viewTDense .mat) .s false]),
  (.vml_add, [.obj (.viewTDense .ten) .s true, .obj (.viewTDense .mat) .s true, .obj (.viewTDense .ten) .s false]),
  (.vml_add, [.obj (.viewTDense .ten) .s true, .obj (.viewTDense .ten) .s true, .obj .tdense .s false]),
  (.vml_add, [.obj (.viewTDense .ten) .s true, .obj (.viewTDense .ten) .s true, .obj (.viewTDense .vec) .s false]),
  (.vml_add, [.obj (.viewTDense .ten) .s true, .obj (.viewTDense .ten) .s true, .obj (.viewTDense .mat) .s false]),
  (.vml_add, [.obj (.viewTDense .ten) .s true, .obj (.viewTDense .ten) .s true, .obj (.viewTDense .ten) .s false]),
  (.vml_sub, [.obj .tcrs .d true, .obj .tcrs .d true, .obj .tcrs .d false]),
  (.vml_sub, [.obj .tdense .d true, .obj .tdense .d true, .obj .tdense .d false]),
  (.vml_sub, [.obj .tdense .d true, .obj .tdense .d true, .obj (.viewTDense .vec) .d false]),
  (.vml_sub, [.obj .tdense .d true, .obj .tdense .d true, .obj (.viewTDense .mat) .d false]),
  (.vml_sub, [.obj .tdense .d true, .obj .tdense .d true, .obj (.viewTDense .ten) .d false]),
  (.vml_sub, [.obj .tdense .d true, .obj (.viewTDense .vec) .d true, .obj .tdense .d false]),
  (.vml_sub, [.obj .tdense .d true, .obj (.viewTDense .vec) .d true, .obj (.viewTDense .vec) .d false]),
  (.vml_sub, [.obj .tdense .d true, .obj (.viewTDense .vec) .d true, .obj (.viewTDense .mat) .d false]),
  (.vml_sub, [.obj .tdense .d true, .obj (.viewTDense .vec) .d true, .obj (.viewTDense .ten) .d false]),
  (.vml_sub, [.obj .tdense .d true, .obj (.viewTDense .mat) .d true, .obj .tdense .d false]),
  (.vml_sub, [.obj .tdense .d true, .obj (.viewTDense .mat) .d true, .obj (.viewTDense .vec) .d false]),
  (.vml_sub, [.obj .tdense .d true, .obj (.viewTDense .mat) .d true, .obj (.viewTDense .mat) .d false]),
  (.vml_sub, [.obj .tdense .d true, .obj (.viewTDense .mat) .d true, .obj (.viewTDense .ten) .d false]),
  (.vml_sub, [.obj .tdense .d true, .obj (.viewTDense .ten) .d true, .obj .tdense .d false]),
  (.vml_sub, [.obj .tdense .d true, .obj (.viewTDense .ten) .d true, .obj (.viewTDense .vec) .d false]),
  (.vml_sub, [.obj .tdense .d true, .obj (.viewTDense .ten) .d true, .obj (.viewTDense .mat) .d false]),
  (.vml_sub, [.obj .tdense .d true, .obj (.viewTDense .ten) .d true, .obj (.viewTDense .ten) .d false]),
  (.vml_sub, [.obj (.viewTDense .vec) .d true, .obj .tdense .d true, .obj .tdense .d false]),
  (.vml_sub, [.obj (.viewTDense .vec) .d true, .obj .tdense .d true, .obj (.viewTDense .vec) .d false]),
  (.vml_sub, [.obj (.viewTDense .vec) .d true, .obj .tdense .d true, .obj (.viewTDense .mat) .d false]),
  (.vml_sub, [.obj (.viewTDense .vec) .d true, .obj .tdense .d true, .obj (.viewTDense .ten) .d false]),
  (.vml_sub, [.obj (.viewTDense .vec) .d true, .obj (.viewTDense .vec) .d true, .obj .tdense .d false]),
  (.vml_sub, [.obj (.viewTDense .vec) .d true, .obj (.viewTDense .vec) .d true, .obj (.viewTDense .vec) .d false]),
  (.vml_sub, [.obj (.viewTDense .vec) .d true, .obj (.viewTDense .vec) .d true, .obj (.viewTDense .mat) .d false]),
  (.vml_sub, [.obj (.viewTDense .vec) .d true, .obj (.viewTDense .vec) .d true, .obj (.viewTDense .ten) .d false]),
  (.vml_sub, [.obj (.viewTDense .vec) .d true, .obj (.viewTDense .mat) .d true, .obj .tdense .d false]),
  (.vml_sub, [.obj (.viewTDense .vec) .d true, .obj (.viewTDense .mat) .d true, .obj (.viewTDense .vec) .d false]),
  (.vml_sub, [.obj (.viewTDense .vec) .d true, .obj (.viewTDense .mat) .d true, .obj (.viewTDense .mat) .d false]),
  (.vml_sub, [.obj (.viewTDense .vec) .d true, .obj (.viewTDense .mat) .d true, .obj (.viewTDense .ten) .d false]),
  (.vml_sub, [.obj (.viewTDense .vec) .d true, .obj (.viewTDense .ten) .d true, .obj .tdense .d false])]

/-- the overloads of `tVmlTen_2` that are declared -/
def hVmlTen_2 : List (Fn × List Par) := [
  (.vml_sub, [.obj (.viewTDense .vec) .d true, .obj (.viewTDense .ten) .d true, .obj (.viewTDense .vec) .d false]),
  (.vml_sub, [.obj (.viewTDense .vec) .d true, .obj (.viewTDense .ten) .d true, .obj (.viewTDense .mat) .d false]),
  (.vml_sub, [.obj (.viewTDense .vec) .d true, .obj (.viewTDense .ten) .d true, .obj (.viewTDense .ten) .d false]),
  (.vml_sub, [.obj (.viewTDense .mat) .d true, .obj .tdense .d true, .obj .tdense .d false]),
  (.vml_sub, [.obj (.viewTDense .mat) .d true, .obj .tdense .d true, .obj (.viewTDense .vec) .d false]),
  (.vml_sub, [.obj (.viewTDense .mat) .d true, .obj .tdense .d true, .obj (.viewTDense .mat) .d false]),
  (.vml_sub, [.obj (.viewTDense .mat) .d true, .obj .tdense .d true, .obj (.viewTDense .ten) .d false]),
  (.vml_sub, [.obj (.viewTDense .mat) .d true, .obj (.viewTDense .vec) .d true, .obj .tdense .d false]),
  (.vml_sub, [.obj (.viewTDense .mat) .d true, .obj (.viewTDense .vec) .d true, .obj (.viewTDense .vec) .d false]),
  (.vml_sub, [.obj (.viewTDense .mat) .d true, .obj (.viewTDense .vec) .d true, .obj (.viewTDense .mat) .d false]),
  (.vml_sub, [.obj (.viewTDense .mat) .d true, .obj (.viewTDense .vec) .d true, .obj (.viewTDense .ten) .d false]),
  (.vml_sub, [.obj (.viewTDense .mat) .d true, .obj (.viewTDense .mat) .d true, .obj .tdense .d false]),
  (.vml_sub, [.obj (.viewTDense .mat) .d true, .obj (.viewTDense .mat) .d true, .obj (.viewTDense .vec) .d false]),
  (.vml_sub, [.obj (.viewTDense .mat) .d true, .obj (.viewTDense .mat) .d true, .obj (.viewTDense .mat) .d false]),
  (.vml_sub, [.obj (.viewTDense .mat) .d true, .obj (.viewTDense .mat) .d true, .obj (.viewTDense .ten) .d false]),
  (.vml_sub, [.obj (.viewTDense .mat) .d true, .obj (.viewTDense .ten) .d true, .obj .tdense .d false]),
  (.vml_sub, [.obj (.viewTDense .mat) .d true, .obj (.viewTDense .ten) .d true, .obj (.viewTDense .vec) .d false]),
  (.vml_sub, [.obj (.viewTDense .mat) .d true, .obj (.viewTDense .ten) .d true, .obj (.viewTDense .mat) .d false]),
  (.vml_sub, [.obj (.viewTDense .mat) .d true, .obj (.viewTDense .ten) .d true, .obj (.viewTDense .ten) .d false]),
  (.vml_sub, [.obj (.viewTDense .ten) .d true, .obj .tdense .d true, .obj .tdense .d false]),
  (.vml_sub, [.obj (.viewTDense .ten) .d true, .obj .tdense .d true, .obj (.viewTDense .vec) .d false]),
  (.vml_sub, [.obj (.viewTDense .ten) .d true, .obj .tdense .d true, .obj (.viewTDense .mat) .d false]),
  (.vml_sub, [.obj (.viewTDense .ten) .d true, .obj .tdense .d true, .obj (.viewTDense .ten) .d false]),
  (.vml_sub, [.obj (.viewTDense .ten) .d true, .obj (.viewTDense .vec) .d true, .obj .tdense .d false]),
  (.vml_sub, [.obj (.viewTDense .ten) .d true, .obj (.viewTDense .vec) .d true, .obj (.viewTDense .vec) .d false]),
  (.vml_sub, [.obj (.viewTDense .ten) .d true, .obj (.viewTDense .vec) .d true, .obj (.viewTDense .mat) .d false]),
  (.vml_sub, [.obj (.viewTDense .ten) .d true, .obj (.viewTDense .vec) .d true, .obj (.viewTDense .ten) .d false]),
  (.vml_sub, [.obj (.viewTDense .ten) .d true, .obj (.viewTDense .mat) .d true, .obj .tdense .d false]),
  (.vml_sub, [.obj (.viewTDense .ten) .d true, .obj (.viewTDense .mat) .d true, .obj (.viewTDense .vec) .d false]),
  (.vml_sub, [.obj (.viewTDense .ten) .d true, .obj (.viewTDense .mat) .d true, .obj (.viewTDense .mat) .d false]),
  (.vml_sub, [.obj (.viewTDense .ten) .d true, .obj (.viewTDense .mat) .d true, .obj (.viewTDense .ten) .d false]),
  (.vml_sub, [.obj (.viewTDense .ten) .d true, .obj (.viewTDense .ten) .d true, .obj .tdense .d false]),
  (.vml_sub, [.obj (.viewTDense .ten) .d true, .obj (.viewTDense .ten) .d true, .obj (.viewTDense .vec) .d false]),
  (.vml_sub, [.obj (.viewTDense .ten) .d true, .obj (.viewTDense .ten) .d true, .obj (.viewTDense .mat) .d false]),
  (.vml_sub, [.obj (.viewTDense .ten) .d true, .obj (.viewTDense .ten) .d true, .obj (.viewTDense .ten) .d false]),
  (.vml_sub, [.obj .tcrs .s true, .obj .tcrs .s true, .obj .tcrs .s false]),
  (.vml_sub, [.obj .tdense .s true, .obj .tdense .s true, .obj .tdense .s false]),
  (.vml_sub, [.obj .tdense .s true, .obj .tdense .s true, .obj (.viewTDense .vec) .s false]),
  (.vml_sub, [.obj .tdense .s true, .obj .tdense .s true, .obj (.viewTDense .mat) .s false]),
  (.vml_sub, [.obj .tdense .s true, .obj .tdense .s true, .obj (.viewTDense .ten) .s false]),
  (.vml_sub, [.obj .tdense .s true, .obj (.viewTDense .vec) .s true, .obj .tdense .s false]),
  (.vml_sub, [.obj .tdense .s true, .obj (.viewTDense .vec) .s true, .obj (.viewTDense .vec) .s false]),
  (.vml_sub, [.obj .tdense .s true, .obj (.viewTDense .vec) .s true, .obj (.viewTDense .mat) .s false]),
  (.vml_sub, [.obj .tdense .s true, .obj (.viewTDense .vec) .s true, .obj (.viewTDense .ten) .s false]),
  (.vml_sub, [.obj .tdense .s true, .obj (.viewTDense .mat) .s true, .obj .tdense .s false]),
  (.vml_sub, [.obj .tdense .s true, .obj (.viewTDense .mat) .s true, .obj (.viewTDense .vec) .s false]),
  (.vml_sub, [.obj .tdense .s true, .obj (.viewTDense .mat) .s true, .obj (.viewTDense .mat) .s false]),
  (.vml_sub, [.obj .tdense .s true, .obj (.viewTDense .mat) .s true, .obj (.viewTDense .ten) .s false]),
  (.vml_sub, [.obj .tdense .s true, .obj (.viewTDense .ten) .s true, .obj .tdense .s false]),
  (.vml_sub, [.obj .tdense .s true, .obj (.viewTDense .ten) .s true, .obj (.viewTDense .vec) .s false]),
  (.vml_sub, [.obj .tdense .s true, .obj (.viewTDense .ten) .s true, .obj (.viewTDense .mat) .s false]),
  (.vml_sub, [.obj .tdense .s true, .obj (.viewTDense .ten) .s true, .obj (.viewTDense .ten) .s false]),
  (.vml_sub, [.obj (.viewTDense .vec) .s true, .obj .tdense .s true, .obj .tdense .s false]),
  (.vml_sub, [.obj (.viewTDense .vec) .s true, .obj .tdense .s true, .obj (.viewTDense .vec) .s false]),
  (.vml_sub, [.obj (.viewTDense .vec) .s true, .obj .tdense .s true, .obj (.viewTDense .mat) .s false]),
  (.vml_sub, [.obj (.viewTDense .vec) .s true, .obj .tdense .s true, .obj (.viewTDense .ten) .s false]),
  (.vml_sub, [.obj (.viewTDense .vec) .s true, .obj (.viewTDense .vec) .s true, .obj .tdense .s false]),
  (.vml_sub, [.obj (.viewTDense .vec) .s true, .obj (.viewTDense .vec) .s true, .obj (.viewTDense .vec) .s false]),
  (.vml_sub, [.obj (.viewTDense .vec) .s true, .obj (.viewTDense .vec) .s true, .obj (.viewTDense .mat) .s false]),
  (.vml_sub, [.obj (.viewTDense .vec) .s true, .obj (.viewTDense .vec) .s true, .obj (.viewTDense .ten) .s false]),
  (.vml_sub, [.obj (.viewTDense .vec) .s true, .obj (.viewTDense .mat) .s true, .obj .tdense .s false]),
  (.vml_sub, [.obj (.viewTDense .vec) .s true, .obj (.viewTDense .mat) .s true, .obj (.viewTDense .vec) .s false]),
  (.vml_sub, [.obj (.viewTDense .vec) .s true, .obj (.viewTDense .mat) .s true, .obj (.viewTDense .mat) .s false]),
  (.vml_sub, [.obj (.viewTDense .vec) .s true, .obj (.viewTDense .mat) .s true, .obj (.viewTDense .ten) .s false]),
  (.vml_sub, [.obj (.viewTDense .vec) .s true, .obj (.viewTDense .ten) .s true, .obj .tdense .s false]),
  (.vml_sub, [.obj (.viewTDense .vec) .s true, .obj (.viewTDense .ten) .s true, .obj (.viewTDense .vec) .s false]),
  (.vml_sub, [.obj (.viewTDense .vec) .s true, .obj (.viewTDense .ten) .s true, .obj (.viewTDense .mat) .s false]),
  (.vml_sub, [.obj (.viewTDense .vec) .s true, .obj (.viewTDense .ten) .s true, .obj (.viewTDense .ten) .s false]),
  (.vml_sub, [.obj (.viewTDense .mat) .s true, .obj .tdense .s true, .obj .tdense .s false]),
  (.vml_sub, [.obj (.viewTDense .mat) .s true, .obj .tdense .s true, .obj (.viewTDense .vec) .s false]),
  (.vml_sub, [.obj (.viewTDense .mat) .s true, .obj .tdense .s true, .obj (.viewTDense .mat) .s false]),
  (.vml_sub, [.obj (.viewTDense .mat) .s true, .obj .tdense .s true, .obj (.viewTDense .ten) .s false]),
  (.vml_sub, [.obj (.viewTDense .mat) .s true, .obj (.viewTDense .vec) .s true, .obj .tdense .s false]),
  (.vml_sub, [.obj (.viewTDense .mat) .s true, .obj (.viewTDense .vec) .s true, .obj (.viewTDense .vec) .s false]),
  (.vml_sub, [.obj (.viewTDense .mat) .s true, .obj (.viewTDense .vec) .s true, .obj (.viewTDense .mat) .s false]),
  (.vml_sub, [.obj (.viewTDense .mat) .s true, .obj (.viewTDense .vec) .s true, .obj (.viewTDense .ten) .s false]),
  (.vml_sub, [.obj (.viewTDense .mat) .s true, .obj (.viewTDense .mat) .s true, .obj .tdense .s false]),
  (.vml_sub, [.obj (.viewTDense .mat) .s true, .obj (.viewTDense .mat) .s true, .obj (.viewTDense .vec) .s false]),
  (.vml_sub, [.obj (.viewTDense .mat) .s true, .obj (.viewTDense .mat) .s true, .obj (.viewTDense .mat) .s false]),
  (.vml_sub, [.obj (.viewTDense .mat) .s true, .obj (.viewTDense .mat) .s true, .obj (.viewTDense .ten) .s false])]

/-- the overloads of `tVmlTen_3` that are declared -/
def hVmlTen_3 : List (Fn × List Par) := [
  (.vml_sub, [.obj (.viewTDense .mat) .s true, .obj (.viewTDense .ten) .s true, .obj .tdense .s false]),
  (.vml_sub, [.obj (.viewTDense .mat) .s true, .obj (.viewTDense .ten) .s true, .obj (.viewTDense .vec) .s false]),
  (.vml_sub, [.obj (.viewTDense .mat) .s true, .obj (.viewTDense .ten) .s true, .obj (.viewTDense .mat) .s false]),
  (.vml_sub, [.obj (.viewTDense .mat) .s true, .obj (.viewTDense .ten) .s true, .obj (.viewTDense .ten) .s false]),
  (.vml_sub, [.obj (.viewTDense .ten) .s true, .obj .tdense .s true, .obj .tdense .s false]),
  (.vml_sub, [.obj (.viewTDense .ten) .s true, .obj .tdense .s true, .obj (.viewTDense .vec) .s false]),
  (.vml_sub, [.obj (.viewTDense .ten) .s true, .obj .tdense .s true, .obj (.viewTDense .mat) .s false]),
  (.vml_sub, [.obj (.viewTDense .ten) .s true, .obj .tdense .s true, .obj (.viewTDense .ten) .s false]),
  (.vml_sub, [.obj (.viewTDense .ten) .s true, .obj (.viewTDense .vec) .s true, .obj .tdense .s false]),
  (.vml_sub, [.obj (.viewTDense .ten) .s true, .obj (.viewTDense .vec) .s true, .obj (.viewTDense .vec) .s false]),
  (.vml_sub, [.obj (.viewTDense .ten) .s true, .obj (.viewTDense .vec) .s true, .obj (.viewTDense .mat) .s false]),
  (.vml_sub, [.obj (.viewTDense .ten) .s true, .obj (.viewTDense .vec) .s true, .obj (.viewTDense .ten) .s false]),
  (.vml_sub, [.obj (.viewTDense .ten) .s true, .obj (.viewTDense .mat) .s true, .obj .tdense .s false]),
  (.vml_sub, [.obj (.viewTDense .ten) .s true, .obj (.viewTDense .mat) .s true, .obj (.viewTDense .vec) .s false]),
  (.vml_sub, [.obj (.viewTDense .ten) .s true, .obj (.viewTDense .mat) .s true, .obj (.viewTDense .mat) .s false]),
  (.vml_sub, [.obj (.viewTDense .ten) .s true, .obj (.viewTDense .mat) .s true, .obj (.viewTDense .ten) .s false]),
  (.vml_sub, [.obj (.viewTDense .ten) .s true, .obj (.viewTDense .ten) .s true, .obj .tdense .s false]),
  (.vml_sub, [.obj (.viewTDense .ten) .s true, .obj (.viewTDense .ten) .s true, .obj (.viewTDense .vec) .s false]),
  (.vml_sub, [.obj (.viewTDense .ten) .s true, .obj (.viewTDense .ten) .s true, .obj (.viewTDense .mat) .s false]),
  (.vml_sub, [.obj (.viewTDense .ten) .s true, .obj (.viewTDense .ten) .s true, .obj (.viewTDense .ten) .s false]),
  (.vml_mul, [.obj .tcrs .d true, .obj .tcrs .d true, .obj .tcrs .d false]),
  (.vml_mul, [.obj .tdense .d true, .obj .tdense .d true, .obj .tdense .d false]),
  (.vml_mul, [.obj .tdense .d true, .obj .tdense .d true, .obj (.viewTDense .vec) .d false]),
  (.vml_mul, [.obj .tdense .d true, .obj .tdense .d true, .obj (.viewTDense .mat) .d false]),
  (.vml_mul, [.obj .tdense .d true, .obj .tdense .d true, .obj (.viewTDense .ten) .d false]),
  (.vml_mul, [.obj .tdense .d true, .obj (.viewTDense .vec) .d true, .obj .tdense .d false]),
  (.vml_mul, [.obj .tdense .d true, .obj (.viewTDense .vec) .d true, .obj (.viewTDense .vec) .d false]),
  (.vml_mul, [.obj .tdense .d true, .obj (.viewTDense .vec) .d true, .obj (.viewTDense .mat) .d false]),
  (.vml_mul, [.obj .tdense .d true, .obj (.viewTDense .vec) .d true, .obj (.viewTDense .ten) .d false]),
  (.vml_mul, [.obj .tdense .d true, .obj (.viewTDense .mat) .d true, .obj .tdense .d false]),
  (.vml_mul, [.obj .tdense .d true, .obj (.viewTDense .mat) .d true, .obj (.viewTDense .vec) .d false]),
  (.vml_mul, [.obj .tdense .d true, .obj (.viewTDense .mat) .d true, .obj (.viewTDense .mat) .d false]),
  (.vml_mul, [.obj .tdense .d true, .obj (.viewTDense .mat) .d true, .obj (.viewTDense .ten) .d false]),
  (.vml_mul, [.obj .tdense .d true, .obj (.viewTDense .ten) .d true, .obj .tdense .d false]),
  (.vml_mul, [.obj .tdense .d true, .obj (.viewTDense .ten) .d true, .obj (.viewTDense .vec) .d false]),
  (.vml_mul, [.obj .tdense .d true, .obj (.viewTDense .ten) .d true, .obj (.viewTDense .mat) .d false]),
  (.vml_mul, [.obj .tdense .d true, .obj (.viewTDense .ten) .d true, .obj (.viewTDense .ten) .d false]),
  (.vml_mul, [.obj (.viewTDense .vec) .d true, .obj .tdense .d true, .obj .tdense .d false]),
  (.vml_mul, [.obj (.viewTDense .vec) .d true, .obj .tdense .d true, .obj (.viewTDense .vec) .d false]),
  (.vml_mul, [.obj (.viewTDense .vec) .d true, .obj .tdense .d true, .obj (.viewTDense .mat) .d false]),
  (.vml_mul, [.obj (.viewTDense .vec) .d true, .obj .tdense .d true, .obj (.viewTDense .ten) .d false]),
  (.vml_mul, [.obj (.viewTDense .vec) .d true, .obj (.viewTDense .vec) .d true, .obj .tdense .d false]),
  (.vml_mul, [.obj (.viewTDense .vec) .d true, .obj (.viewTDense .vec) .d true, .obj (.viewTDense .vec) .d false]),
  (.vml_mul, [.obj (.viewTDense .vec) .d true, .obj (.viewTDense .vec) .d true, .obj (.viewTDense .mat) .d false]),
  (.vml_mul, [.obj (.viewTDense .vec) .d true, .obj (.viewTDense .vec) .d true, .obj (.viewTDense .ten) .d false]),
  (.vml_mul, [.obj (.viewTDense .vec) .d true, .obj (.viewTDense .mat) .d true, .obj .tdense .d false]),
  (.vml_mul, [.obj (.viewTDense .vec) .d true, .obj (.viewTDense .mat) .d true, .obj (.viewTDense .vec) .d false]),
  (.vml_mul, [.obj (.viewTDense .vec) .d true, .obj (.viewTDense .mat) .d true, .obj (.viewTDense .mat) .d false]),
  (.vml_mul, [.obj (.viewTDense .vec) .d true, .obj (.viewTDense .mat) .d true, .obj (.viewTDense .ten) .d false]),
  (.vml_mul, [.obj (.viewTDense .vec) .d true, .obj (.viewTDense .ten) .d true, .obj .tdense .d false]),
  (.vml_mul, [.obj (.viewTDense .vec) .d true, .obj (.viewTDense .ten) .d true, .obj (.viewTDense .vec) .d false]),
  (.vml_mul, [.obj (.viewTDense .vec) .d true, .obj (.viewTDense .ten) .d true, .obj (.viewTDense .mat) .d false]),
  (.vml_mul, [.obj (.viewTDense .vec) .d true, .obj (.viewTDense .ten) .d true, .obj (.viewTDense .ten) .d false]),
  (.vml_mul, [.obj (.viewTDense .mat) .d true, .obj .tdense .d true, .obj .tdense .d false]),
  (.vml_mul, [.obj (.viewTDense .mat) .d true, .obj .tdense .d true, .obj (.viewTDense .vec) .d false]),
  (.vml_mul, [.obj (.viewTDense .mat) .d true, .obj .tdense .d true, .obj (.viewTDense .mat) .d false]),
  (.vml_mul, [.obj (.viewTDense .mat) .d true, .obj .tdense .d true, .obj (.viewTDense .ten) .d false]),
  (.vml_mul, [.obj (.viewTDense .mat) .d true, .obj (.viewTDense .vec) .d true, .obj .tdense .d false]),
  (.vml_mul, [.obj (.viewTDense .mat) .d true, .obj (.viewTDense .vec) .d true, .obj (.viewTDense .vec) .d false]),
  (.vml_mul, [.obj (.viewTDense .mat) .d true, .obj (.viewTDense .vec) .d true, .obj (.viewTDense .mat) .d false]),
  (.vml_mul, [.obj (.viewTDense .mat) .d true, .obj (.viewTDense .vec) .d true, .obj (.viewTDense .ten) .d false]),
  (.vml_mul, [.obj (.viewTDense .mat) .d true, .obj (.viewTDense .mat) .d true, .obj .tdense .d false]),
  (.vml_mul, [.obj (.viewTDense .mat) .d true, .obj (.viewTDense .mat) .d true, .obj (.viewTDense .vec) .d false]),
  (.vml_mul, [.obj (.viewTDense .mat) .d true, .obj (.viewTDense .mat) .d true, .obj (.viewTDense .mat) .d false]),
  (.vml_mul, [.obj (.viewTDense .mat) .d true, .obj (.viewTDense .mat) .d true, .obj (.viewTDense .ten) .d false]),
  (.vml_mul, [.obj (.viewTDense .mat) .d true, .obj (.viewTDense .ten) .d true, .obj .tdense .d false]),
  (.vml_mul, [.obj (.viewTDense .mat) .d true, .obj (.viewTDense .ten) .d true, .obj (.viewTDense .vec) .d false]),
  (.vml_mul, [.obj (.viewTDense .mat) .d true, .obj (.viewTDense .ten) .d true, .obj (.viewTDense .mat) .d false]),
  (.vml_mul, [.obj (.viewTDense .mat) .d true, .obj (.viewTDense .ten) .d true, .obj (.viewTDense .ten) .d false]),
  (.vml_mul, [.obj (.viewTDense .ten) .d true, .obj .tdense .d true, .obj .tdense .d false]),
  (.vml_mul, [.obj (.viewTDense .ten) .d true, .obj .tdense .d true, .obj (.viewTDense .vec) .d false]),
  (.vml_mul, [.obj (.viewTDense .ten) .d true, .obj .tdense .d true, .obj (.viewTDense .mat) .d false]),
  (.vml_mul, [.obj (.viewTDense .ten) .d true, .obj .tdense .d true, .obj (.viewTDense .ten) .d false]),
  (.vml_mul, [.obj (.viewTDense .ten) .d true, .obj (.viewTDense .vec) .d true, .obj .tdense .d false]),
  (.vml_mul, [.obj (.viewTDense .ten) .d true, .obj (.viewTDense .vec) .d true, .obj (.viewTDense .vec) .d false]),
  (.vml_mul, [.obj (.viewTDense .ten) .d true, .obj (.viewTDense .vec) .d true, .obj (.viewTDense .mat) .d false]),
  (.vml_mul, [.obj (.viewTDense .ten) .d true, .obj (.viewTDense .vec) .d true, .obj (.viewTDense .ten) .d false]),
  (.vml_mul, [.obj (.viewTDense .ten) .d true, .obj (.viewTDense .mat) .d true, .obj .tdense .d false]),
  (.vml_mul, [.obj (.viewTDense .ten) .d true, .obj (.viewTDense .mat) .d true, .obj (.viewTDense .vec) .d false]),
  (.vml_mul, [.obj (.viewTDense .ten) .d true, .obj (.viewTDense .mat) .d true, .obj (.viewTDense .mat) .d false])]

/-- the overloads of `tVmlTen_4` that are declared -/
def hVmlTen_4 : List (Fn × List Par) := [
  (.vml_mul, [.obj (.viewTDense .ten) .d true, .obj (.viewTDense .mat) .d true, .obj (.viewTDense .ten) .d false]),
  (.vml_mul, [.obj (.viewTDense .ten) .d true, .obj (.viewTDense .ten) .d true, .obj .tdense .d false]),
  (.vml_mul, [.obj (.viewTDense .ten) .d true, .obj (.viewTDense .ten) .d true, .obj (.viewTDense .vec) .d false]),
  (.vml_mul, [.obj (.viewTDense .ten) .d true, .obj (.viewTDense .ten) .d true, .obj (.viewTDense .mat) .d false]),
  (.vml_mul, [.obj (.viewTDense .ten) .d true, .obj (.viewTDense .ten) .d true, .obj (.viewTDense .ten) .d false]),
  (.vml_mul, [.obj .tcrs .s true, .obj .tcrs .s true, .obj .tcrs .s false]),
  (.vml_mul, [.obj .tdense .s true, .obj .tdense .s true, .obj .tdense .s false]),
  (.vml_mul, [.obj .tdense .s true, .obj .tdense .s true, .obj (.viewTDense .vec) .s false]),
  (.vml_mul, [.obj .tdense .s true, .obj .tdense .s true, .obj (.viewTDense .mat) .s false]),
  (.vml_mul, [.obj .tdense .s true, .obj .tdense .s true, .obj (.viewTDense .ten) .s false]),
  (.vml_mul, [.obj .tdense .s true, .obj (.viewTDense .vec) .s true, .obj .tdense .s false]),
  (.vml_mul, [.obj .tdense .s true, .obj (.viewTDense .vec) .s true, .obj (.viewTDense .vec) .s false]),
  (.vml_mul, [.obj .tdense .s true, .obj (.viewTDense .vec) .s true, .obj (.viewTDense .mat) .s false]),
  (.vml_mul, [.obj .tdense .s true, .obj (.viewTDense .vec) .s true, .obj (.viewTDense .ten) .s false]),
  (.vml_mul, [.obj .tdense .s true, .obj (.viewTDense .mat) .s true, .obj .tdense .s false]),
  (.vml_mul, [.obj .tdense .s true, .obj (.viewTDense .mat) .s true, .obj (.viewTDense .vec) .s false]),
  (.vml_mul, [.obj .tdense .s true, .obj (.viewTDense .mat) .s true, .obj (.viewTDense .mat) .s false]),
  (.vml_mul, [.obj .tdense .s true, .obj (.viewTDense .mat) .s true, .obj (.viewTDense .ten) .s false]),
  (.vml_mul, [.obj .tdense .s true, .obj (.viewTDense .ten) .s true, .obj .tdense .s false]),
  (.vml_mul, [.obj .tdense .s true, .obj (.viewTDense .ten) .s true, .obj (.viewTDense .vec) .s false]),
  (.vml_mul, [.obj .tdense .s true, .obj (.viewTDense .ten) .s true, .obj (.viewTDense .mat) .s false]),
  (.vml_mul, [.obj .tdense .s true, .obj (.viewTDense .ten) .s true, .obj (.viewTDense .ten) .s false]),
  (.vml_mul, [.obj (.viewTDense .vec) .s true, .obj .tdense .s true, .obj .tdense .s false]),
  (.vml_mul, [.obj (.viewTDense .vec) .s true, .obj .tdense .s true, .obj (.viewTDense .vec) .s false]),
  (.vml_mul, [.obj (.viewTDense .vec) .s true, .obj .tdense .s true, .obj (.viewTDense .mat) .s false]),
  (.vml_mul, [.obj (.viewTDense .vec) .s true, .obj .tdense .s true, .obj (.viewTDense .ten) .s false]),
  (.vml_mul, [.obj (.viewTDense .vec) .s true, .obj (.viewTDense .vec) .s true, .obj .tdense .s false]),
  (.vml_mul, [.obj (.viewTDense .vec) .s true, .obj (.viewTDense .vec) .s true, .obj (.viewTDense .vec) .s false]),
  (.vml_mul, [.obj (.viewTDense .vec) .s true, .obj (.viewTDense .vec) .s true, .obj (.viewTDense .mat) .s false]),
  (.vml_mul, [.obj (.viewTDense .vec) .s true, .obj (.viewTDense .vec) .s true, .obj (.viewTDense .ten) .s false]),
  (.vml_mul, [.obj (.viewTDense .vec) .s true, .obj (.viewTDense .mat) .s true, .obj .tdense .s false]),
  (.vml_mul, [.obj (.viewTDense .vec) .s true, .obj (.viewTDense .mat) .s true, .obj (.viewTDense .vec) .s false]),
  (.vml_mul, [.obj (.viewTDense .vec) .s true, .obj (.viewTDense .mat) .s true, .obj (.viewTDense .mat) .s false]),
  (.vml_mul, [.obj (.viewTDense .vec) .s true, .obj (.viewTDense .mat) .s true, .obj (.viewTDense .ten) .s false]),
  (.vml_mul, [.obj (.viewTDense .vec) .s true, .obj (.viewTDense .ten) .s true, .obj .tdense .s false]),
  (.vml_mul, [.obj (.viewTDense .vec) .s true, .obj (.viewTDense .ten) .s true, .obj (.viewTDense .vec) .s false]),
  (.vml_mul, [.obj (.viewTDense .vec) .s true, .obj (.viewTDense .ten) .s true, .obj (.viewTDense .mat) .s false]),
  (.vml_mul, [.obj (.viewTDense .vec) .s true, .obj (.viewTDense .ten) .s true, .obj (.viewTDense .ten) .s false]),
  (.vml_mul, [.obj (.viewTDense .mat) .s true, .obj .tdense .s true, .obj .tdense .s false]),
  (.vml_mul, [.obj (.viewTDense .mat) .s true, .obj .tdense .s true, .obj (.viewTDense .vec) .s false]),
  (.vml_mul, [.obj (.viewTDense .mat) .s true, .obj .tdense .s true, .obj (.viewTDense .mat) .s false]),
  (.vml_mul, [.obj (.viewTDense .mat) .s true, .obj .tdense .s true, .obj (.viewTDense .ten) .s false]),
  (.vml_mul, [.obj (.viewTDense .mat) .s true, .obj (.viewTDense .vec) .s true, .obj .tdense .s false]),
  (.vml_mul, [.obj (.viewTDense .mat) .s true, .obj (.viewTDense .vec) .s true, .obj (.viewTDense .vec) .s false]),
  (.vml_mul, [.obj (.viewTDense .mat) .s true, .obj (.viewTDense .vec) .s true, .obj (.viewTDense .mat) .s false]),
  (.vml_mul, [.obj (.viewTDense .mat) .s true, .obj (.viewTDense .vec) .s true, .obj (.viewTDense .ten) .s false]),
  (.vml_mul, [.obj (.viewTDense .mat) .s true, .obj (.viewTDense .mat) .s true, .obj .tdense .s false]),
  (.vml_mul, [.obj (.viewTDense .mat) .s true, .obj (.viewTDense .mat) .s true, .obj (.viewTDense .vec) .s false]),
  (.vml_mul, [.obj (.viewTDense .mat) .s true, .obj (.viewTDense .mat) .s true, .obj (.viewTDense .mat) .s false]),
  (.vml_mul, [.obj (.viewTDense .mat) .s true, .obj (.viewTDense .mat) .s true, .obj (.viewTDense .ten) .s false]),
  (.vml_mul, [.obj (.viewTDense .mat) .s true, .obj (.viewTDense .ten) .s true, .obj .tdense .s false]),
  (.vml_mul, [.obj (.viewTDense .mat) .s true, .obj (.viewTDense .ten) .s true, .obj (.viewTDense .vec) .s false]),
  (.vml_mul, [.obj (.viewTDense .mat) .s true, .obj (.viewTDense .ten) .s true, .obj (.viewTDense .mat) .s false]),
  (.vml_mul, [.obj (.viewTDense .mat) .s true, .obj (.viewTDense .ten) .s true, .obj (.viewTDense .ten) .s false]),
  (.vml_mul, [.obj (.viewTDense .ten) .s true, .obj .tdense .s true, .obj .tdense .s false]),
  (.vml_mul, [.obj (.viewTDense .ten) .s true, .obj .tdense .s true, .obj (.viewTDense .vec) .s false]),
  (.vml_mul, [.obj (.viewTDense .ten) .s true, .obj .tdense .s true, .obj (.viewTDense .mat) .s false]),
  (.vml_mul, [.obj (.viewTDense .ten) .s true, .obj .tdense .s true, .obj (.viewTDense .ten) .s false]),
  (.vml_mul, [.obj (.viewTDense .ten) .s true, .obj (.viewTDense .vec) .s true, .obj .tdense .s false]),
  (.vml_mul, [.obj (.viewTDense .ten) .s true, .obj (.viewTDense .vec) .s true, .obj (.viewTDense .vec) .s false]),
  (.vml_mul, [.obj (.viewTDense .ten) .s true, .obj (.viewTDense .vec) .s true, .obj (.viewTDense .mat) .s false]),
  (.vml_mul, [.obj (.viewTDense .ten) .s true, .obj (.viewTDense .vec) .s true, .obj (.viewTDense .ten) .s false]),
  (.vml_mul, [.obj (.viewTDense .ten) .s true, .obj (.viewTDense .mat) .s true, .obj .tdense .s false]),
  (.vml_mul, [.obj (.viewTDense .ten) .s true, .obj (.viewTDense .mat) .s true, .obj (.viewTDense .vec) .s false]),
  (.vml_mul, [.obj (.viewTDense .ten) .s true, .obj (.viewTDense .mat) .s true, .obj (.viewTDense .mat) .s false]),
  (.vml_mul, [.obj (.viewTDense .ten) .s true, .obj (.viewTDense .mat) .s true, .obj (.viewTDense .ten) .s false]),
  (.vml_mul, [.obj (.viewTDense .ten) .s true, .obj (.viewTDense .ten) .s true, .obj .tdense .s false]),
  (.vml_mul, [.obj (.viewTDense .ten) .s true, .obj (.viewTDense .ten) .s true, .obj (.viewTDense .vec) .s false]),
  (.vml_mul, [.obj (.viewTDense .ten) .s true, .obj (.viewTDense .ten) .s true, .obj (.viewTDense .mat) .s false]),
  (.vml_mul, [.obj (.viewTDense .ten) .s true, .obj (.viewTDense .ten) .s true, .obj (.viewTDense .ten) .s false]),
  (.vml_div, [.obj .tcrs .d true, .obj .tcrs .d true, .obj .tcrs .d false]),
  (.vml_div, [.obj .tdense .d true, .obj .tdense .d true, .obj .tdense .d false]),
  (.vml_div, [.obj .tdense .d true, .obj .tdense .d true, .obj (.viewTDense .vec) .d false]),
  (.vml_div, [.obj .tdense .d true, .obj .tdense .d true, .obj (.viewTDense .mat) .d false]),
  (.vml_div, [.obj .tdense .d true, .obj .tdense .d true, .obj (.viewTDense .ten) .d false]),
  (.vml_div, [.obj .tdense .d true, .obj (.viewTDense .vec) .d true, .obj .tdense .d false]),
  (.vml_div, [.obj .tdense .d true, .obj (.viewTDense .vec) .d true, .obj (.viewTDense .vec) .d false]),
  (.vml_div, [.obj .tdense .d true, .obj (.viewTDense .vec) .d true, .obj (.viewTDense .mat) .d false]),
  (.vml_div, [.obj .tdense .d true, .obj (.viewTDense .vec) .d true, .obj (.viewTDense .ten) .d false]),
  (.vml_div, [.obj .tdense .d true, .obj (.viewTDense .mat) .d true, .obj .tdense .d false])]

/-- the overloads of `tVmlTen_5` that are declared -/
def hVmlTen_5 : List (Fn × List Par) := [
  (.vml_div, [.obj .tdense .d true, .obj (.viewTDense .mat) .d true, .obj (.viewTDense .vec) .d false]),
  (.vml_div, [.obj .tdense .d true, .obj (.viewTDense .mat) .d true, .obj (.viewTDense .mat) .d false]),
  (.vml_div, [.obj .tdense .d true, .obj (.viewTDense .mat) .d true, .obj (.viewTDense .ten) .d false]),
  (.vml_div, [.obj .tdense .d true, .obj (.viewTDense .ten) .d true, .obj .tdense .d false]),
  (.vml_div, [.obj .tdense .d true, .obj (.viewTDense .ten) .d true, .obj (.viewTDense .vec) .d false]),
  (.vml_div, [.obj .tdense .d true, .obj (.viewTDense .ten) .d true, .obj (.viewTDense .mat) .d false]),
  (.vml_div, [.obj .tdense .d true, .obj (.viewTDense .ten) .d true, .obj (.viewTDense .ten) .d false]),
  (.vml_div, [.obj (.viewTDense .vec) .d true, .obj .tdense .d true, .obj .tdense .d false]),
  (.vml_div, [.obj (.viewTDense .vec) .d true, .obj .tdense .d true, .obj (.viewTDense .vec) .d false]),
  (.vml_div, [.obj (.viewTDense .vec) .d true, .obj .tdense .d true, .obj (.viewTDense .mat) .d false]),
  (.vml_div, [.obj (.viewTDense .vec) .d true, .obj .tdense .d true, .obj (.viewTDense .ten) .d false]),
  (.vml_div, [.obj (.viewTDense .vec) .d true, .obj (.viewTDense .vec) .d true, .obj .tdense .d false]),
  (.vml_div, [.obj (.viewTDense .vec) .d true, .obj (.viewTDense .vec) .d true, .obj (.viewTDense .vec) .d false]),
  (.vml_div, [.obj (.viewTDense .vec) .d true, .obj (.viewTDense .vec) .d true, .obj (.viewTDense .mat) .d false]),
  (.vml_div, [.obj (.viewTDense .vec) .d true, .obj (.viewTDense .vec) .d true, .obj (.viewTDense .ten) .d false]),
  (.vml_div, [.obj (.viewTDense .vec) .d true, .obj (.viewTDense .mat) .d true, .obj .tdense .d false]),
  (.vml_div, [.obj (.viewTDense .vec) .d true, .obj (.viewTDense .mat) .d true, .obj (.viewTDense .vec) .d false]),
  (.vml_div, [.obj (.viewTDense .vec) .d true, .obj (.viewTDense .mat) .d true, .obj (.viewTDense .mat) .d false]),
  (.vml_div, [.obj (.viewTDense .vec) .d true, .obj (.viewTDense .mat) .d true, .obj (.viewTDense .ten) .d false]),
  (.vml_div, [.obj (.viewTDense .vec) .d true, .obj (.viewTDense .ten) .d true, .obj .tdense .d false]),
  (.vml_div, [.obj (.viewTDense .vec) .d true, .obj (.viewTDense .ten) .d true, .obj (.viewTDense .vec) .d false]),
  (.vml_div, [.obj (.viewTDense .vec) .d true, .obj (.viewTDense .ten) .d true, .obj (.viewTDense .mat) .d false]),
  (.vml_div, [.obj (.viewTDense .vec) .d true, .obj (.viewTDense .ten) .d true, .obj (.viewTDense .ten) .d false]),
  (.vml_div, [.obj (.viewTDense .mat) .d true, .obj .tdense .d true, .obj .tdense .d false]),
  (.vml_div, [.obj (.viewTDense .mat) .d true, .obj .tdense .d true, .obj (.viewTDense .vec) .d false]),
  (.vml_div, [.obj (.viewTDense .mat) .d true, .obj .tdense .d true, .obj (.viewTDense .mat) .d false]),
  (.vml_div, [.obj (.viewTDense .mat) .d true, .obj .tdense .d true, .obj (.viewTDense .ten) .d false]),
  (.vml_div, [.obj (.viewTDense .mat) .d true, .obj (.viewTDense .vec) .d true, .obj .tdense .d false]),
  (.vml_div, [.obj (.viewTDense .mat) .d true, .obj (.viewTDense .vec) .d true, .obj (.viewTDense .vec) .d false]),
  (.vml_div, [.obj (.viewTDense .mat) .d true, .obj (.viewTDense .vec) .d true, .obj (.viewTDense .mat) .d false]),
  (.vml_div, [.obj (.viewTDense .mat) .d true, .obj (.viewTDense .vec) .d true, .obj (.viewTDense .ten) .d false]),
  (.vml_div, [.obj (.viewTDense .mat) .d true, .obj (.viewTDense .mat) .d true, .obj .tdense .d false]),
  (.vml_div, [.obj (.viewTDense .mat) .d true, .obj (.viewTDense .mat) .d true, .obj (.viewTDense .vec) .d false]),
  (.vml_div, [.obj (.viewTDense .mat) .d true, .obj (.viewTDense .mat) .d true, .obj (.viewTDense .mat) .d false]),
  (.vml_div, [.obj (.viewTDense .mat) .d true, .obj (.viewTDense .mat) .d true, .obj (.viewTDense .ten) .d false]),
  (.vml_div, [.obj (.viewTDense .mat) .d true, .obj (.viewTDense .ten) .d true, .obj .tdense .d false]),
  (.vml_div, [.obj (.viewTDense .mat) .d true, .obj (.viewTDense .ten) .d true, .obj (.viewTDense .vec) .d false]),
  (.vml_div, [.obj (.viewTDense .mat) .d true, .obj (.viewTDense .ten) .d true, .obj (.viewTDense .mat) .d false]),
  (.vml_div, [.obj (.viewTDense .mat) .d true, .obj (.viewTDense .ten) .d true, .obj (.viewTDense .ten) .d false]),
  (.vml_div, [.obj (.viewTDense .ten) .d true, .obj .tdense .d true, .obj .tdense .d false]),
  (.vml_div, [.obj (.viewTDense .ten) .d true, .obj .tdense .d true, .obj (.viewTDense .vec) .d false]),
  (.vml_div, [.obj (.viewTDense .ten) .d true, .obj .tdense .d true, .obj (.viewTDense .mat) .d false]),
  (.vml_div, [.obj (.viewTDense .ten) .d true, .obj .tdense .d true, .obj (.viewTDense .ten) .d false]),
  (.vml_div, [.obj (.viewTDense .ten) .d true, .obj (.viewTDense .vec) .d true, .obj .tdense .d false]),
  (.vml_div, [.obj (.viewTDense .ten) .d true, .obj (.viewTDense .vec) .d true, .obj (.viewTDense .vec) .d false]),
  (.vml_div, [.obj (.viewTDense .ten) .d true, .obj (.viewTDense .vec) .d true, .obj (.viewTDense .mat) .d false]),
  (.vml_div, [.obj (.viewTDense .ten) .d true, .obj (.viewTDense .vec) .d true, .obj (.viewTDense .ten) .d false]),
  (.vml_div, [.obj (.viewTDense .ten) .d true, .obj (.viewTDense .mat) .d true, .obj .tdense .d false]),
  (.vml_div, [.obj (.viewTDense .ten) .d true, .obj (.viewTDense .mat) .d true, .obj (.viewTDense .vec) .d false]),
  (.vml_div, [.obj (.viewTDense .ten) .d true, .obj (.viewTDense .mat) .d true, .obj (.viewTDense .mat) .d false]),
  (.vml_div, [.obj (.viewTDense .ten) .d true, .obj (.viewTDense .mat) .d true, .obj (.viewTDense .ten) .d false]),
  (.vml_div, [.obj (.viewTDense .ten) .d true, .obj (.viewTDense .ten) .d true, .obj .tdense .d false]),
  (.vml_div, [.obj (.viewTDense .ten) .d true, .obj (.viewTDense .ten) .d true, .obj (.viewTDense .vec) .d false]),
  (.vml_div, [.obj (.viewTDense .ten) .d true, .obj (.viewTDense .ten) .d true, .obj (.viewTDense .mat) .d false]),
  (.vml_div, [.obj (.viewTDense .ten) .d true, .obj (.viewTDense .ten) .d true, .obj (.viewTDense .ten) .d false]),
  (.vml_div, [.obj .tcrs .s true, .obj .tcrs .s true, .obj .tcrs .s false]),
  (.vml_div, [.obj .tdense .s true, .obj .tdense .s true, .obj .tdense .s false]),
  (.vml_div, [.obj .tdense .s true, .obj .tdense .s true, .obj (.viewTDense .vec) .s false]),
  (.vml_div, [.obj .tdense .s true, .obj .tdense .s true, .obj (.viewTDense .mat) .s false]),
  (.vml_div, [.obj .tdense .s true, .obj .tdense .s true, .obj (.viewTDense .ten) .s false]),
  (.vml_div, [.obj .tdense .s true, .obj (.viewTDense .vec) .s true, .obj .tdense .s false]),
  (.vml_div, [.obj .tdense .s true, .obj (.viewTDense .vec) .s true, .obj (.viewTDense .vec) .s false]),
  (.vml_div, [.obj .tdense .s true, .obj (.viewTDense .vec) .s true, .obj (.viewTDense .mat) .s false]),
  (.vml_div, [.obj .tdense .s true, .obj (.viewTDense .vec) .s true, .obj (.viewTDense .ten) .s false]),
  (.vml_div, [.obj .tdense .s true, .obj (.viewTDense .mat) .s true, .obj .tdense .s false]),
  (.vml_div, [.obj .tdense .s true, .obj (.viewTDense .mat) .s true, .obj (.viewTDense .vec) .s false]),
  (.vml_div, [.obj .tdense .s true, .obj (.viewTDense .mat) .s true, .obj (.viewTDense .mat) .s false]),
  (.vml_div, [.obj .tdense .s true, .obj (.viewTDense .mat) .s true, .obj (.viewTDense .ten) .s false]),
  (.vml_div, [.obj .tdense .s true, .obj (.viewTDense .ten) .s true, .obj .tdense .s false]),
  (.vml_div, [.obj .tdense .s true, .obj (.viewTDense .ten) .s true, .obj (.viewTDense .vec) .s false]),
  (.vml_div, [.obj .tdense .s true, .obj (.viewTDense .ten) .s true, .obj (.viewTDense .mat) .s false]),
  (.vml_div, [.obj .tdense .s true, .obj (.viewTDense .ten) .s true, .obj (.viewTDense .ten) .s false]),
  (.vml_div, [.obj (.viewTDense .vec) .s true, .obj .tdense .s true, .obj .tdense .s false]),
  (.vml_div, [.obj (.viewTDense .vec) .s true, .obj .tdense .s true, .obj (.viewTDense .vec) .s false]),
  (.vml_div, [.obj (.viewTDense .vec) .s true, .obj .tdense .s true, .obj (.viewTDense .mat) .s false]),
  (.vml_div, [.obj (.viewTDense .vec) .s true, .obj .tdense .s true, .obj (.viewTDense .ten) .s false]),
  (.vml_div, [.obj (.viewTDense .vec) .s true, .obj (.viewTDense .vec) .s true, .obj .tdense .s false]),
  (.vml_div, [.obj (.viewTDense .vec) .s true, .obj (.viewTDense .vec) .s true, .obj (.viewTDense .vec) .s false]),
  (.vml_div, [.obj (.viewTDense .vec) .s true, .obj (.viewTDense .vec) .s true, .obj (.viewTDense .mat) .s false]),
  (.vml_div, [.obj (.viewTDense .vec) .s true, .obj (.viewTDense .vec) .s true, .obj (.viewTDense .ten) .s false])]

/-- the overloads of `tVmlTen_6` that are declared -/
def hVmlTen_6 : List (Fn × List Par) := [
  (.vml_div, [.obj (.viewTDense .vec) .s true, .obj (.viewTDense .mat) .s true, .obj .tdense .s false]),
  (.vml_div, [.obj (.viewTDense .vec) .s true, .obj (.viewTDense .mat) .s true, .obj (.viewTDense .vec) .s false]),
  (.vml_div, [.obj (.viewTDense .vec) .s true, .obj (.viewTDense .mat) .s true, .obj (.viewTDense .mat) .s false]),
  (.vml_div, [.obj (.viewTDense .vec) .s true, .obj (.viewTDense .mat) .s true, .obj (.viewTDense .ten) .s false]),
  (.vml_div, [.obj (.viewTDense .vec) .s true, .obj (.viewTDense .ten) .s true, .obj .tdense .s false]),
  (.vml_div, [.obj (.viewTDense .vec) .s true, .obj (.viewTDense .ten) .s true, .obj (.viewTDense .vec) .s false]),
  (.vml_div, [.obj (.viewTDense .vec) .s true, .obj (.viewTDense .ten) .s true, .obj (.viewTDense .mat) .s false]),
  (.vml_div, [.obj (.viewTDense .vec) .s true, .obj (.viewTDense .ten) .s true, .obj (.viewTDense .ten) .s false]),
  (.vml_div, [.obj (.viewTDense .mat) .s true, .obj .tdense .s true, .obj .tdense .s false]),
  (.vml_div, [.obj (.viewTDense .mat) .s true, .obj .tdense .s true, .obj (.viewTDense .vec) .s false]),
  (.vml_div, [.obj (.viewTDense .mat) .s true, .obj .tdense .s true, .obj (.viewTDense .mat) .s false]),
  (.vml_div, [.obj (.viewTDense .mat) .s true, .obj .tdense .s true, .obj (.viewTDense .ten) .s false]),
  (.vml_div, [.obj (.viewTDense .mat) .s true, .obj (.viewTDense .vec) .s true, .obj .tdense .s false]),
  (.vml_div, [.obj (.viewTDense .mat) .s true, .obj (.viewTDense .vec) .s true, .obj (.viewTDense .vec) .s false]),
  (.vml_div, [.obj (.viewTDense .mat) .s true, .obj (.viewTDense .vec) .s true, .obj (.viewTDense .mat) .s false]),
  (.vml_div, [.obj (.viewTDense .mat) .s true, .obj (.viewTDense .vec) .s true, .obj (.viewTDense .ten) .s false]),
  (.vml_div, [.obj (.viewTDense .mat) .s true, .obj (.viewTDense .mat) .s true, .obj .tdense .s false]),
  (.vml_div, [.obj (.viewTDense .mat) .s true, .obj (.viewTDense .mat) .s true, .obj (.viewTDense .vec) .s false]),
  (.vml_div, [.obj (.viewTDense .mat) .s true, .obj (.viewTDense .mat) .s true, .obj (.viewTDense .mat) .s false]),
  (.vml_div, [.obj (.viewTDense .mat) .s true, .obj (.viewTDense .mat) .s true, .obj (.viewTDense .ten) .s false]),
  (.vml_div, [.obj (.viewTDense .mat) .s true, .obj (.viewTDense .ten) .s true, .obj .tdense .s false]),
  (.vml_div, [.obj (.viewTDense .mat) .s true, .obj (.viewTDense .ten) .s true, .obj (.viewTDense .vec) .s false]),
  (.vml_div, [.obj (.viewTDense .mat) .s true, .obj (.viewTDense .ten) .s true, .obj (.viewTDense .mat) .s false]),
  (.vml_div, [.obj (.viewTDense .mat) .s true, .obj (.viewTDense .ten) .s true, .obj (.viewTDense .ten) .s false]),
  (.vml_div, [.obj (.viewTDense .ten) .s true, .obj .tdense .s true, .obj .tdense .s false]),
  (.vml_div, [.obj (.viewTDense .ten) .s true, .obj .tdense .s true, .obj (.viewTDense .vec) .s false]),
  (.vml_div, [.obj (.viewTDense .ten) .s true, .obj .tdense .s true, .obj (.viewTDense .mat) .s false]),
  (.vml_div, [.obj (.viewTDense .ten) .s true, .obj .tdense .s true, .obj (.viewTDense .ten) .s false]),
  (.vml_div, [.obj (.viewTDense .ten) .s true, .obj (.viewTDense .vec) .s true, .obj .tdense .s false]),
  (.vml_div, [.obj (.viewTDense .ten) .s true, .obj (.viewTDense .vec) .s true, .obj (.viewTDense .vec) .s false]),
  (.vml_div, [.obj (.viewTDense .ten) .s true, .obj (.viewTDense .vec) .s true, .obj (.viewTDense .mat) .s false]),
  (.vml_div, [.obj (.viewTDense .ten) .s true, .obj (.viewTDense .vec) .s true, .obj (.viewTDense .ten) .s false]),
  (.vml_div, [.obj (.viewTDense .ten) .s true, .obj (.viewTDense .mat) .s true, .obj .tdense .s false]),
  (.vml_div, [.obj (.viewTDense .ten) .s true, .obj (.viewTDense .mat) .s true, .obj (.viewTDense .vec) .s false]),
  (.vml_div, [.obj (.viewTDense .ten) .s true, .obj (.viewTDense .mat) .s true, .obj (.viewTDense .mat) .s false]),
  (.vml_div, [.obj (.viewTDense .ten) .s true, .obj (.viewTDense .mat) .s true, .obj (.viewTDense .ten) .s false]),
  (.vml_div, [.obj (.viewTDense .ten) .s true, .obj (.viewTDense .ten) .s true, .obj .tdense .s false]),
  (.vml_div, [.obj (.viewTDense .ten) .s true, .obj (.viewTDense .ten) .s true, .obj (.viewTDense .vec) .s false]),
  (.vml_div, [.obj (.viewTDense .ten) .s true, .obj (.viewTDense .ten) .s true, .obj (.viewTDense .mat) .s false]),
  (.vml_div, [.obj (.viewTDense .ten) .s true, .obj (.viewTDense .ten) .s true, .obj (.viewTDense .ten) .s false]),
  (.vml_add, [.obj .tcrs .d true, .scal .d, .obj .tcrs .d false]),
  (.vml_add, [.obj .tdense .d true, .scal .d, .obj .tdense .d false]),
  (.vml_add, [.obj .tdense .d true, .scal .d, .obj (.viewTDense .vec) .d false]),
  (.vml_add, [.obj .tdense .d true, .scal .d, .obj (.viewTDense .mat) .d false]),
  (.vml_add, [.obj .tdense .d true, .scal .d, .obj (.viewTDense .ten) .d false]),
  (.vml_add, [.obj (.viewTDense .vec) .d true, .scal .d, .obj .tdense .d false]),
  (.vml_add, [.obj (.viewTDense .vec) .d true, .scal .d, .obj (.viewTDense .vec) .d false]),
  (.vml_add, [.obj (.viewTDense .vec) .d true, .scal .d, .obj (.viewTDense .mat) .d false]),
  (.vml_add, [.obj (.viewTDense .vec) .d true, .scal .d, .obj (.viewTDense .ten) .d false]),
  (.vml_add, [.obj (.viewTDense .mat) .d true, .scal .d, .obj .tdense .d false]),
  (.vml_add, [.obj (.viewTDense .mat) .d true, .scal .d, .obj (.viewTDense .vec) .d false]),
  (.vml_add, [.obj (.viewTDense .mat) .d true, .scal .d, .obj (.viewTDense .mat) .d false]),
  (.vml_add, [.obj (.viewTDense .mat) .d true, .scal .d, .obj (.viewTDense .ten) .d false]),
  (.vml_add, [.obj (.viewTDense .ten) .d true, .scal .d, .obj .tdense .d false]),
  (.vml_add, [.obj (.viewTDense .ten) .d true, .scal .d, .obj (.viewTDense .vec) .d false]),
  (.vml_add, [.obj (.viewTDense .ten) .d true, .scal .d, .obj (.viewTDense .mat) .d false]),
  (.vml_add, [.obj (.viewTDense .ten) .d true, .scal .d, .obj (.viewTDense .ten) .d false]),
  (.vml_add, [.obj .tcrs .s true, .scal .s, .obj .tcrs .s false]),
  (.vml_add, [.obj .tdense .s true, .scal .s, .obj .tdense .s false]),
  (.vml_add, [.obj .tdense .s true, .scal .s, .obj (.viewTDense .vec) .s false]),
  (.vml_add, [.obj .tdense .s true, .scal .s, .obj (.viewTDense .mat) .s false]),
  (.vml_add, [.obj .tdense .s true, .scal .s, .obj (.viewTDense .ten) .s false]),
  (.vml_add, [.obj (.viewTDense .vec) .s true, .scal .s, .obj .tdense .s false]),
  (.vml_add, [.obj (.viewTDense .vec) .s true, .scal .s, .obj (.viewTDense .vec) .s false]),
  (.vml_add, [.obj (.viewTDense .vec) .s true, .scal .s, .obj (.viewTDense .mat) .s false]),
  (.vml_add, [.obj (.viewTDense .vec) .s true, .scal .s, .obj (.viewTDense .ten) .s false]),
  (.vml_add, [.obj (.viewTDense .mat) .s true, .scal .s, .obj .tdense .s false]),
  (.vml_add, [.obj (.viewTDense .mat) .s true, .scal .s, .obj (.viewTDense .vec) .s false]),
  (.vml_add, [.obj (.viewTDense .mat) .s true, .scal .s, .obj (.viewTDense .mat) .s false]),
  (.vml_add, [.obj (.viewTDense .mat) .s true, .scal .s, .obj (.viewTDense .ten) .s false]),
  (.vml_add, [.obj (.viewTDense .ten) .s true, .scal .s, .obj .tdense .s false]),
  (.vml_add, [.obj (.viewTDense .ten) .s true, .scal .s, .obj (.viewTDense .vec) .s false]),
  (.vml_add, [.obj (.viewTDense .ten) .s true, .scal .s, .obj (.viewTDense .mat) .s false]),
  (.vml_add, [.obj (.viewTDense .ten) .s true, .scal .s, .obj (.viewTDense .ten) .s false]),
  (.vml_sub, [.obj .tcrs .d true, .scal .d, .obj .tcrs .d false]),
  (.vml_sub, [.obj .tdense .d true, .scal .d, .obj .tdense .d false]),
  (.vml_sub, [.obj .tdense .d true, .scal .d, .obj (.viewTDense .vec) .d false]),
  (.vml_sub, [.obj .tdense .d true, .scal .d, .obj (.viewTDense .mat) .d false]),
  (.vml_sub, [.obj .tdense .d true, .scal .d, .obj (.viewTDense .ten) .d false]),
  (.vml_sub, [.obj (.viewTDense .vec) .d true, .scal .d, .obj .tdense .d false])]

/-- the overloads of `tVmlTen_7` that are declared -/
def hVmlTen_7 : List (Fn × List Par) := [
  (.vml_sub, [.obj (.viewTDense .vec) .d true, .scal .d, .obj (.viewTDense .vec) .d false]),
  (.vml_sub, [.obj (.viewTDense .vec) .d true, .scal .d, .obj (.viewTDense .mat) .d false]),
  (.vml_sub, [.obj (.viewTDense .vec) .d true, .scal .d, .obj (.viewTDense .ten) .d false]),
  (.vml_sub, [.obj (.viewTDense .mat) .d true, .scal .d, .obj .tdense .d false]),
  (.vml_sub, [.obj (.viewTDense .mat) .d true, .scal .d, .obj (.viewTDense .vec) .d false]),
  (.vml_sub, [.obj (.viewTDense .mat) .d true, .scal .d, .obj (.viewTDense .mat) .d false]),
  (.vml_sub, [.obj (.viewTDense .mat) .d true, .scal .d, .obj (.viewTDense .ten) .d false]),
  (.vml_sub, [.obj (.viewTDense .ten) .d true, .scal .d, .obj .tdense .d false]),
  (.vml_sub, [.obj (.viewTDense .ten) .d true, .scal .d, .obj (.viewTDense .vec) .d false]),
  (.vml_sub, [.obj (.viewTDense .ten) .d true, .scal .d, .obj (.viewTDense .mat) .d false]),
  (.vml_sub, [.obj (.viewTDense .ten) .d true, .scal .d, .obj (.viewTDense .ten) .d false]),
  (.vml_sub, [.obj .tcrs .s true, .scal .s, .obj .tcrs .s false]),
  (.vml_sub, [.obj .tdense .s true, .scal .s, .obj .tdense .s false]),
  (.vml_sub, [.obj .tdense .s true, .scal .s, .obj (.viewTDense .vec) .s false]),
  (.vml_sub, [.obj .tdense .s true, .scal .s, .obj (.viewTDense .mat) .s false]),
  (.vml_sub, [.obj .tdense .s true, .scal .s, .obj (.viewTDense .ten) .s false]),
  (.vml_sub, [.obj (.viewTDense .vec) .s true, .scal .s, .obj .tdense .s false]),
  (.vml_sub, [.obj (.viewTDense .vec) .s true, .scal .s, .obj (.viewTDense .vec) .s false]),
  (.vml_sub, [.obj (.viewTDense .vec) .s true, .scal .s, .obj (.viewTDense .mat) .s false]),
  (.vml_sub, [.obj (.viewTDense .vec) .s true, .scal .s, .obj (.viewTDense .ten) .s false]),
  (.vml_sub, [.obj (.viewTDense .mat) .s true, .scal .s, .obj .tdense .s false]),
  (.vml_sub, [.obj (.viewTDense .mat) .s true, .scal .s, .obj (.viewTDense .vec) .s false]),
  (.vml_sub, [.obj (.viewTDense .mat) .s true, .scal .s, .obj (.viewTDense .mat) .s false]),
  (.vml_sub, [.obj (.viewTDense .mat) .s true, .scal .s, .obj (.viewTDense .ten) .s false]),
  (.vml_sub, [.obj (.viewTDense .ten) .s true, .scal .s, .obj .tdense .s false]),
  (.vml_sub, [.obj (.viewTDense .ten) .s true, .scal .s, .obj (.viewTDense .vec) .s false]),
  (.vml_sub, [.obj (.viewTDense .ten) .s true, .scal .s, .obj (.viewTDense .mat) .s false]),
  (.vml_sub, [.obj (.viewTDense .ten) .s true, .scal .s, .obj (.viewTDense .ten) .s false]),
  (.vml_mul, [.obj .tcrs .d true, .scal .d, .obj .tcrs .d false]),
  (.vml_mul, [.obj .tdense .d true, .scal .d, .obj .tdense .d false]),
  (.vml_mul, [.obj .tdense .d true, .scal .d, .obj (.viewTDense .vec) .d false]),
  (.vml_mul, [.obj .tdense .d true, .scal .d, .obj (.viewTDense .mat) .d false]),
  (.vml_mul, [.obj .tdense .d true, .scal .d, .obj (.viewTDense .ten) .d false]),
  (.vml_mul, [.obj (.viewTDense .vec) .d true, .scal .d, .obj .tdense .d false]),
  (.vml_mul, [.obj (.viewTDense .vec) .d true, .scal .d, .obj (.viewTDense .vec) .d false]),
  (.vml_mul, [.obj (.viewTDense .vec) .d true, .scal .d, .obj (.viewTDense .mat) .d false]),
  (.vml_mul, [.obj (.viewTDense .vec) .d true, .scal .d, .obj (.viewTDense .ten) .d false]),
  (.vml_mul, [.obj (.viewTDense .mat) .d true, .scal .d, .obj .tdense .d false]),
  (.vml_mul, [.obj (.viewTDense .mat) .d true, .scal .d, .obj (.viewTDense .vec) .d false]),
  (.vml_mul, [.obj (.viewTDense .mat) .d true, .scal .d, .obj (.viewTDense .mat) .d false]),
  (.vml_mul, [.obj (.viewTDense .mat) .d true, .scal .d, .obj (.viewTDense .ten) .d false]),
  (.vml_mul, [.obj (.viewTDense .ten) .d true, .scal .d, .obj .tdense .d false]),
  (.vml_mul, [.obj (.viewTDense .ten) .d true, .scal .d, .obj (.viewTDense .vec) .d false]),
  (.vml_mul, [.obj (.viewTDense .ten) .d true, .scal .d, .obj (.viewTDense .mat) .d false]),
  (.vml_mul, [.obj (.viewTDense .ten) .d true, .scal .d, .obj (.viewTDense .ten) .d false]),
  (.vml_mul, [.obj .tcrs .s true, .scal .s, .obj .tcrs .s false]),
  (.vml_mul, [.obj .tdense .s true, .scal .s, .obj .tdense .s false]),
  (.vml_mul, [.obj .tdense .s true, .scal .s, .obj (.viewTDense .vec) .s false]),
  (.vml_mul, [.obj .tdense .s true, .scal .s, .obj (.viewTDense .mat) .s false]),
  (.vml_mul, [.obj .tdense .s true, .scal .s, .obj (.viewTDense .ten) .s false]),
  (.vml_mul, [.obj (.viewTDense .vec) .s true, .scal .s, .obj .tdense .s false]),
  (.vml_mul, [.obj (.viewTDense .vec) .s true, .scal .s, .obj (.viewTDense .vec) .s false]),
  (.vml_mul, [.obj (.viewTDense .vec) .s true, .scal .s, .obj (.viewTDense .mat) .s false]),
  (.vml_mul, [.obj (.viewTDense .vec) .s true, .scal .s, .obj (.viewTDense .ten) .s false]),
  (.vml_mul, [.obj (.viewTDense .mat) .s true, .scal .s, .obj .tdense .s false]),
  (.vml_mul, [.obj (.viewTDense .mat) .s true, .scal .s, .obj (.viewTDense .vec) .s false]),
  (.vml_mul, [.obj (.viewTDense .mat) .s true, .scal .s, .obj (.viewTDense .mat) .s false]),
  (.vml_mul, [.obj (.viewTDense .mat) .s true, .scal .s, .obj (.viewTDense .ten) .s false]),
  (.vml_mul, [.obj (.viewTDense .ten) .s true, .scal .s, .obj .tdense .s false]),
  (.vml_mul, [.obj (.viewTDense .ten) .s true, .scal .s, .obj (.viewTDense .vec) .s false]),
  (.vml_mul, [.obj (.viewTDense .ten) .s true, .scal .s, .obj (.viewTDense .mat) .s false]),
  (.vml_mul, [.obj (.viewTDense .ten) .s true, .scal .s, .obj (.viewTDense .ten) .s false]),
  (.vml_div, [.obj .tcrs .d true, .scal .d, .obj .tcrs .d false]),
  (.vml_div, [.obj .tdense .d true, .scal .d, .obj .tdense .d false]),
  (.vml_div, [.obj .tdense .d true, .scal .d, .obj (.viewTDense .vec) .d false]),
  (.vml_div, [.obj .tdense .d true, .scal .d, .obj (.viewTDense .mat) .d false]),
  (.vml_div, [.obj .tdense .d true, .scal .d, .obj (.viewTDense .ten) .d false]),
  (.vml_div, [.obj (.viewTDense .vec) .d true, .scal .d, .obj .tdense .d false]),
  (.vml_div, [.obj (.viewTDense .vec) .d true, .scal .d, .obj (.viewTDense .vec) .d false]),
  (.vml_div, [.obj (.viewTDense .vec) .d true, .scal .d, .obj (.viewTDense .mat) .d false]),
  (.vml_div, [.obj (.viewTDense .vec) .d true, .scal .d, .obj (.viewTDense .ten) .d false]),
  (.vml_div, [.obj (.viewTDense .mat) .d true, .scal .d, .obj .tdense .d false]),
  (.vml_div, [.obj (.viewTDense .mat) .d true, .scal .d, .obj (.viewTDense .vec) .d false]),
  (.vml_div, [.obj (.viewTDense .mat) .d true, .scal .d, .obj (.viewTDense .mat) .d false]),
  (.vml_div, [.obj (.viewTDense .mat) .d true, .scal .d, .obj (.viewTDense .ten) .d false]),
  (.vml_div, [.obj (.viewTDense .ten) .d true, .scal .d, .obj .tdense .d false]),
  (.vml_div, [.obj (.viewTDense .ten) .d true, .scal .d, .obj (.viewTDense .vec) .d false]),
  (.vml_div, [.obj (.viewTDense .ten) .d true, .scal .d, .obj (.viewTDense .mat) .d false]),
  (.vml_div, [.obj (.viewTDense .ten) .d true, .scal .d, .obj (.viewTDense .ten) .d false]),
  (.vml_div, [.obj .tcrs .s true, .scal .s, .obj .tcrs .s false])]

/-- the overloads of `tVmlTen_8` that are declared -/
def hVmlTen_8 : List (Fn × List Par) := [
  (.vml_div, [.obj .tdense .s true, .scal .s, .obj .tdense .s false]),
  (.vml_div, [.obj .tdense .s true, .scal .s, .obj (.viewTDense .vec) .s false]),
  (.vml_div, [.obj .tdense .s true, .scal .s, .obj (.viewTDense .mat) .s false]),
  (.vml_div, [.obj .tdense .s true, .scal .s, .obj (.viewTDense .ten) .s false]),
  (.vml_div, [.obj (.viewTDense .vec) .s true, .scal .s, .obj .tdense .s false]),
  (.vml_div, [.obj (.viewTDense .vec) .s true, .scal .s, .obj (.viewTDense .vec) .s false]),
  (.vml_div, [.obj (.viewTDense .vec) .s true, .scal .s, .obj (.viewTDense .mat) .s false]),
  (.vml_div, [.obj (.viewTDense .vec) .s true, .scal .s, .obj (.viewTDense .ten) .s false]),
  (.vml_div, [.obj (.viewTDense .mat) .s true, .scal .s, .obj .tdense .s false]),
  (.vml_div, [.obj (.viewTDense .mat) .s true, .scal .s, .obj (.viewTDense .vec) .s false]),
  (.vml_div, [.obj (.viewTDense .mat) .s true, .scal .s, .obj (.viewTDense .mat) .s false]),
  (.vml_div, [.obj (.viewTDense .mat) .s true, .scal .s, .obj (.viewTDense .ten) .s false]),
  (.vml_div, [.obj (.viewTDense .ten) .s true, .scal .s, .obj .tdense .s false]),
  (.vml_div, [.obj (.viewTDense .ten) .s true, .scal .s, .obj (.viewTDense .vec) .s false]),
  (.vml_div, [.obj (.viewTDense .ten) .s true, .scal .s, .obj (.viewTDense .mat) .s false]),
  (.vml_div, [.obj (.viewTDense .ten) .s true, .scal .s, .obj (.viewTDense .ten) .s false]),
  (.vml_pow, [.obj .tcrs .d true, .obj .tcrs .d true, .obj .tcrs .d false]),
  (.vml_pow, [.obj .tdense .d true, .obj .tdense .d true, .obj .tdense .d false]),
  (.vml_pow, [.obj .tdense .d true, .obj .tdense .d true, .obj (.viewTDense .vec) .d false]),
  (.vml_pow, [.obj .tdense .d true, .obj .tdense .d true, .obj (.viewTDense .mat) .d false]),
  (.vml_pow, [.obj .tdense .d true, .obj .tdense .d true, .obj (.viewTDense .ten) .d false]),
  (.vml_pow, [.obj .tdense .d true, .obj (.viewTDense .vec) .d true, .obj .tdense .d false]),
  (.vml_pow, [.obj .tdense .d true, .obj (.viewTDense .vec) .d true, .obj (.viewTDense .vec) .d false]),
  (.vml_pow, [.obj .tdense .d true, .obj (.viewTDense .vec) .d true, .obj (.viewTDense .mat) .d false]),
  (.vml_pow, [.obj .tdense .d true, .obj (.viewTDense .vec) .d true, .obj (.viewTDense .ten) .d false]),
  (.vml_pow, [.obj .tdense .d true, .obj (.viewTDense .mat) .d true, .obj .tdense .d false]),
  (.vml_pow, [.obj .tdense .d true, .obj (.viewTDense .mat) .d true, .obj (.viewTDense .vec) .d false]),
  (.vml_pow, [.obj .tdense .d true, .obj (.viewTDense .mat) .d true, .obj (.viewTDense .mat) .d false]),
  (.vml_pow, [.obj .tdense .d true, .obj (.viewTDense .mat) .d true, .obj (.viewTDense .ten) .d false]),
  (.vml_pow, [.obj .tdense .d true, .obj (.viewTDense .ten) .d true, .obj .tdense .d false]),
  (.vml_pow, [.obj .tdense .d true, .obj (.viewTDense .ten) .d true, .obj (.viewTDense .vec) .d false]),
  (.vml_pow, [.obj .tdense .d true, .obj (.viewTDense .ten) .d true, .obj (.viewTDense .mat) .d false]),
  (.vml_pow, [.obj .tdense .d true, .obj (.viewTDense .ten) .d true, .obj (.viewTDense .ten) .d false]),
  (.vml_pow, [.obj (.viewTDense .vec) .d true, .obj .tdense .d true, .obj .tdense .d false]),
  (.vml_pow, [.obj (.viewTDense .vec) .d true, .obj .tdense .d true, .obj (.viewTDense .vec) .d false]),
  (.vml_pow, [.obj (.viewTDense .vec) .d true, .obj .tdense .d true, .obj (.viewTDense .mat) .d false]),
  (.vml_pow, [.obj (.viewTDense .vec) .d true, .obj .tdense .d true, .obj (.viewTDense .ten) .d false]),
  (.vml_pow, [.obj (.viewTDense .vec) .d true, .obj (.viewTDense .vec) .d true, .obj .tdense .d false]),
  (.vml_pow, [.obj (.viewTDense .vec) .d true, .obj (.viewTDense .vec) .d true, .obj (.viewTDense .vec) .d false]),
  (.vml_pow, [.obj (.viewTDense .vec) .d true, .obj (.viewTDense .vec) .d true, .obj (.viewTDense .mat) .d false]),
  (.vml_pow, [.obj (.viewTDense .vec) .d true, .obj (.viewTDense .vec) .d true, .obj (.viewTDense .ten) .d false]),
  (.vml_pow, [.obj (.viewTDense .vec) .d true, .obj (.viewTDense .mat) .d true, .obj .tdense .d false]),
  (.vml_pow, [.obj (.viewTDense .vec) .d true, .obj (.viewTDense .mat) .d true, .obj (.viewTDense .vec) .d false]),
  (.vml_pow, [.obj (.viewTDense .vec) .d true, .obj (.viewTDense .mat) .d true, .obj (.viewTDense .mat) .d false]),
  (.vml_pow, [.obj (.viewTDense .vec) .d true, .obj (.viewTDense .mat) .d true, .obj (.viewTDense .ten) .d false]),
  (.vml_pow, [.obj (.viewTDense .vec) .d true, .obj (.viewTDense .ten) .d true, .obj .tdense .d false]),
  (.vml_pow, [.obj (.viewTDense .vec) .d true, .obj (.viewTDense .ten) .d true, .obj (.viewTDense .vec) .d false]),
  (.vml_pow, [.obj (.viewTDense .vec) .d true, .obj (.viewTDense .ten) .d true, .obj (.viewTDense .mat) .d false]),
  (.vml_pow, [.obj (.viewTDense .vec) .d true, .obj (.viewTDense .ten) .d true, .obj (.viewTDense .ten) .d false]),
  (.vml_pow, [.obj (.viewTDense .mat) .d true, .obj .tdense .d true, .obj .tdense .d false]),
  (.vml_pow, [.obj (.viewTDense .mat) .d true, .obj .tdense .d true, .obj (.viewTDense .vec) .d false]),
  (.vml_pow, [.obj (.viewTDense .mat) .d true, .obj .tdense .d true, .obj (.viewTDense .mat) .d false]),
  (.vml_pow, [.obj (.viewTDense .mat) .d true, .obj .tdense .d true, .obj (.viewTDense .ten) .d false]),
  (.vml_pow, [.obj (.viewTDense .mat) .d true, .obj (.viewTDense .vec) .d true, .obj .tdense .d false]),
  (.vml_pow, [.obj (.viewTDense .mat) .d true, .obj (.viewTDense .vec) .d true, .obj (.viewTDense .vec) .d false]),
  (.vml_pow, [.obj (.viewTDense .mat) .d true, .obj (.viewTDense .vec) .d true, .obj (.viewTDense .mat) .d false]),
  (.vml_pow, [.obj (.viewTDense .mat) .d true, .obj (.viewTDense .vec) .d true, .obj (.viewTDense .ten) .d false]),
  (.vml_pow, [.obj (.viewTDense .mat) .d true, .obj (.viewTDense .mat) .d true, .obj .tdense .d false]),
  (.vml_pow, [.obj (.viewTDense .mat) .d true, .obj (.viewTDense .mat) .d true, .obj (.viewTDense .vec) .d false]),
  (.vml_pow, [.obj (.viewTDense .mat) .d true, .obj (.viewTDense .mat) .d true, .obj (.viewTDense .mat) .d false]),
  (.vml_pow, [.obj (.viewTDense .mat) .d true, .obj (.viewTDense .mat) .d true, .obj (.viewTDense .ten) .d false]),
  (.vml_pow, [.obj (.viewTDense .mat) .d true, .obj (.viewTDense .ten) .d true, .obj .tdense .d false]),
  (.vml_pow, [.obj (.viewTDense .mat) .d true, .obj (.viewTDense .ten) .d true, .obj (.viewTDense .vec) .d false]),
  (.vml_pow, [.obj (.viewTDense .mat) .d true, .obj (.viewTDense .ten) .d true, .obj (.viewTDense .mat) .d false]),
  (.vml_pow, [.obj (.viewTDense .mat) .d true, .obj (.viewTDense .ten) .d true, .obj (.viewTDense .ten) .d false]),
  (.vml_pow, [.obj (.viewTDense .ten) .d true, .obj .tdense .d true, .obj .tdense .d false]),
  (.vml_pow, [.obj (.viewTDense .ten) .d true, .obj .tdense .d true, .obj (.viewTDense .vec) .d false]),
  (.vml_pow, [.obj (.viewTDense .ten) .d true, .obj .tdense .d true, .obj (.viewTDense .mat) .d false]),
  (.vml_pow, [.obj (.viewTDense .ten) .d true, .obj .tdense .d true, .obj (.viewTDense .ten) .d false]),
  (.vml_pow, [.obj (.viewTDense .ten) .d true, .obj (.viewTDense .vec) .d true, .obj .tdense .d false]),
  (.vml_pow, [.obj (.viewTDense .ten) .d true, .obj (.viewTDense .vec) .d true, .obj (.viewTDense .vec) .d false]),
  (.vml_pow, [.obj (.viewTDense .ten) .d true, .obj (.viewTDense .vec) .d true, .obj (.viewTDense .mat) .d false]),
  (.vml_pow, [.obj (.viewTDense .ten) .d true, .obj (.viewTDense .vec) .d true, .obj (.viewTDense .ten) .d false]),
  (.vml_pow, [.obj (.viewTDense .ten) .d true, .obj (.viewTDense .mat) .d true, .obj .tdense .d false]),
  (.vml_pow, [.obj (.viewTDense .ten) .d true, .obj (.viewTDense .mat) .d true, .obj (.viewTDense .vec) .d false]),
  (.vml_pow, [.obj (.viewTDense .ten) .d true, .obj (.viewTDense .mat) .d true, .obj (.viewTDense .mat) .d false]),
  (.vml_pow, [.obj (.viewTDense .ten) .d true, .obj (.viewTDense .mat) .d true, .obj (.viewTDense .ten) .d false]),
  (.vml_pow, [.obj (.viewTDense .ten) .d true, .obj (.viewTDense .ten) .d true, .obj .tdense .d false]),
  (.vml_pow, [.obj (.viewTDense .ten) .d true, .obj (.viewTDense .ten) .d true, .obj (.viewTDense .vec) .d false]),
  (.vml_pow, [.obj (.viewTDense .ten) .d true, .obj (.viewTDense .ten) .d true, .obj (.viewTDense .mat) .d false])]

/-- the overloads of `tVmlTen_9` that are declared -/
def hVmlTen_9 : List (Fn × List Par) := [
  (.vml_pow, [.obj (.viewTDense .ten) .d true, .obj (.viewTDense .ten) .d true, .obj (.viewTDense .ten) .d false]),
  (.vml_pow, [.obj .tcrs .s true, .obj .tcrs .s true, .obj .tcrs .s false]),
  (.vml_pow, [.obj .tdense .s true, .obj .tdense .s true, .obj .tdense .s false]),
  (.vml_pow, [.obj .tdense .s true, .obj .tdense .s true, .obj (.viewTDense .vec) .s false]),
  (.vml_pow, [.obj .tdense .s true, .obj .tdense .s true, .obj (.viewTDense .mat) .s false]),
  (.vml_pow, [.obj .tdense .s true, .obj .tdense .s true, .obj (.viewTDense .ten) .s false]),
  (.vml_pow, [.obj .tdense .s true, .obj (.viewTDense .vec) .s true, .obj .tdense .s false]),
  (.vml_pow, [.obj .tdense .s true, .obj (.viewTDense .vec) .s true, .obj (.viewTDense .vec) .s false]),
  (.vml_pow, [.obj .tdense .s true, .obj (.viewTDense .vec) .s true, .obj (.viewTDense .mat) .s false]),
  (.vml_pow, [.obj .tdense .s true, .obj (.viewTDense .vec) .s true, .obj (.viewTDense .ten) .s false]),
  (.vml_pow, [.obj .tdense .s true, .obj (.viewTDense .mat) .s true, .obj .tdense .s false]),
  (.vml_pow, [.obj .tdense .s true, .obj (.viewTDense .mat) .s true, .obj (.viewTDense .vec) .s false]),
  (.vml_pow, [.obj .tdense .s true, .obj (.viewTDense .mat) .s true, .obj (.viewTDense .mat) .s false]),
  (.vml_pow, [.obj .tdense .s true, .obj (.viewTDense .mat) .s true, .obj (.viewTDense .ten) .s false]),
  (.vml_pow, [.obj .tdense .s true, .obj (.viewTDense .ten) .s true, .obj .tdense .s false]),
  (.vml_pow, [.obj .tdense .s true, .obj (.viewTDense .ten) .s true, .obj (.viewTDense .vec) .s false]),
  (.vml_pow, [.obj .tdense .s true, .obj (.viewTDense .ten) .s true, .obj (.viewTDense .mat) .s false]),
  (.vml_pow, [.obj .tdense .s true, .obj (.viewTDense .ten) .s true, .obj (.viewTDense .ten) .s false]),
  (.vml_pow, [.obj (.viewTDense .vec) .s true, .obj .tdense .s true, .obj .tdense .s false]),
  (.vml_pow, [.obj (.viewTDense .vec) .s true, .obj .tdense .s true, .obj (.viewTDense .vec) .s false]),
  (.vml_pow, [.obj (.viewTDense .vec) .s true, .obj .tdense .s true, .obj (.viewTDense .mat) .s false]),
  (.vml_pow, [.obj (.viewTDense .vec) .s true, .obj .tdense .s true, .obj (.viewTDense .ten) .s false]),
  (.vml_pow, [.obj (.viewTDense .vec) .s true, .obj (.viewTDense .vec) .s true, .obj .tdense .s false]),
  (.vml_pow, [.obj (.viewTDense .vec) .s true, .obj (.viewTDense .vec) .s true, .obj (.viewTDense .vec) .s false]),
  (.vml_pow, [.obj (.viewTDense .vec) .s true, .obj (.viewTDense .vec) .s true, .obj (.viewTDense .mat) .s false]),
  (.vml_pow, [.obj (.viewTDense .vec) .s true, .obj (.viewTDense .vec) .s true, .obj (.viewTDense .ten) .s false]),
  (.vml_pow, [.obj (.viewTDense .vec) .s true, .obj (.viewTDense .mat) .s true, .obj .tdense .s false]),
  (.vml_pow, [.obj (.viewTDense .vec) .s true, .obj (.viewTDense .mat) .s true, .obj (.viewTDense .vec) .s false]),
  (.vml_pow, [.obj (.viewTDense .vec) .s true, .obj (.viewTDense .mat) .s true, .obj (.viewTDense .mat) .s false]),
  (.vml_pow, [.obj (.viewTDense .vec) .s true, .obj (.viewTDense .mat) .s true, .obj (.viewTDense .ten) .s false]),
  (.vml_pow, [.obj (.viewTDense .vec) .s true, .obj (.viewTDense .ten) .s true, .obj .tdense .s false]),
  (.vml_pow, [.obj (.viewTDense .vec) .s true, .obj (.viewTDense .ten) .s true, .obj (.viewTDense .vec) .s false]),
  (.vml_pow, [.obj (.viewTDense .vec) .s true, .obj (.viewTDense .ten) .s true, .obj (.viewTDense .mat) .s false]),
  (.vml_pow, [.obj (.viewTDense .vec) .s true, .obj (.viewTDense .ten) .s true, .obj (.viewTDense .ten) .s false]),
  (.vml_pow, [.obj (.viewTDense .mat) .s true, .obj .tdense .s true, .obj .tdense .s false]),
  (.vml_pow, [.obj (.viewTDense .mat) .s true, .obj .tdense .s true, .obj (.viewTDense .vec) .s false]),
  (.vml_pow, [.obj (.viewTDense .mat) .s true, .obj .tdense .s true, .obj (.viewTDense .mat) .s false]),
  (.vml_pow, [.obj (.viewTDense .mat) .s true, .obj .tdense .s true, .obj (.viewTDense .ten) .s false]),
  (.vml_pow, [.obj (.viewTDense .mat) .s true, .obj (.viewTDense .vec) .s true, .obj .tdense .s false]),
  (.vml_pow, [.obj (.viewTDense .mat) .s true, .obj (.viewTDense .vec) .s true, .obj (.viewTDense .vec) .s false]),
  (.vml_pow, [.obj (.viewTDense .mat) .s true, .obj (.viewTDense .vec) .s true, .obj (.viewTDense .mat) .s false]),
  (.vml_pow, [.obj (.viewTDense .mat) .s true, .obj (.viewTDense .vec) .s true, .obj (.viewTDense .ten) .s false]),
  (.vml_pow, [.obj (.viewTDense .mat) .s true, .obj (.viewTDense .mat) .s true, .obj .tdense .s false]),
  (.vml_pow, [.obj (.viewTDense .mat) .s true, .obj (.viewTDense .mat) .s true, .obj (.viewTDense .vec) .s false]),
  (.vml_pow, [.obj (.viewTDense .mat) .s true, .obj (.viewTDense .mat) .s true, .obj (.viewTDense .mat) .s false]),
  (.vml_pow, [.obj (.viewTDense .mat) .s true, .obj (.viewTDense .mat) .s true, .obj (.viewTDense .ten) .s false]),
  (.vml_pow, [.obj (.viewTDense .mat) .s true, .obj (.viewTDense .ten) .s true, .obj .tdense .s false]),
  (.vml_pow, [.obj (.viewTDense .mat) .s true, .obj (.viewTDense .ten) .s true, .obj (.viewTDense .vec) .s false]),
  (.vml_pow, [.obj (.viewTDense .mat) .s true, .obj (.viewTDense .ten) .s true, .obj (.viewTDense .mat) .s false]),
  (.vml_pow, [.obj (.viewTDense .mat) .s true, .obj (.viewTDense .ten) .s true, .obj (.viewTDense .ten) .s false]),
  (.vml_pow, [.obj (.viewTDense .ten) .s true, .obj .tdense .s true, .obj .tdense .s false]),
  (.vml_pow, [.obj (.viewTDense .ten) .s true, .obj .tdense .s true, .obj (.viewTDense .vec) .s false]),
  (.vml_pow, [.obj (.viewTDense .ten) .s true, .obj .tdense .s true, .obj (.viewTDense .mat) .s false]),
  (.vml_pow, [.obj (.viewTDense .ten) .s true, .obj .tdense .s true, .obj (.viewTDense .ten) .s false]),
  (.vml_pow, [.obj (.viewTDense .ten) .s true, .obj (.viewTDense .vec) .s true, .obj .tdense .s false]),
  (.vml_pow, [.obj (.viewTDense .ten) .s true, .obj (.viewTDense .vec) .s true, .obj (.viewTDense .vec) .s false]),
  (.vml_pow, [.obj (.viewTDense .ten) .s true, .obj (.viewTDense .vec) .s true, .obj (.viewTDense .mat) .s false]),
  (.vml_pow, [.obj (.viewTDense .ten) .s true, .obj (.viewTDense .vec) .s true, .obj (.viewTDense .ten) .s false]),
  (.vml_pow, [.obj (.viewTDense .ten) .s true, .obj (.viewTDense .mat) .s true, .obj .tdense .s false]),
  (.vml_pow, [.obj (.viewTDense .ten) .s true, .obj (.viewTDense .mat) .s true, .obj (.viewTDense .vec) .s false]),
  (.vml_pow, [.obj (.viewTDense .ten) .s true, .obj (.viewTDense .mat) .s true, .obj (.viewTDense .mat) .s false]),
  (.vml_pow, [.obj (.viewTDense .ten) .s true, .obj (.viewTDense .mat) .s true, .obj (.viewTDense .ten) .s false]),
  (.vml_pow, [.obj (.viewTDense .ten) .s true, .obj (.viewTDense .ten) .s true, .obj .tdense .s false]),
  (.vml_pow, [.obj (.viewTDense .ten) .s true, .obj (.viewTDense .ten) .s true, .obj (.viewTDense .vec) .s false]),
  (.vml_pow, [.obj (.viewTDense .ten) .s true, .obj (.viewTDense .ten) .s true, .obj (.viewTDense .mat) .s false]),
  (.vml_pow, [.obj (.viewTDense .ten) .s true, .obj (.viewTDense .ten) .s true, .obj (.viewTDense .ten) .s false]),
  (.vml_pow, [.obj .tcrs .d true, .scal .d, .obj .tcrs .d false]),
  (.vml_pow, [.obj .tdense .d true, .scal .d, .obj .tdense .d false]),
  (.vml_pow, [.obj .tdense .d true, .scal .d, .obj (.viewTDense .vec) .d false]),
  (.vml_pow, [.obj .tdense .d true, .scal .d, .obj (.viewTDense .mat) .d false]),
  (.vml_pow, [.obj .tdense .d true, .scal .d, .obj (.viewTDense .ten) .d false]),
  (.vml_pow, [.obj (.viewTDense .vec) .d true, .scal .d, .obj .tdense .d false]),
  (.vml_pow, [.obj (.viewTDense .vec) .d true, .scal .d, .obj (.viewTDense .vec) .d false]),
  (.vml_pow, [.obj (.viewTDense .vec) .d true, .scal .d, .obj (.viewTDense .mat) .d false]),
  (.vml_pow, [.obj (.viewTDense .vec) .d true, .scal .d, .obj (.viewTDense .ten) .d false]),
  (.vml_pow, [.obj (.viewTDense .mat) .d true, .scal .d, .obj .tdense .d false]),
  (.vml_pow, [.obj (.viewTDense .mat) .d true, .scal .d, .obj (.viewTDense .vec) .d false]),
  (.vml_pow, [.obj (.viewTDense .mat) .d true, .scal .d, .obj (.viewTDense .mat) .d false]),
  (.vml_pow, [.obj (.viewTDense .mat) .d true, .scal .d, .obj (.viewTDense .ten) .d false]),
  (.vml_pow, [.obj (.viewTDense .ten) .d true, .scal .d, .obj .tdense .d false])]

/-- the overloads of `tVmlTen_10` that are declared -/
def hVmlTen_10 : List (Fn × List Par) := [
  (.vml_pow, [.obj (.viewTDense .ten) .d true, .scal .d, .obj (.viewTDense .vec) .d false]),
  (.vml_pow, [.obj (.viewTDense .ten) .d true, .scal .d, .obj (.viewTDense .mat) .d false]),
  (.vml_pow, [.obj (.viewTDense .ten) .d true, .scal .d, .obj (.viewTDense .ten) .d false]),
  (.vml_pow, [.obj .tcrs .s true, .scal .s, .obj .tcrs .s false]),
  (.vml_pow, [.obj .tdense .s true, .scal .s, .obj .tdense .s false]),
  (.vml_pow, [.obj .tdense .s true, .scal .s, .obj (.viewTDense .vec) .s false]),
  (.vml_pow, [.obj .tdense .s true, .scal .s, .obj (.viewTDense .mat) .s false]),
  (.vml_pow, [.obj .tdense .s true, .scal .s, .obj (.viewTDense .ten) .s false]),
  (.vml_pow, [.obj (.viewTDense .vec) .s true, .scal .s, .obj .tdense .s false]),
  (.vml_pow, [.obj (.viewTDense .vec) .s true, .scal .s, .obj (.viewTDense .vec) .s false]),
  (.vml_pow, [.obj (.viewTDense .vec) .s true, .scal .s, .obj (.viewTDense .mat) .s false]),
  (.vml_pow, [.obj (.viewTDense .vec) .s true, .scal .s, .obj (.viewTDense .ten) .s false]),
  (.vml_pow, [.obj (.viewTDense .mat) .s true, .scal .s, .obj .tdense .s false]),
  (.vml_pow, [.obj (.viewTDense .mat) .s true, .scal .s, .obj (.viewTDense .vec) .s false]),
  (.vml_pow, [.obj (.viewTDense .mat) .s true, .scal .s, .obj (.viewTDense .mat) .s false]),
  (.vml_pow, [.obj (.viewTDense .mat) .s true, .scal .s, .obj (.viewTDense .ten) .s false]),
  (.vml_pow, [.obj (.viewTDense .ten) .s true, .scal .s, .obj .tdense .s false]),
  (.vml_pow, [.obj (.viewTDense .ten) .s true, .scal .s, .obj (.viewTDense .vec) .s false]),
  (.vml_pow, [.obj (.viewTDense .ten) .s true, .scal .s, .obj (.viewTDense .mat) .s false]),
  (.vml_pow, [.obj (.viewTDense .ten) .s true, .scal .s, .obj (.viewTDense .ten) .s false]),
  (.vml_alo, [.obj .tcrs .d true, .scal .d, .scal .d, .obj .tcrs .d false]),
  (.vml_alo, [.obj .tdense .d true, .scal .d, .scal .d, .obj .tdense .d false]),
  (.vml_alo, [.obj .tdense .d true, .scal .d, .scal .d, .obj (.viewTDense .vec) .d false]),
  (.vml_alo, [.obj .tdense .d true, .scal .d, .scal .d, .obj (.viewTDense .mat) .d false]),
  (.vml_alo, [.obj .tdense .d true, .scal .d, .scal .d, .obj (.viewTDense .ten) .d false]),
  (.vml_alo, [.obj (.viewTDense .vec) .d true, .scal .d, .scal .d, .obj .tdense .d false]),
  (.vml_alo, [.obj (.viewTDense .vec) .d true, .scal .d, .scal .d, .obj (.viewTDense .vec) .d false]),
  (.vml_alo, [.obj (.viewTDense .vec) .d true, .scal .d, .scal .d, .obj (.viewTDense .mat) .d false]),
  (.vml_alo, [.obj (.viewTDense .vec) .d true, .scal .d, .scal .d, .obj (.viewTDense .ten) .d false]),
  (.vml_alo, [.obj (.viewTDense .mat) .d true, .scal .d, .scal .d, .obj .tdense .d false]),
  (.vml_alo, [.obj (.viewTDense .mat) .d true, .scal .d, .scal .d, .obj (.viewTDense .vec) .d false]),
  (.vml_alo, [.obj (.viewTDense .mat) .d true, .scal .d, .scal .d, .obj (.viewTDense .mat) .d false]),
  (.vml_alo, [.obj (.viewTDense .mat) .d true, .scal .d, .scal .d, .obj (.viewTDense .ten) .d false]),
  (.vml_alo, [.obj (.viewTDense .ten) .d true, .scal .d, .scal .d, .obj .tdense .d false]),
  (.vml_alo, [.obj (.viewTDense .ten) .d true, .scal .d, .scal .d, .obj (.viewTDense .vec) .d false]),
  (.vml_alo, [.obj (.viewTDense .ten) .d true, .scal .d, .scal .d, .obj (.viewTDense .mat) .d false]),
  (.vml_alo, [.obj (.viewTDense .ten) .d true, .scal .d, .scal .d, .obj (.viewTDense .ten) .d false]),
  (.vml_alo, [.obj .tcrs .s true, .scal .s, .scal .s, .obj .tcrs .s false]),
  (.vml_alo, [.obj .tdense .s true, .scal .s, .scal .s, .obj .tdense .s false]),
  (.vml_alo, [.obj .tdense .s true, .scal .s, .scal .s, .obj (.viewTDense .vec) .s false]),
  (.vml_alo, [.obj .tdense .s true, .scal .s, .scal .s, .obj (.viewTDense .mat) .s false]),
  (.vml_alo, [.obj .tdense .s true, .scal .s, .scal .s, .obj (.viewTDense .ten) .s false]),
  (.vml_alo, [.obj (.viewTDense .vec) .s true, .scal .s, .scal .s, .obj .tdense .s false]),
  (.vml_alo, [.obj (.viewTDense .vec) .s true, .scal .s, .scal .s, .obj (.viewTDense .vec) .s false]),
  (.vml_alo, [.obj (.viewTDense .vec) .s true, .scal .s, .scal .s, .obj (.viewTDense .mat) .s false]),
  (.vml_alo, [.obj (.viewTDense .vec) .s true, .scal .s, .scal .s, .obj (.viewTDense .ten) .s false]),
  (.vml_alo, [.obj (.viewTDense .mat) .s true, .scal .s, .scal .s, .obj .tdense .s false]),
  (.vml_alo, [.obj (.viewTDense .mat) .s true, .scal .s, .scal .s, .obj (.viewTDense .vec) .s false]),
  (.vml_alo, [.obj (.viewTDense .mat) .s true, .scal .s, .scal .s, .obj (.viewTDense .mat) .s false]),
  (.vml_alo, [.obj (.viewTDense .mat) .s true, .scal .s, .scal .s, .obj (.viewTDense .ten) .s false]),
  (.vml_alo, [.obj (.viewTDense .ten) .s true, .scal .s, .scal .s, .obj .tdense .s false]),
  (.vml_alo, [.obj (.viewTDense .ten) .s true, .scal .s, .scal .s, .obj (.viewTDense .vec) .s false]),
  (.vml_alo, [.obj (.viewTDense .ten) .s true, .scal .s, .scal .s, .obj (.viewTDense .mat) .s false]),
  (.vml_alo, [.obj (.viewTDense .ten) .s true, .scal .s, .scal .s, .obj (.viewTDense .ten) .s false]),
  (.vml_sin, [.obj .tcrs .d true, .obj .tcrs .d false]),
  (.vml_sin, [.obj .tdense .d true, .obj .tdense .d false]),
  (.vml_sin, [.obj .tdense .d true, .obj (.viewTDense .vec) .d false]),
  (.vml_sin, [.obj .tdense .d true, .obj (.viewTDense .mat) .d false]),
  (.vml_sin, [.obj .tdense .d true, .obj (.viewTDense .ten) .d false]),
  (.vml_sin, [.obj (.viewTDense .vec) .d true, .obj .tdense .d false]),
  (.vml_sin, [.obj (.viewTDense .vec) .d true, .obj (.viewTDense .vec) .d false]),
  (.vml_sin, [.obj (.viewTDense .vec) .d true, .obj (.viewTDense .mat) .d false]),
  (.vml_sin, [.obj (.viewTDense .vec) .d true, .obj (.viewTDense .ten) .d false]),
  (.vml_sin, [.obj (.viewTDense .mat) .d true, .obj .tdense .d false]),
  (.vml_sin, [.obj (.viewTDense .mat) .d true, .obj (.viewTDense .vec) .d false]),
  (.vml_sin, [.obj (.viewTDense .mat) .d true, .obj (.viewTDense .mat) .d false]),
  (.vml_sin, [.obj (.viewTDense .mat) .d true, .obj (.viewTDense .ten) .d false]),
  (.vml_sin, [.obj (.viewTDense .ten) .d true, .obj .tdense .d false]),
  (.vml_sin, [.obj (.viewTDense .ten) .d true, .obj (.viewTDense .vec) .d false]),
  (.vml_sin, [.obj (.viewTDense .ten) .d true, .obj (.viewTDense .mat) .d false]),
  (.vml_sin, [.obj (.viewTDense .ten) .d true, .obj (.viewTDense .ten) .d false]),
  (.vml_sin, [.obj .tcrs .s true, .obj .tcrs .s false]),
  (.vml_sin, [.obj .tdense .s true, .obj .tdense .s false]),
  (.vml_sin, [.obj .tdense .s true, .obj (.viewTDense .vec) .s false]),
  (.vml_sin, [.obj .tdense .s true, .obj (.viewTDense .mat) .s false]),
  (.vml_sin, [.obj .tdense .s true, .obj (.viewTDense .ten) .s false]),
  (.vml_sin, [.obj (.viewTDense .vec) .s true, .obj .tdense .s false]),
  (.vml_sin, [.obj (.viewTDense .vec) .s true, .obj (.viewTDense .vec) .s false]),
  (.vml_sin, [.obj (.viewTDense .vec) .s true, .obj (.viewTDense .mat) .s false]),
  (.vml_sin, [.obj (.viewTDense .vec) .s true, .obj (.viewTDense .ten) .s false])]

/-- the overloads of `tVmlTen_11` that are declared -/
def hVmlTen_11 : List (Fn × List Par) := [
  (.vml_sin, [.obj (.viewTDense .mat) .s true, .obj .tdense .s false]),
  (.vml_sin, [.obj (.viewTDense .mat) .s true, .obj (.viewTDense .vec) .s false]),
  (.vml_sin, [.obj (.viewTDense .mat) .s true, .obj (.viewTDense .mat) .s false]),
  (.vml_sin, [.obj (.viewTDense .mat) .s true, .obj (.viewTDense .ten) .s false]),
  (.vml_sin, [.obj (.viewTDense .ten) .s true, .obj .tdense .s false]),
  (.vml_sin, [.obj (.viewTDense .ten) .s true, .obj (.viewTDense .vec) .s false]),
  (.vml_sin, [.obj (.viewTDense .ten) .s true, .obj (.viewTDense .mat) .s false]),
  (.vml_sin, [.obj (.viewTDense .ten) .s true, .obj (.viewTDense .ten) .s false]),
  (.vml_sqrt, [.obj .tcrs .d true, .obj .tcrs .d false]),
  (.vml_sqrt, [.obj .tdense .d true, .obj .tdense .d false]),
  (.vml_sqrt, [.obj .tdense .d true, .obj (.viewTDense .vec) .d false]),
  (.vml_sqrt, [.obj .tdense .d true, .obj (.viewTDense .mat) .d false]),
  (.vml_sqrt, [.obj .tdense .d true, .obj (.viewTDense .ten) .d false]),
  (.vml_sqrt, [.obj (.viewTDense .vec) .d true, .obj .tdense .d false]),
  (.vml_sqrt, [.obj (.viewTDense .vec) .d true, .obj (.viewTDense .vec) .d false]),
  (.vml_sqrt, [.obj (.viewTDense .vec) .d true, .obj (.viewTDense .mat) .d false]),
  (.vml_sqrt, [.obj (.viewTDense .vec) .d true, .obj (.viewTDense .ten) .d false]),
  (.vml_sqrt, [.obj (.viewTDense .mat) .d true, .obj .tdense .d false]),
  (.vml_sqrt, [.obj (.viewTDense .mat) .d true, .obj (.viewTDense .vec) .d false]),
  (.vml_sqrt, [.obj (.viewTDense .mat) .d true, .obj (.viewTDense .mat) .d false]),
  (.vml_sqrt, [.obj (.viewTDense .mat) .d true, .obj (.viewTDense .ten) .d false]),
  (.vml_sqrt, [.obj (.viewTDense .ten) .d true, .obj .tdense .d false]),
  (.vml_sqrt, [.obj (.viewTDense .ten) .d true, .obj (.viewTDense .vec) .d false]),
  (.vml_sqrt, [.obj (.viewTDense .ten) .d true, .obj (.viewTDense .mat) .d false]),
  (.vml_sqrt, [.obj (.viewTDense .ten) .d true, .obj (.viewTDense .ten) .d false]),
  (.vml_sqrt, [.obj .tcrs .s true, .obj .tcrs .s false]),
  (.vml_sqrt, [.obj .tdense .s true, .obj .tdense .s false]),
  (.vml_sqrt, [.obj .tdense .s true, .obj (.viewTDense .vec) .s false]),
  (.vml_sqrt, [.obj .tdense .s true, .obj (.viewTDense .mat) .s false]),
  (.vml_sqrt, [.obj .tdense .s true, .obj (.viewTDense .ten) .s false]),
  (.vml_sqrt, [.obj (.viewTDense .vec) .s true, .obj .tdense .s false]),
  (.vml_sqrt, [.obj (.viewTDense .vec) .s true, .obj (.viewTDense .vec) .s false]),
  (.vml_sqrt, [.obj (.viewTDense .vec) .s true, .obj (.viewTDense .mat) .s false]),
  (.vml_sqrt, [.obj (.viewTDense .vec) .s true, .obj (.viewTDense .ten) .s false]),
  (.vml_sqrt, [.obj (.viewTDense .mat) .s true, .obj .tdense .s false]),
  (.vml_sqrt, [.obj (.viewTDense .mat) .s true, .obj (.viewTDense .vec) .s false]),
  (.vml_sqrt, [.obj (.viewTDense .mat) .s true, .obj (.viewTDense .mat) .s false]),
  (.vml_sqrt, [.obj (.viewTDense .mat) .s true, .obj (.viewTDense .ten) .s false]),
  (.vml_sqrt, [.obj (.viewTDense .ten) .s true, .obj .tdense .s false]),
  (.vml_sqrt, [.obj (.viewTDense .ten) .s true, .obj (.viewTDense .vec) .s false]),
  (.vml_sqrt, [.obj (.viewTDense .ten) .s true, .obj (.viewTDense .mat) .s false]),
  (.vml_sqrt, [.obj (.viewTDense .ten) .s true, .obj (.viewTDense .ten) .s false]),
  (.vml_sinh, [.obj .tcrs .d true, .obj .tcrs .d false]),
  (.vml_sinh, [.obj .tdense .d true, .obj .tdense .d false]),
  (.vml_sinh, [.obj .tdense .d true, .obj (.viewTDense .vec) .d false]),
  (.vml_sinh, [.obj .tdense .d true, .obj (.viewTDense .mat) .d false]),
  (.vml_sinh, [.obj .tdense .d true, .obj (.viewTDense .ten) .d false]),
  (.vml_sinh, [.obj (.viewTDense .vec) .d true, .obj .tdense .d false]),
  (.vml_sinh, [.obj (.viewTDense .vec) .d true, .obj (.viewTDense .vec) .d false]),
  (.vml_sinh, [.obj (.viewTDense .vec) .d true, .obj (.viewTDense .mat) .d false]),
  (.vml_sinh, [.obj (.viewTDense .vec) .d true, .obj (.viewTDense .ten) .d false]),
  (.vml_sinh, [.obj (.viewTDense .mat) .d true, .obj .tdense .d false]),
  (.vml_sinh, [.obj (.viewTDense .mat) .d true, .obj (.viewTDense .vec) .d false]),
  (.vml_sinh, [.obj (.viewTDense .mat) .d true, .obj (.viewTDense .mat) .d false]),
  (.vml_sinh, [.obj (.viewTDense .mat) .d true, .obj (.viewTDense .ten) .d false]),
  (.vml_sinh, [.obj (.viewTDense .ten) .d true, .obj .tdense .d false]),
  (.vml_sinh, [.obj (.viewTDense .ten) .d true, .obj (.viewTDense .vec) .d false]),
  (.vml_sinh, [.obj (.viewTDense .ten) .d true, .obj (.viewTDense .mat) .d false]),
  (.vml_sinh, [.obj (.viewTDense .ten) .d true, .obj (.viewTDense .ten) .d false]),
  (.vml_sinh, [.obj .tcrs .s true, .obj .tcrs .s false]),
  (.vml_sinh, [.obj .tdense .s true, .obj .tdense .s false]),
  (.vml_sinh, [.obj .tdense .s true, .obj (.viewTDense .vec) .s false]),
  (.vml_sinh, [.obj .tdense .s true, .obj (.viewTDense .mat) .s false]),
  (.vml_sinh, [.obj .tdense .s true, .obj (.viewTDense .ten) .s false]),
  (.vml_sinh, [.obj (.viewTDense .vec) .s true, .obj .tdense .s false]),
  (.vml_sinh, [.obj (.viewTDense .vec) .s true, .obj (.viewTDense .vec) .s false]),
  (.vml_sinh, [.obj (.viewTDense .vec) .s true, .obj (.viewTDense .mat) .s false]),
  (.vml_sinh, [.obj (.viewTDense .vec) .s true, .obj (.viewTDense .ten) .s false]),
  (.vml_sinh, [.obj (.viewTDense .mat) .s true, .obj .tdense .s false]),
  (.vml_sinh, [.obj (.viewTDense .mat) .s true, .obj (.viewTDense .vec) .s false]),
  (.vml_sinh, [.obj (.viewTDense .mat) .s true, .obj (.viewTDense .mat) .s false]),
  (.vml_sinh, [.obj (.viewTDense .mat) .s true, .obj (.viewTDense .ten) .s false]),
  (.vml_sinh, [.obj (.viewTDense .ten) .s true, .obj .tdense .s false]),
  (.vml_sinh, [.obj (.viewTDense .ten) .s true, .obj (.viewTDense .vec) .s false]),
  (.vml_sinh, [.obj (.viewTDense .ten) .s true, .obj (.viewTDense .mat) .s false]),
  (.vml_sinh, [.obj (.viewTDense .ten) .s true, .obj (.viewTDense .ten) .s false]),
  (.vml_asin, [.obj .tcrs .d true, .obj .tcrs .d false]),
  (.vml_asin, [.obj .tdense .d true, .obj .tdense .d false]),
  (.vml_asin, [.obj .tdense .d true, .obj (.viewTDense .vec) .d false]),
  (.vml_asin, [.obj .tdense .d true, .obj (.viewTDense .mat) .d false])]

/-- the overloads of `tVmlTen_12` that are declared -/
def hVmlTen_12 : List (Fn × List Par) := [
  (.vml_asin, [.obj .tdense .d true, .obj (.viewTDense .ten) .d false]),
  (.vml_asin, [.obj (.viewTDense .vec) .d true, .obj .tdense .d false]),
  (.vml_asin, [.obj (.viewTDense .vec) .d true, .obj (.viewTDense .vec) .d false]),
  (.vml_asin, [.obj (.viewTDense .vec) .d true, .obj (.viewTDense .mat) .d false]),
  (.vml_asin, [.obj (.viewTDense .vec) .d true, .obj (.viewTDense .ten) .d false]),
  (.vml_asin, [.obj (.viewTDense .mat) .d true, .obj .tdense .d false]),
  (.vml_asin, [.obj (.viewTDense .mat) .d true, .obj (.viewTDense .vec) .d false]),
  (.vml_asin, [.obj (.viewTDense .mat) .d true, .obj (.viewTDense .mat) .d false]),
  (.vml_asin, [.obj (.viewTDense .mat) .d true, .obj (.viewTDense .ten) .d false]),
  (.vml_asin, [.obj (.viewTDense .ten) .d true, .obj .tdense .d false]),
  (.vml_asin, [.obj (.viewTDense .ten) .d true, .obj (.viewTDense .vec) .d false]),
  (.vml_asin, [.obj (.viewTDense .ten) .d true, .obj (.viewTDense .mat) .d false]),
  (.vml_asin, [.obj (.viewTDense .ten) .d true, .obj (.viewTDense .ten) .d false]),
  (.vml_asin, [.obj .tcrs .s true, .obj .tcrs .s false]),
  (.vml_asin, [.obj .tdense .s true, .obj .tdense .s false]),
  (.vml_asin, [.obj .tdense .s true, .obj (.viewTDense .vec) .s false]),
  (.vml_asin, [.obj .tdense .s true, .obj (.viewTDense .mat) .s false]),
  (.vml_asin, [.obj .tdense .s true, .obj (.viewTDense .ten) .s false]),
  (.vml_asin, [.obj (.viewTDense .vec) .s true, .obj .tdense .s false]),
  (.vml_asin, [.obj (.viewTDense .vec) .s true, .obj (.viewTDense .vec) .s false]),
  (.vml_asin, [.obj (.viewTDense .vec) .s true, .obj (.viewTDense .mat) .s false]),
  (.vml_asin, [.obj (.viewTDense .vec) .s true, .obj (.viewTDense .ten) .s false]),
  (.vml_asin, [.obj (.viewTDense .mat) .s true, .obj .tdense .s false]),
  (.vml_asin, [.obj (.viewTDense .mat) .s true, .obj (.viewTDense .vec) .s false]),
  (.vml_asin, [.obj (.viewTDense .mat) .s true, .obj (.viewTDense .mat) .s false]),
  (.vml_asin, [.obj (.viewTDense .mat) .s true, .obj (.viewTDense .ten) .s false]),
  (.vml_asin, [.obj (.viewTDense .ten) .s true, .obj .tdense .s false]),
  (.vml_asin, [.obj (.viewTDense .ten) .s true, .obj (.viewTDense .vec) .s false]),
  (.vml_asin, [.obj (.viewTDense .ten) .s true, .obj (.viewTDense .mat) .s false]),
  (.vml_asin, [.obj (.viewTDense .ten) .s true, .obj (.viewTDense .ten) .s false]),
  (.vml_asinh, [.obj .tcrs .d true, .obj .tcrs .d false]),
  (.vml_asinh, [.obj .tdense .d true, .obj .tdense .d false]),
  (.vml_asinh, [.obj .tdense .d true, .obj (.viewTDense .vec) .d false]),
  (.vml_asinh, [.obj .tdense .d true, .obj (.viewTDense .mat) .d false]),
  (.vml_asinh, [.obj .tdense .d true, .obj (.viewTDense .ten) .d false]),
  (.vml_asinh, [.obj (.viewTDense .vec) .d true, .obj .tdense .d false]),
  (.vml_asinh, [.obj (.viewTDense .vec) .d true, .obj (.viewTDense .vec) .d false]),
  (.vml_asinh, [.obj (.viewTDense .vec) .d true, .obj (.viewTDense .mat) .d false]),
  (.vml_asinh, [.obj (.viewTDense .vec) .d true, .obj (.viewTDense .ten) .d false]),
  (.vml_asinh, [.obj (.viewTDense .mat) .d true, .obj .tdense .d false]),
  (.vml_asinh, [.obj (.viewTDense .mat) .d true, .obj (.viewTDense .vec) .d false]),
  (.vml_asinh, [.obj (.viewTDense .mat) .d true, .obj (.viewTDense .mat) .d false]),
  (.vml_asinh, [.obj (.viewTDense .mat) .d true, .obj (.viewTDense .ten) .d false]),
  (.vml_asinh, [.obj (.viewTDense .ten) .d true, .obj .tdense .d false]),
  (.vml_asinh, [.obj (.viewTDense .ten) .d true, .obj (.viewTDense .vec) .d false]),
  (.vml_asinh, [.obj (.viewTDense .ten) .d true, .obj (.viewTDense .mat) .d false]),
  (.vml_asinh, [.obj (.viewTDense .ten) .d true, .obj (.viewTDense .ten) .d false]),
  (.vml_asinh, [.obj .tcrs .s true, .obj .tcrs .s false]),
  (.vml_asinh, [.obj .tdense .s true, .obj .tdense .s false]),
  (.vml_asinh, [.obj .tdense .s true, .obj (.viewTDense .vec) .s false]),
  (.vml_asinh, [.obj .tdense .s true, .obj (.viewTDense .mat) .s false]),
  (.vml_asinh, [.obj .tdense .s true, .obj (.viewTDense .ten) .s false]),
  (.vml_asinh, [.obj (.viewTDense .vec) .s true, .obj .tdense .s false]),
  (.vml_asinh, [.obj (.viewTDense .vec) .s true, .obj (.viewTDense .vec) .s false]),
  (.vml_asinh, [.obj (.viewTDense .vec) .s true, .obj (.viewTDense .mat) .s false]),
  (.vml_asinh, [.obj (.viewTDense .vec) .s true, .obj (.viewTDense .ten) .s false]),
  (.vml_asinh, [.obj (.viewTDense .mat) .s true, .obj .tdense .s false]),
  (.vml_asinh, [.obj (.viewTDense .mat) .s true, .obj (.viewTDense .vec) .s false]),
  (.vml_asinh, [.obj (.viewTDense .mat) .s true, .obj (.viewTDense .mat) .s false]),
  (.vml_asinh, [.obj (.viewTDense .mat) .s true, .obj (.viewTDense .ten) .s false]),
  (.vml_asinh, [.obj (.viewTDense .ten) .s true, .obj .tdense .s false]),
  (.vml_asinh, [.obj (.viewTDense .ten) .s true, .obj (.viewTDense .vec) .s false]),
  (.vml_asinh, [.obj (.viewTDense .ten) .s true, .obj (.viewTDense .mat) .s false]),
  (.vml_asinh, [.obj (.viewTDense .ten) .s true, .obj (.viewTDense .ten) .s false]),
  (.vml_tan, [.obj .tcrs .d true, .obj .tcrs .d false]),
  (.vml_tan, [.obj .tdense .d true, .obj .tdense .d false]),
  (.vml_tan, [.obj .tdense .d true, .obj (.viewTDense .vec) .d false]),
  (.vml_tan, [.obj .tdense .d true, .obj (.viewTDense .mat) .d false]),
  (.vml_tan, [.obj .tdense .d true, .obj (.viewTDense .ten) .d false]),
  (.vml_tan, [.obj (.viewTDense .vec) .d true, .obj .tdense .d false]),
  (.vml_tan, [.obj (.viewTDense .vec) .d true, .obj (.viewTDense .vec) .d false]),
  (.vml_tan, [.obj (.viewTDense .vec) .d true, .obj (.viewTDense .mat) .d false]),
  (.vml_tan, [.obj (.viewTDense .vec) .d true, .obj (.viewTDense .ten) .d false]),
  (.vml_tan, [.obj (.viewTDense .mat) .d true, .obj .tdense .d false]),
  (.vml_tan, [.obj (.viewTDense .mat) .d true, .obj (.viewTDense .vec) .d false]),
  (.vml_tan, [.obj (.viewTDense .mat) .d true, .obj (.viewTDense .mat) .d false]),
  (.vml_tan, [.obj (.viewTDense .mat) .d true, .obj (.viewTDense .ten) .d false]),
  (.vml_tan, [.obj (.viewTDense .ten) .d true, .obj .tdense .d false]),
  (.vml_tan, [.obj (.viewTDense .ten) .d true, .obj (.viewTDense .vec) .d false]),
  (.vml_tan, [.obj (.viewTDense .ten) .d true, .obj (.viewTDense .mat) .d false])]

/-- the overloads of `tVmlTen_13` that are declared -/
def hVmlTen_13 : List (Fn × List Par) := [
  (.vml_tan, [.obj (.viewTDense .ten) .d true, .obj (.viewTDense .ten) .d false]),
  (.vml_tan, [.obj .tcrs .s true, .obj .tcrs .s false]),
  (.vml_tan, [.obj .tdense .s true, .obj .tdense .s false]),
  (.vml_tan, [.obj .tdense .s true, .obj (.viewTDense .vec) .s false]),
  (.vml_tan, [.obj .tdense .s true, .obj (.viewTDense .mat) .s false]),
  (.vml_tan, [.obj .tdense .s true, .obj (.viewTDense .ten) .s false]),
  (.vml_tan, [.obj (.viewTDense .vec) .s true, .obj .tdense .s false]),
  (.vml_tan, [.obj (.viewTDense .vec) .s true, .obj (.viewTDense .vec) .s false]),
  (.vml_tan, [.obj (.viewTDense .vec) .s true, .obj (.viewTDense .mat) .s false]),
  (.vml_tan, [.obj (.viewTDense .vec) .s true, .obj (.viewTDense .ten) .s false]),
  (.vml_tan, [.obj (.viewTDense .mat) .s true, .obj .tdense .s false]),
  (.vml_tan, [.obj (.viewTDense .mat) .s true, .obj (.viewTDense .vec) .s false]),
  (.vml_tan, [.obj (.viewTDense .mat) .s true, .obj (.viewTDense .mat) .s false]),
  (.vml_tan, [.obj (.viewTDense .mat) .s true, .obj (.viewTDense .ten) .s false]),
  (.vml_tan, [.obj (.viewTDense .ten) .s true, .obj .tdense .s false]),
  (.vml_tan, [.obj (.viewTDense .ten) .s true, .obj (.viewTDense .vec) .s false]),
  (.vml_tan, [.obj (.viewTDense .ten) .s true, .obj (.viewTDense .mat) .s false]),
  (.vml_tan, [.obj (.viewTDense .ten) .s true, .obj (.viewTDense .ten) .s false]),
  (.vml_tanh, [.obj .tcrs .d true, .obj .tcrs .d false]),
  (.vml_tanh, [.obj .tdense .d true, .obj .tdense .d false]),
  (.vml_tanh, [.obj .tdense .d true, .obj (.viewTDense .vec) .d false]),
  (.vml_tanh, [.obj .tdense .d true, .obj (.viewTDense .mat) .d false]),
  (.vml_tanh, [.obj .tdense .d true, .obj (.viewTDense .ten) .d false]),
  (.vml_tanh, [.obj (.viewTDense .vec) .d true, .obj .tdense .d false]),
  (.vml_tanh, [.obj (.viewTDense .vec) .d true, .obj (.viewTDense .vec) .d false]),
  (.vml_tanh, [.obj (.viewTDense .vec) .d true, .obj (.viewTDense .mat) .d false]),
  (.vml_tanh, [.obj (.viewTDense .vec) .d true, .obj (.viewTDense .ten) .d false]),
  (.vml_tanh, [.obj (.viewTDense .mat) .d true, .obj .tdense .d false]),
  (.vml_tanh, [.obj (.viewTDense .mat) .d true, .obj (.viewTDense .vec) .d false]),
  (.vml_tanh, [.obj (.viewTDense .mat) .d true, .obj (.viewTDense .mat) .d false]),
  (.vml_tanh, [.obj (.viewTDense .mat) .d true, .obj (.viewTDense .ten) .d false]),
  (.vml_tanh, [.obj (.viewTDense .ten) .d true, .obj .tdense .d false]),
  (.vml_tanh, [.obj (.viewTDense .ten) .d true, .obj (.viewTDense .vec) .d false]),
  (.vml_tanh, [.obj (.viewTDense .ten) .d true, .obj (.viewTDense .mat) .d false]),
  (.vml_tanh, [.obj (.viewTDense .ten) .d true, .obj (.viewTDense .ten) .d false]),
  (.vml_tanh, [.obj .tcrs .s true, .obj .tcrs .s false]),
  (.vml_tanh, [.obj .tdense .s true, .obj .tdense .s false]),
  (.vml_tanh, [.obj .tdense .s true, .obj (.viewTDense .vec) .s false]),
  (.vml_tanh, [.obj .tdense .s true, .obj (.viewTDense .mat) .s false]),
  (.vml_tanh, [.obj .tdense .s true, .obj (.viewTDense .ten) .s false]),
  (.vml_tanh, [.obj (.viewTDense .vec) .s true, .obj .tdense .s false]),
  (.vml_tanh, [.obj (.viewTDense .vec) .s true, .obj (.viewTDense .vec) .s false]),
  (.vml_tanh, [.obj (.viewTDense .vec) .s true, .obj (.viewTDense .mat) .s false]),
  (.vml_tanh, [.obj (.viewTDense .vec) .s true, .obj (.viewTDense .ten) .s false]),
  (.vml_tanh, [.obj (.viewTDense .mat) .s true, .obj .tdense .s false]),
  (.vml_tanh, [.obj (.viewTDense .mat) .s true, .obj (.viewTDense .vec) .s false]),
  (.vml_tanh, [.obj (.viewTDense .mat) .s true, .obj (.viewTDense .mat) .s false]),
  (.vml_tanh, [.obj (.viewTDense .mat) .s true, .obj (.viewTDense .ten) .s false]),
  (.vml_tanh, [.obj (.viewTDense .ten) .s true, .obj .tdense .s false]),
  (.vml_tanh, [.obj (.viewTDense .ten) .s true, .obj (.viewTDense .vec) .s false]),
  (.vml_tanh, [.obj (.viewTDense .ten) .s true, .obj (.viewTDense .mat) .s false]),
  (.vml_tanh, [.obj (.viewTDense .ten) .s true, .obj (.viewTDense .ten) .s false]),
  (.vml_atan, [.obj .tcrs .d true, .obj .tcrs .d false]),
  (.vml_atan, [.obj .tdense .d true, .obj .tdense .d false]),
  (.vml_atan, [.obj .tdense .d true, .obj (.viewTDense .vec) .d false]),
  (.vml_atan, [.obj .tdense .d true, .obj (.viewTDense .mat) .d false]),
  (.vml_atan, [.obj .tdense .d true, .obj (.viewTDense .ten) .d false]),
  (.vml_atan, [.obj (.viewTDense .vec) .d true, .obj .tdense .d false]),
  (.vml_atan, [.obj (.viewTDense .vec) .d true, .obj (.viewTDense .vec) .d false]),
  (.vml_atan, [.obj (.viewTDense .vec) .d true, .obj (.viewTDense .mat) .d false]),
  (.vml_atan, [.obj (.viewTDense .vec) .d true, .obj (.viewTDense .ten) .d false]),
  (.vml_atan, [.obj (.viewTDense .mat) .d true, .obj .tdense .d false]),
  (.vml_atan, [.obj (.viewTDense .mat) .d true, .obj (.viewTDense .vec) .d false]),
  (.vml_atan, [.obj (.viewTDense .mat) .d true, .obj (.viewTDense .mat) .d false]),
  (.vml_atan, [.obj (.viewTDense .mat) .d true, .obj (.viewTDense .ten) .d false]),
  (.vml_atan, [.obj (.viewTDense .ten) .d true, .obj .tdense .d false]),
  (.vml_atan, [.obj (.viewTDense .ten) .d true, .obj (.viewTDense .vec) .d false]),
  (.vml_atan, [.obj (.viewTDense .ten) .d true, .obj (.viewTDense .mat) .d false]),
  (.vml_atan, [.obj (.viewTDense .ten) .d true, .obj (.viewTDense .ten) .d false]),
  (.vml_atan, [.obj .tcrs .s true, .obj .tcrs .s false]),
  (.vml_atan, [.obj .tdense .s true, .obj .tdense .s false]),
  (.vml_atan, [.obj .tdense .s true, .obj (.viewTDense .vec) .s false]),
  (.vml_atan, [.obj .tdense .s true, .obj (.viewTDense .mat) .s false]),
  (.vml_atan, [.obj .tdense .s true, .obj (.viewTDense .ten) .s false]),
  (.vml_atan, [.obj (.viewTDense .vec) .s true, .obj .tdense .s false]),
  (.vml_atan, [.obj (.viewTDense .vec) .s true, .obj (.viewTDense .vec) .s false]),
  (.vml_atan, [.obj (.viewTDense .vec) .s true, .obj (.viewTDense .mat) .s false]),
  (.vml_atan, [.obj (.viewTDense .vec) .s true, .obj (.viewTDense .ten) .s false]),
  (.vml_atan, [.obj (.viewTDense .mat) .s true, .obj .tdense .s false]),
  (.vml_atan, [.obj (.viewTDense .mat) .s true, .obj (.viewTDense .vec) .s false])]

/-- the overloads of `tVmlTen_14` that are declared -/
def hVmlTen_14 : List (Fn × List Par) := [
  (.vml_atan, [.obj (.viewTDense .mat) .s true, .obj (.viewTDense .mat) .s false]),
  (.vml_atan, [.obj (.viewTDense .mat) .s true, .obj (.viewTDense .ten) .s false]),
  (.vml_atan, [.obj (.viewTDense .ten) .s true, .obj .tdense .s false]),
  (.vml_atan, [.obj (.viewTDense .ten) .s true, .obj (.viewTDense .vec) .s false]),
  (.vml_atan, [.obj (.viewTDense .ten) .s true, .obj (.viewTDense .mat) .s false]),
  (.vml_atan, [.obj (.viewTDense .ten) .s true, .obj (.viewTDense .ten) .s false]),
  (.vml_atanh, [.obj .tcrs .d true, .obj .tcrs .d false]),
  (.vml_atanh, [.obj .tdense .d true, .obj .tdense .d false]),
  (.vml_atanh, [.obj .tdense .d true, .obj (.viewTDense .vec) .d false]),
  (.vml_atanh, [.obj .tdense .d true, .obj (.viewTDense .mat) .d false]),
  (.vml_atanh, [.obj .tdense .d true, .obj (.viewTDense .ten) .d false]),
  (.vml_atanh, [.obj (.viewTDense .vec) .d true, .obj .tdense .d false]),
  (.vml_atanh, [.obj (.viewTDense .vec) .d true, .obj (.viewTDense .vec) .d false]),
  (.vml_atanh, [.obj (.viewTDense .vec) .d true, .obj (.viewTDense .mat) .d false]),
  (.vml_atanh, [.obj (.viewTDense .vec) .d true, .obj (.viewTDense .ten) .d false]),
  (.vml_atanh, [.obj (.viewTDense .mat) .d true, .obj .tdense .d false]),
  (.vml_atanh, [.obj (.viewTDense .mat) .d true, .obj (.viewTDense .vec) .d false]),
  (.vml_atanh, [.obj (.viewTDense .mat) .d true, .obj (.viewTDense .mat) .d false]),
  (.vml_atanh, [.obj (.viewTDense .mat) .d true, .obj (.viewTDense .ten) .d false]),
  (.vml_atanh, [.obj (.viewTDense .ten) .d true, .obj .tdense .d false]),
  (.vml_atanh, [.obj (.viewTDense .ten) .d true, .obj (.viewTDense .vec) .d false]),
  (.vml_atanh, [.obj (.viewTDense .ten) .d true, .obj (.viewTDense .mat) .d false]),
  (.vml_atanh, [.obj (.viewTDense .ten) .d true, .obj (.viewTDense .ten) .d false]),
  (.vml_atanh, [.obj .tcrs .s true, .obj .tcrs .s false]),
  (.vml_atanh, [.obj .tdense .s true, .obj .tdense .s false]),
  (.vml_atanh, [.obj .tdense .s true, .obj (.viewTDense .vec) .s false]),
  (.vml_atanh, [.obj .tdense .s true, .obj (.viewTDense .mat) .s false]),
  (.vml_atanh, [.obj .tdense .s true, .obj (.viewTDense .ten) .s false]),
  (.vml_atanh, [.obj (.viewTDense .vec) .s true, .obj .tdense .s false]),
  (.vml_atanh, [.obj (.viewTDense .vec) .s true, .obj (.viewTDense .vec) .s false]),
  (.vml_atanh, [.obj (.viewTDense .vec) .s true, .obj (.viewTDense .mat) .s false]),
  (.vml_atanh, [.obj (.viewTDense .vec) .s true, .obj (.viewTDense .ten) .s false]),
  (.vml_atanh, [.obj (.viewTDense .mat) .s true, .obj .tdense .s false]),
  (.vml_atanh, [.obj (.viewTDense .mat) .s true, .obj (.viewTDense .vec) .s false]),
  (.vml_atanh, [.obj (.viewTDense .mat) .s true, .obj (.viewTDense .mat) .s false]),
  (.vml_atanh, [.obj (.viewTDense .mat) .s true, .obj (.viewTDense .ten) .s false]),
  (.vml_atanh, [.obj (.viewTDense .ten) .s true, .obj .tdense .s false]),
  (.vml_atanh, [.obj (.viewTDense .ten) .s true, .obj (.viewTDense .vec) .s false]),
  (.vml_atanh, [.obj (.viewTDense .ten) .s true, .obj (.viewTDense .mat) .s false]),
  (.vml_atanh, [.obj (.viewTDense .ten) .s true, .obj (.viewTDense .ten) .s false]),
  (.vml_ceil, [.obj .tcrs .d true, .obj .tcrs .d false]),
  (.vml_ceil, [.obj .tdense .d true, .obj .tdense .d false]),
  (.vml_ceil, [.obj .tdense .d true, .obj (.viewTDense .vec) .d false]),
  (.vml_ceil, [.obj .tdense .d true, .obj (.viewTDense .mat) .d false]),
  (.vml_ceil, [.obj .tdense .d true, .obj (.viewTDense .ten) .d false]),
  (.vml_ceil, [.obj (.viewTDense .vec) .d true, .obj .tdense .d false]),
  (.vml_ceil, [.obj (.viewTDense .vec) .d true, .obj (.viewTDense .vec) .d false]),
  (.vml_ceil, [.obj (.viewTDense .vec) .d true, .obj (.viewTDense .mat) .d false]),
  (.vml_ceil, [.obj (.viewTDense .vec) .d true, .obj (.viewTDense .ten) .d false]),
  (.vml_ceil, [.obj (.viewTDense .mat) .d true, .obj .tdense .d false]),
  (.vml_ceil, [.obj (.viewTDense .mat) .d true, .obj (.viewTDense .vec) .d false]),
  (.vml_ceil, [.obj (.viewTDense .mat) .d true, .obj (.viewTDense .mat) .d false]),
  (.vml_ceil, [.obj (.viewTDense .mat) .d true, .obj (.viewTDense .ten) .d false]),
  (.vml_ceil, [.obj (.viewTDense .ten) .d true, .obj .tdense .d false]),
  (.vml_ceil, [.obj (.viewTDense .ten) .d true, .obj (.viewTDense .vec) .d false]),
  (.vml_ceil, [.obj (.viewTDense .ten) .d true, .obj (.viewTDense .mat) .d false]),
  (.vml_ceil, [.obj (.viewTDense .ten) .d true, .obj (.viewTDense .ten) .d false]),
  (.vml_ceil, [.obj .tcrs .s true, .obj .tcrs .s false]),
  (.vml_ceil, [.obj .tdense .s true, .obj .tdense .s false]),
  (.vml_ceil, [.obj .tdense .s true, .obj (.viewTDense .vec) .s false]),
  (.vml_ceil, [.obj .tdense .s true, .obj (.viewTDense .mat) .s false]),
  (.vml_ceil, [.obj .tdense .s true, .obj (.viewTDense .ten) .s false]),
  (.vml_ceil, [.obj (.viewTDense .vec) .s true, .obj .tdense .s false]),
  (.vml_ceil, [.obj (.viewTDense .vec) .s true, .obj (.viewTDense .vec) .s false]),
  (.vml_ceil, [.obj (.viewTDense .vec) .s true, .obj (.viewTDense .mat) .s false]),
  (.vml_ceil, [.obj (.viewTDense .vec) .s true, .obj (.viewTDense .ten) .s false]),
  (.vml_ceil, [.obj (.viewTDense .mat) .s true, .obj .tdense .s false]),
  (.vml_ceil, [.obj (.viewTDense .mat) .s true, .obj (.viewTDense .vec) .s false]),
  (.vml_ceil, [.obj (.viewTDense .mat) .s true, .obj (.viewTDense .mat) .s false]),
  (.vml_ceil, [.obj (.viewTDense .mat) .s true, .obj (.viewTDense .ten) .s false]),
  (.vml_ceil, [.obj (.viewTDense .ten) .s true, .obj .tdense .s false]),
  (.vml_ceil, [.obj (.viewTDense .ten) .s true, .obj (.viewTDense .vec) .s false]),
  (.vml_ceil, [.obj (.viewTDense .ten) .s true, .obj (.viewTDense .mat) .s false]),
  (.vml_ceil, [.obj (.viewTDense .ten) .s true, .obj (.viewTDense .ten) .s false]),
  (.vml_floor, [.obj .tcrs .d true, .obj .tcrs .d false]),
  (.vml_floor, [.obj .tdense .d true, .obj .tdense .d false]),
  (.vml_floor, [.obj .tdense .d true, .obj (.viewTDense .vec) .d false]),
  (.vml_floor, [.obj .tdense .d true, .obj (.viewTDense .mat) .d false]),
  (.vml_floor, [.obj .tdense .d true, .obj (.viewTDense .ten) .d false]),
  (.vml_floor, [.obj (.viewTDense .vec) .d true, .obj .tdense .d false])]

/-- the overloads of `tVmlTen_15` that are declared -/
def hVmlTen_15 : List (Fn × List Par) := [
  (.vml_floor, [.obj (.viewTDense .vec) .d true, .obj (.viewTDense .vec) .d false]),
  (.vml_floor, [.obj (.viewTDense .vec) .d true, .obj (.viewTDense .mat) .d false]),
  (.vml_floor, [.obj (.viewTDense .vec) .d true, .obj (.viewTDense .ten) .d false]),
  (.vml_floor, [.obj (.viewTDense .mat) .d true, .obj .tdense .d false]),
  (.vml_floor, [.obj (.viewTDense .mat) .d true, .obj (.viewTDense .vec) .d false]),
  (.vml_floor, [.obj (.viewTDense .mat) .d true, .obj (.viewTDense .mat) .d false]),
  (.vml_floor, [.obj (.viewTDense .mat) .d true, .obj (.viewTDense .ten) .d false]),
  (.vml_floor, [.obj (.viewTDense .ten) .d true, .obj .tdense .d false]),
  (.vml_floor, [.obj (.viewTDense .ten) .d true, .obj (.viewTDense .vec) .d false]),
  (.vml_floor, [.obj (.viewTDense .ten) .d true, .obj (.viewTDense .mat) .d false]),
  (.vml_floor, [.obj (.viewTDense .ten) .d true, .obj (.viewTDense .ten) .d false]),
  (.vml_floor, [.obj .tcrs .s true, .obj .tcrs .s false]),
  (.vml_floor, [.obj .tdense .s true, .obj .tdense .s false]),
  (.vml_floor, [.obj .tdense .s true, .obj (.viewTDense .vec) .s false]),
  (.vml_floor, [.obj .tdense .s true, .obj (.viewTDense .mat) .s false]),
  (.vml_floor, [.obj .tdense .s true, .obj (.viewTDense .ten) .s false]),
  (.vml_floor, [.obj (.viewTDense .vec) .s true, .obj .tdense .s false]),
  (.vml_floor, [.obj (.viewTDense .vec) .s true, .obj (.viewTDense .vec) .s false]),
  (.vml_floor, [.obj (.viewTDense .vec) .s true, .obj (.viewTDense .mat) .s false]),
  (.vml_floor, [.obj (.viewTDense .vec) .s true, .obj (.viewTDense .ten) .s false]),
  (.vml_floor, [.obj (.viewTDense .mat) .s true, .obj .tdense .s false]),
  (.vml_floor, [.obj (.viewTDense .mat) .s true, .obj (.viewTDense .vec) .s false]),
  (.vml_floor, [.obj (.viewTDense .mat) .s true, .obj (.viewTDense .mat) .s false]),
  (.vml_floor, [.obj (.viewTDense .mat) .s true, .obj (.viewTDense .ten) .s false]),
  (.vml_floor, [.obj (.viewTDense .ten) .s true, .obj .tdense .s false]),
  (.vml_floor, [.obj (.viewTDense .ten) .s true, .obj (.viewTDense .vec) .s false]),
  (.vml_floor, [.obj (.viewTDense .ten) .s true, .obj (.viewTDense .mat) .s false]),
  (.vml_floor, [.obj (.viewTDense .ten) .s true, .obj (.viewTDense .ten) .s false]),
  (.vml_sign, [.obj .tcrs .d true, .obj .tcrs .d false]),
  (.vml_sign, [.obj .tdense .d true, .obj .tdense .d false]),
  (.vml_sign, [.obj .tdense .d true, .obj (.viewTDense .vec) .d false]),
  (.vml_sign, [.obj .tdense .d true, .obj (.viewTDense .mat) .d false]),
  (.vml_sign, [.obj .tdense .d true, .obj (.viewTDense .ten) .d false]),
  (.vml_sign, [.obj (.viewTDense .vec) .d true, .obj .tdense .d false]),
  (.vml_sign, [.obj (.viewTDense .vec) .d true, .obj (.viewTDense .vec) .d false]),
  (.vml_sign, [.obj (.viewTDense .vec) .d true, .obj (.viewTDense .mat) .d false]),
  (.vml_sign, [.obj (.viewTDense .vec) .d true, .obj (.viewTDense .ten) .d false]),
  (.vml_sign, [.obj (.viewTDense .mat) .d true, .obj .tdense .d false]),
  (.vml_sign, [.obj (.viewTDense .mat) .d true, .obj (.viewTDense .vec) .d false]),
  (.vml_sign, [.obj (.viewTDense .mat) .d true, .obj (.viewTDense .mat) .d false]),
  (.vml_sign, [.obj (.viewTDense .mat) .d true, .obj (.viewTDense .ten) .d false]),
  (.vml_sign, [.obj (.viewTDense .ten) .d true, .obj .tdense .d false]),
  (.vml_sign, [.obj (.viewTDense .ten) .d true, .obj (.viewTDense .vec) .d false]),
  (.vml_sign, [.obj (.viewTDense .ten) .d true, .obj (.viewTDense .mat) .d false]),
  (.vml_sign, [.obj (.viewTDense .ten) .d true, .obj (.viewTDense .ten) .d false]),
  (.vml_sign, [.obj .tcrs .s true, .obj .tcrs .s false]),
  (.vml_sign, [.obj .tdense .s true, .obj .tdense .s false]),
  (.vml_sign, [.obj .tdense .s true, .obj (.viewTDense .vec) .s false]),
  (.vml_sign, [.obj .tdense .s true, .obj (.viewTDense .mat) .s false]),
  (.vml_sign, [.obj .tdense .s true, .obj (.viewTDense .ten) .s false]),
  (.vml_sign, [.obj (.viewTDense .vec) .s true, .obj .tdense .s false]),
  (.vml_sign, [.obj (.viewTDense .vec) .s true, .obj (.viewTDense .vec) .s false]),
  (.vml_sign, [.obj (.viewTDense .vec) .s true, .obj (.viewTDense .mat) .s false]),
  (.vml_sign, [.obj (.viewTDense .vec) .s true, .obj (.viewTDense .ten) .s false]),
  (.vml_sign, [.obj (.viewTDense .mat) .s true, .obj .tdense .s false]),
  (.vml_sign, [.obj (.viewTDense .mat) .s true, .obj (.viewTDense .vec) .s false]),
  (.vml_sign, [.obj (.viewTDense .mat) .s true, .obj (.viewTDense .mat) .s false]),
  (.vml_sign, [.obj (.viewTDense .mat) .s true, .obj (.viewTDense .ten) .s false]),
  (.vml_sign, [.obj (.viewTDense .ten) .s true, .obj .tdense .s false]),
  (.vml_sign, [.obj (.viewTDense .ten) .s true, .obj (.viewTDense .vec) .s false]),
  (.vml_sign, [.obj (.viewTDense .ten) .s true, .obj (.viewTDense .mat) .s false]),
  (.vml_sign, [.obj (.viewTDense .ten) .s true, .obj (.viewTDense .ten) .s false]),
  (.vml_reciprocal, [.obj .tcrs .d true, .obj .tcrs .d false]),
  (.vml_reciprocal, [.obj .tdense .d true, .obj .tdense .d false]),
  (.vml_reciprocal, [.obj .tdense .d true, .obj (.viewTDense .vec) .d false]),
  (.vml_reciprocal, [.obj .tdense .d true, .obj (.viewTDense .mat) .d false]),
  (.vml_reciprocal, [.obj .tdense .d true, .obj (.viewTDense .ten) .d false]),
  (.vml_reciprocal, [.obj (.viewTDense .vec) .d true, .obj .tdense .d false]),
  (.vml_reciprocal, [.obj (.viewTDense .vec) .d true, .obj (.viewTDense .vec) .d false]),
  (.vml_reciprocal, [.obj (.viewTDense .vec) .d true, .obj (.viewTDense .mat) .d false]),
  (.vml_reciprocal, [.obj (.viewTDense .vec) .d true, .obj (.viewTDense .ten) .d false]),
  (.vml_reciprocal, [.obj (.viewTDense .mat) .d true, .obj .tdense .d false]),
  (.vml_reciprocal, [.obj (.viewTDense .mat) .d true, .obj (.viewTDense .vec) .d false]),
  (.vml_reciprocal, [.obj (.viewTDense .mat) .d true, .obj (.viewTDense .mat) .d false]),
  (.vml_reciprocal, [.obj (.viewTDense .mat) .d true, .obj (.viewTDense .ten) .d false]),
  (.vml_reciprocal, [.obj (.viewTDense .ten) .d true, .obj .tdense .d false]),
  (.vml_reciprocal, [.obj (.viewTDense .ten) .d true, .obj (.viewTDense .vec) .d false]),
  (.vml_reciprocal, [.obj (.viewTDense .ten) .d true, .obj (.viewTDense .mat) .d false]),
  (.vml_reciprocal, [.obj (.viewTDense .ten) .d true, .obj (.viewTDense .ten) .d false]),
  (.vml_reciprocal, [.obj .tcrs .s true, .obj .tcrs .s false])]

/-- the overloads of `tVmlTen_16` that are declared -/
def hVmlTen_16 : List (Fn × List Par) := [
  (.vml_reciprocal, [.obj .tdense .s true, .obj .tdense .s false]),
  (.vml_reciprocal, [.obj .tdense .s true, .obj (.viewTDense .vec) .s false]),
  (.vml_reciprocal, [.obj .tdense .s true, .obj (.viewTDense .mat) .s false]),
  (.vml_reciprocal, [.obj .tdense .s true, .obj (.viewTDense .ten) .s false]),
  (.vml_reciprocal, [.obj (.viewTDense .vec) .s true, .obj .tdense .s false]),
  (.vml_reciprocal, [.obj (.viewTDense .vec) .s true, .obj (.viewTDense .vec) .s false]),
  (.vml_reciprocal, [.obj (.viewTDense .vec) .s true, .obj (.viewTDense .mat) .s false]),
  (.vml_reciprocal, [.obj (.viewTDense .vec) .s true, .obj (.viewTDense .ten) .s false]),
  (.vml_reciprocal, [.obj (.viewTDense .mat) .s true, .obj .tdense .s false]),
  (.vml_reciprocal, [.obj (.viewTDense .mat) .s true, .obj (.viewTDense .vec) .s false]),
  (.vml_reciprocal, [.obj (.viewTDense .mat) .s true, .obj (.viewTDense .mat) .s false]),
  (.vml_reciprocal, [.obj (.viewTDense .mat) .s true, .obj (.viewTDense .ten) .s false]),
  (.vml_reciprocal, [.obj (.viewTDense .ten) .s true, .obj .tdense .s false]),
  (.vml_reciprocal, [.obj (.viewTDense .ten) .s true, .obj (.viewTDense .vec) .s false]),
  (.vml_reciprocal, [.obj (.viewTDense .ten) .s true, .obj (.viewTDense .mat) .s false]),
  (.vml_reciprocal, [.obj (.viewTDense .ten) .s true, .obj (.viewTDense .ten) .s false]),
  (.vml_exp, [.obj .tdense .d true, .obj .tdense .d false]),
  (.vml_exp, [.obj .tdense .d true, .obj (.viewTDense .vec) .d false]),
  (.vml_exp, [.obj .tdense .d true, .obj (.viewTDense .mat) .d false]),
  (.vml_exp, [.obj .tdense .d true, .obj (.viewTDense .ten) .d false]),
  (.vml_exp, [.obj (.viewTDense .vec) .d true, .obj .tdense .d false]),
  (.vml_exp, [.obj (.viewTDense .vec) .d true, .obj (.viewTDense .vec) .d false]),
  (.vml_exp, [.obj (.viewTDense .vec) .d true, .obj (.viewTDense .mat) .d false]),
  (.vml_exp, [.obj (.viewTDense .vec) .d true, .obj (.viewTDense .ten) .d false]),
  (.vml_exp, [.obj (.viewTDense .mat) .d true, .obj .tdense .d false]),
  (.vml_exp, [.obj (.viewTDense .mat) .d true, .obj (.viewTDense .vec) .d false]),
  (.vml_exp, [.obj (.viewTDense .mat) .d true, .obj (.viewTDense .mat) .d false]),
  (.vml_exp, [.obj (.viewTDense .mat) .d true, .obj (.viewTDense .ten) .d false]),
  (.vml_exp, [.obj (.viewTDense .ten) .d true, .obj .tdense .d false]),
  (.vml_exp, [.obj (.viewTDense .ten) .d true, .obj (.viewTDense .vec) .d false]),
  (.vml_exp, [.obj (.viewTDense .ten) .d true, .obj (.viewTDense .mat) .d false]),
  (.vml_exp, [.obj (.viewTDense .ten) .d true, .obj (.viewTDense .ten) .d false]),
  (.vml_exp, [.obj .tdense .s true, .obj .tdense .s false]),
  (.vml_exp, [.obj .tdense .s true, .obj (.viewTDense .vec) .s false]),
  (.vml_exp, [.obj .tdense .s true, .obj (.viewTDense .mat) .s false]),
  (.vml_exp, [.obj .tdense .s true, .obj (.viewTDense .ten) .s false]),
  (.vml_exp, [.obj (.viewTDense .vec) .s true, .obj .tdense .s false]),
  (.vml_exp, [.obj (.viewTDense .vec) .s true, .obj (.viewTDense .vec) .s false]),
  (.vml_exp, [.obj (.viewTDense .vec) .s true, .obj (.viewTDense .mat) .s false]),
  (.vml_exp, [.obj (.viewTDense .vec) .s true, .obj (.viewTDense .ten) .s false]),
  (.vml_exp, [.obj (.viewTDense .mat) .s true, .obj .tdense .s false]),
  (.vml_exp, [.obj (.viewTDense .mat) .s true, .obj (.viewTDense .vec) .s false]),
  (.vml_exp, [.obj (.viewTDense .mat) .s true, .obj (.viewTDense .mat) .s false]),
  (.vml_exp, [.obj (.viewTDense .mat) .s true, .obj (.viewTDense .ten) .s false]),
  (.vml_exp, [.obj (.viewTDense .ten) .s true, .obj .tdense .s false]),
  (.vml_exp, [.obj (.viewTDense .ten) .s true, .obj (.viewTDense .vec) .s false]),
  (.vml_exp, [.obj (.viewTDense .ten) .s true, .obj (.viewTDense .mat) .s false]),
  (.vml_exp, [.obj (.viewTDense .ten) .s true, .obj (.viewTDense .ten) .s false]),
  (.vml_max, [.obj .tcrs .d true, .obj .tcrs .d true, .obj .tcrs .d false]),
  (.vml_max, [.obj .tdense .d true, .obj .tdense .d true, .obj .tdense .d false]),
  (.vml_max, [.obj .tdense .d true, .obj .tdense .d true, .obj (.viewTDense .vec) .d false]),
  (.vml_max, [.obj .tdense .d true, .obj .tdense .d true, .obj (.viewTDense .mat) .d false]),
  (.vml_max, [.obj .tdense .d true, .obj .tdense .d true, .obj (.viewTDense .ten) .d false]),
  (.vml_max, [.obj .tdense .d true, .obj (.viewTDense .vec) .d true, .obj .tdense .d false]),
  (.vml_max, [.obj .tdense .d true, .obj (.viewTDense .vec) .d true, .obj (.viewTDense .vec) .d false]),
  (.vml_max, [.obj .tdense .d true, .obj (.viewTDense .vec) .d true, .obj (.viewTDense .mat) .d false]),
  (.vml_max, [.obj .tdense .d true, .obj (.viewTDense .vec) .d true, .obj (.viewTDense .ten) .d false]),
  (.vml_max, [.obj .tdense .d true, .obj (.viewTDense .mat) .d true, .obj .tdense .d false]),
  (.vml_max, [.obj .tdense .d true, .obj (.viewTDense .mat) .d true, .obj (.viewTDense .vec) .d false]),
  (.vml_max, [.obj .tdense .d true, .obj (.viewTDense .mat) .d true, .obj (.viewTDense .mat) .d false]),
  (.vml_max, [.obj .tdense .d true, .obj (.viewTDense .mat) .d true, .obj (.viewTDense .ten) .d false]),
  (.vml_max, [.obj .tdense .d true, .obj (.viewTDense .ten) .d true, .obj .tdense .d false]),
  (.vml_max, [.obj .tdense .d true, .obj (.viewTDense .ten) .d true, .obj (.viewTDense .vec) .d false]),
  (.vml_max, [.obj .tdense .d true, .obj (.viewTDense .ten) .d true, .obj (.viewTDense .mat) .d false]),
  (.vml_max, [.obj .tdense .d true, .obj (.viewTDense .ten) .d true, .obj (.viewTDense .ten) .d false]),
  (.vml_max, [.obj (.viewTDense .vec) .d true, .obj .tdense .d true, .obj .tdense .d false]),
  (.vml_max, [.obj (.viewTDense .vec) .d true, .obj .tdense .d true, .obj (.viewTDense .vec) .d false]),
  (.vml_max, [.obj (.viewTDense .vec) .d true, .obj .tdense .d true, .obj (.viewTDense .mat) .d false]),
  (.vml_max, [.obj (.viewTDense .vec) .d true, .obj .tdense .d true, .obj (.viewTDense .ten) .d false]),
  (.vml_max, [.obj (.viewTDense .vec) .d true, .obj (.viewTDense .vec) .d true, .obj .tdense .d false]),
  (.vml_max, [.obj (.viewTDense .vec) .d true, .obj (.viewTDense .vec) .d true, .obj (.viewTDense .vec) .d false]),
  (.vml_max, [.obj (.viewTDense .vec) .d true, .obj (.viewTDense .vec) .d true, .obj (.viewTDense .mat) .d false]),
  (.vml_max, [.obj (.viewTDense .vec) .d true, .obj (.viewTDense .vec) .d true, .obj (.viewTDense .ten) .d false]),
  (.vml_max, [.obj (.viewTDense .vec) .d true, .obj (.viewTDense .mat) .d true, .obj .tdense .d false]),
  (.vml_max, [.obj (.viewTDense .vec) .d true, .obj (.viewTDense .mat) .d true, .obj (.viewTDense .vec) .d false]),
  (.vml_max, [.obj (.viewTDense .vec) .d true, .obj (.viewTDense .mat) .d true, .obj (.viewTDense .mat) .d false]),
  (.vml_max, [.obj (.viewTDense .vec) .d true, .obj (.viewTDense .mat) .d true, .obj (.viewTDense .ten) .d false]),
  (.vml_max, [.obj (.viewTDense .vec) .d true, .obj (.viewTDense .ten) .d true, .obj .tdense .d false])]

/-- the overloads of `tVmlTen_17` that are declared -/
def hVmlTen_17 : List (Fn × List Par) := [
  (.vml_max, [.obj (.viewTDense .vec) .d true, .obj (.viewTDense .ten) .d true, .obj (.viewTDense .vec) .d false]),
  (.vml_max, [.obj (.viewTDense .vec) .d true, .obj (.viewTDense .ten) .d true, .obj (.viewTDense .mat) .d false]),
  (.vml_max, [.obj (.viewTDense .vec) .d true, .obj (.viewTDense .ten) .d true, .obj (.viewTDense .ten) .d false]),
  (.vml_max, [.obj (.viewTDense .mat) .d true, .obj .tdense .d true, .obj .tdense .d false]),
  (.vml_max, [.obj (.viewTDense .mat) .d true, .obj .tdense .d true, .obj (.viewTDense .vec) .d false]),
  (.vml_max, [.obj (.viewTDense .mat) .d true, .obj .tdense .d true, .obj (.viewTDense .mat) .d false]),
  (.vml_max, [.obj (.viewTDense .mat) .d true, .obj .tdense .d true, .obj (.viewTDense .ten) .d false]),
  (.vml_max, [.obj (.viewTDense .mat) .d true, .obj (.viewTDense .vec) .d true, .obj .tdense .d false]),
  (.vml_max, [.obj (.viewTDense .mat) .d true, .obj (.viewTDense .vec) .d true, .obj (.viewTDense .vec) .d false]),
  (.vml_max, [.obj (.viewTDense .mat) .d true, .obj (.viewTDense .vec) .d true, .obj (.viewTDense .mat) .d false]),
  (.vml_max, [.obj (.viewTDense .mat) .d true, .obj (.viewTDense .vec) .d true, .obj (.viewTDense .ten) .d false]),
  (.vml_max, [.obj (.viewTDense .mat) .d true, .obj (.viewTDense .mat) .d true, .obj .tdense .d false]),
  (.vml_max, [.obj (.viewTDense .mat) .d true, .obj (.viewTDense .mat) .d true, .obj (.viewTDense .vec) .d false]),
  (.vml_max, [.obj (.viewTDense .mat) .d true, .obj (.viewTDense .mat) .d true, .obj (.viewTDense .mat) .d false]),
  (.vml_max, [.obj (.viewTDense .mat) .d true, .obj (.viewTDense .mat) .d true, .obj (.viewTDense .ten) .d false]),
  (.vml_max, [.obj (.viewTDense .mat) .d true, .obj (.viewTDense .ten) .d true, .obj .tdense .d false]),
  (.vml_max, [.obj (.viewTDense .mat) .d true, .obj (.viewTDense .ten) .d true, .obj (.viewTDense .vec) .d false]),
  (.vml_max, [.obj (.viewTDense .mat) .d true, .obj (.viewTDense .ten) .d true, .obj (.viewTDense .mat) .d false]),
  (.vml_max, [.obj (.viewTDense .mat) .d true, .obj (.viewTDense .ten) .d true, .obj (.viewTDense .ten) .d false]),
  (.vml_max, [.obj (.viewTDense .ten) .d true, .obj .tdense .d true, .obj .tdense .d false]),
  (.vml_max, [.obj (.viewTDense .ten) .d true, .obj .tdense .d true, .obj (.viewTDense .vec) .d false]),
  (.vml_max, [.obj (.viewTDense .ten) .d true, .obj .tdense .d true, .obj (.viewTDense .mat) .d false]),
  (.vml_max, [.obj (.viewTDense .ten) .d true, .obj .tdense .d true, .obj (.viewTDense .ten) .d false]),
  (.vml_max, [.obj (.viewTDense .ten) .d true, .obj (.viewTDense .vec) .d true, .obj .tdense .d false]),
  (.vml_max, [.obj (.viewTDense .ten) .d true, .obj (.viewTDense .vec) .d true, .obj (.viewTDense .vec) .d false]),
  (.vml_max, [.obj (.viewTDense .ten) .d true, .obj (.viewTDense .vec) .d true, .obj (.viewTDense .mat) .d false]),
  (.vml_max, [.obj (.viewTDense .ten) .d true, .obj (.viewTDense .vec) .d true, .obj (.viewTDense .ten) .d false]),
  (.vml_max, [.obj (.viewTDense .ten) .d true, .obj (.viewTDense .mat) .d true, .obj .tdense .d false]),
  (.vml_max, [.obj (.viewTDense .ten) .d true, .obj (.viewTDense .mat) .d true, .obj (.viewTDense .vec) .d false]),
  (.vml_max, [.obj (.viewTDense .ten) .d true, .obj (.viewTDense .mat) .d true, .obj (.viewTDense .mat) .d false]),
  (.vml_max, [.obj (.viewTDense .ten) .d true, .obj (.viewTDense .mat) .d true, .obj (.viewTDense .ten) .d false]),
  (.vml_max, [.obj (.viewTDense .ten) .d true, .obj (.viewTDense .ten) .d true, .obj .tdense .d false]),
  (.vml_max, [.obj (.viewTDense .ten) .d true, .obj (.viewTDense .ten) .d true, .obj (.viewTDense .vec) .d false]),
  (.vml_max, [.obj (.viewTDense .ten) .d true, .obj (.viewTDense .ten) .d true, .obj (.viewTDense .mat) .d false]),
  (.vml_max, [.obj (.viewTDense .ten) .d true, .obj (.viewTDense .ten) .d true, .obj (.viewTDense .ten) .d false]),
  (.vml_max, [.obj .tcrs .s true, .obj .tcrs .s true, .obj .tcrs .s false]),
  (.vml_max, [.obj .tdense .s true, .obj .tdense .s true, .obj .tdense .s false]),
  (.vml_max, [.obj .tdense .s true, .obj .tdense .s true, .obj (.viewTDense .vec) .s false]),
  (.vml_max, [.obj .tdense .s true, .obj .tdense .s true, .obj (.viewTDense .mat) .s false]),
  (.vml_max, [.obj .tdense .s true, .obj .tdense .s true, .obj (.viewTDense .ten) .s false]),
  (.vml_max, [.obj .tdense .s true, .obj (.viewTDense .vec) .s true, .obj .tdense .s false]),
  (.vml_max, [.obj .tdense .s true, .obj (.viewTDense .vec) .s true, .obj (.viewTDense .vec) .s false]),
  (.vml_max, [.obj .tdense .s true, .obj (.viewTDense .vec) .s true, .obj (.viewTDense .mat) .s false]),
  (.vml_max, [.obj .tdense .s true, .obj (.viewTDense .vec) .s true, .obj (.viewTDense .ten) .s false]),
  (.vml_max, [.obj .tdense .s true, .obj (.viewTDense .mat) .s true, .obj .tdense .s false]),
  (.vml_max, [.obj .tdense .s true, .obj (.viewTDense .mat) .s true, .obj (.viewTDense .vec) .s false]),
  (.vml_max, [.obj .tdense .s true, .obj (.viewTDense .mat) .s true, .obj (.viewTDense .mat) .s false]),
  (.vml_max, [.obj .tdense .s true, .obj (.viewTDense .mat) .s true, .obj (.viewTDense .ten) .s false]),
  (.vml_max, [.obj .tdense .s true, .obj (.viewTDense .ten) .s true, .obj .tdense .s false]),
  (.vml_max, [.obj .tdense .s true, .obj (.viewTDense .ten) .s true, .obj (.viewTDense .vec) .s false]),
  (.vml_max, [.obj .tdense .s true, .obj (.viewTDense .ten) .s true, .obj (.viewTDense .mat) .s false]),
  (.vml_max, [.obj .tdense .s true, .obj (.viewTDense .ten) .s true, .obj (.viewTDense .ten) .s false]),
  (.vml_max, [.obj (.viewTDense .vec) .s true, .obj .tdense .s true, .obj .tdense .s false]),
  (.vml_max, [.obj (.viewTDense .vec) .s true, .obj .tdense .s true, .obj (.viewTDense .vec) .s false]),
  (.vml_max, [.obj (.viewTDense .vec) .s true, .obj .tdense .s true, .obj (.viewTDense .mat) .s false]),
  (.vml_max, [.obj (.viewTDense .vec) .s true, .obj .tdense .s true, .obj (.viewTDense .ten) .s false]),
  (.vml_max, [.obj (.viewTDense .vec) .s true, .obj (.viewTDense .vec) .s true, .obj .tdense .s false]),
  (.vml_max, [.obj (.viewTDense .vec) .s true, .obj (.viewTDense .vec) .s true, .obj (.viewTDense .vec) .s false]),
  (.vml_max, [.obj (.viewTDense .vec) .s true, .obj (.viewTDense .vec) .s true, .obj (.viewTDense .mat) .s false]),
  (.vml_max, [.obj (.viewTDense .vec) .s true, .obj (.viewTDense .vec) .s true, .obj (.viewTDense .ten) .s false]),
  (.vml_max, [.obj (.viewTDense .vec) .s true, .obj (.viewTDense .mat) .s true, .obj .tdense .s false]),
  (.vml_max, [.obj (.viewTDense .vec) .s true, .obj (.viewTDense .mat) .s true, .obj (.viewTDense .vec) .s false]),
  (.vml_max, [.obj (.viewTDense .vec) .s true, .obj (.viewTDense .mat) .s true, .obj (.viewTDense .mat) .s false]),
  (.vml_max, [.obj (.viewTDense .vec) .s true, .obj (.viewTDense .mat) .s true, .obj (.viewTDense .ten) .s false]),
  (.vml_max, [.obj (.viewTDense .vec) .s true, .obj (.viewTDense .ten) .s true, .obj .tdense .s false]),
  (.vml_max, [.obj (.viewTDense .vec) .s true, .obj (.viewTDense .ten) .s true, .obj (.viewTDense .vec) .s false]),
  (.vml_max, [.obj (.viewTDense .vec) .s true, .obj (.viewTDense .ten) .s true, .obj (.viewTDense .mat) .s false]),
  (.vml_max, [.obj (.viewTDense .vec) .s true, .obj (.viewTDense .ten) .s true, .obj (.viewTDense .ten) .s false]),
  (.vml_max, [.obj (.viewTDense .mat) .s true, .obj .tdense .s true, .obj .tdense .s false]),
  (.vml_max, [.obj (.viewTDense .mat) .s true, .obj .tdense .s true, .obj (.viewTDense .vec) .s false]),
  (.vml_max, [.obj (.viewTDense .mat) .s true, .obj .tdense .s true, .obj (.viewTDense .mat) .s false]),
  (.vml_max, [.obj (.viewTDense .mat) .s true, .obj .tdense .s true, .obj (.viewTDense .ten) .s false]),
  (.vml_max, [.obj (.viewTDense .mat) .s true, .obj (.viewTDense .vec) .s true, .obj .tdense .s false]),
  (.vml_max, [.obj (.viewTDense .mat) .s true, .obj (.viewTDense .vec) .s true, .obj (.viewTDense .vec) .s false]),
  (.vml_max, [.obj (.viewTDense .mat) .s true, .obj (.viewTDense .vec) .s true, .obj (.viewTDense .mat) .s false]),
  (.vml_max, [.obj (.viewTDense .mat) .s true, .obj (.viewTDense .vec) .s true, .obj (.viewTDense .ten) .s false]),
  (.vml_max, [.obj (.viewTDense .mat) .s true, .obj (.viewTDense .mat) .s true, .obj .tdense .s false]),
  (.vml_max, [.obj (.viewTDense .mat) .s true, .obj (.viewTDense .mat) .s true, .obj (.viewTDense .vec) .s false]),
  (.vml_max, [.obj (.viewTDense .mat) .s true, .obj (.viewTDense .mat) .s true, .obj (.viewTDense .mat) .s false]),
  (.vml_max, [.obj (.viewTDense .mat) .s true, .obj (.viewTDense .mat) .s true, .obj (.viewTDense .ten) .s false])]

/-- the overloads of `tVmlTen_18` that are declared -/
def hVmlTen_18 : List (Fn × List Par) := [
  (.vml_max, [.obj (.viewTDense .mat) .s true, .obj (.viewTDense .ten) .s true, .obj .tdense .s false]),
  (.vml_max, [.obj (.viewTDense .mat) .s true, .obj (.viewTDense .ten) .s true, .obj (.viewTDense .vec) .s false]),
  (.vml_max, [.obj (.viewTDense .mat) .s true, .obj (.viewTDense .ten) .s true, .obj (.viewTDense .mat) .s false]),
  (.vml_max, [.obj (.viewTDense .mat) .s true, .obj (.viewTDense .ten) .s true, .obj (.viewTDense .ten) .s false]),
  (.vml_max, [.obj (.viewTDense .ten) .s true, .obj .tdense .s true, .obj .tdense .s false]),
  (.vml_max, [.obj (.viewTDense .ten) .s true, .obj .tdense .s true, .obj (.viewTDense .vec) .s false]),
  (.vml_max, [.obj (.viewTDense .ten) .s true, .obj .tdense .s true, .obj (.viewTDense .mat) .s false]),
  (.vml_max, [.obj (.viewTDense .ten) .s true, .obj .tdense .s true, .obj (.viewTDense .ten) .s false]),
  (.vml_max, [.obj (.viewTDense .ten) .s true, .obj (.viewTDense .vec) .s true, .obj .tdense .s false]),
  (.vml_max, [.obj (.viewTDense .ten) .s true, .obj (.viewTDense .vec) .s true, .obj (.viewTDense .vec) .s false]),
  (.vml_max, [.obj (.viewTDense .ten) .s true, .obj (.viewTDense .vec) .s true, .obj (.viewTDense .mat) .s false]),
  (.vml_max, [.obj (.viewTDense .ten) .s true, .obj (.viewTDense .vec) .s true, .obj (.viewTDense .ten) .s false]),
  (.vml_max, [.obj (.viewTDense .ten) .s true, .obj (.viewTDense .mat) .s true, .obj .tdense .s false]),
  (.vml_max, [.obj (.viewTDense .ten) .s true, .obj (.viewTDense .mat) .s true, .obj (.viewTDense .vec) .s false]),
  (.vml_max, [.obj (.viewTDense .ten) .s true, .obj (.viewTDense .mat) .s true, .obj (.viewTDense .mat) .s false]),
  (.vml_max, [.obj (.viewTDense .ten) .s true, .obj (.viewTDense .mat) .s true, .obj (.viewTDense .ten) .s false]),
  (.vml_max, [.obj (.viewTDense .ten) .s true, .obj (.viewTDense .ten) .s true, .obj .tdense .s false]),
  (.vml_max, [.obj (.viewTDense .ten) .s true, .obj (.viewTDense .ten) .s true, .obj (.viewTDense .vec) .s false]),
  (.vml_max, [.obj (.viewTDense .ten) .s true, .obj (.viewTDense .ten) .s true, .obj (.viewTDense .mat) .s false]),
  (.vml_max, [.obj (.viewTDense .ten) .s true, .obj (.viewTDense .ten) .s true, .obj (.viewTDense .ten) .s false]),
  (.vml_min, [.obj .tcrs .d true, .obj .tcrs .d true, .obj .tcrs .d false]),
  (.vml_min, [.obj .tdense .d true, .obj .tdense .d true, .obj .tdense .d false]),
  (.vml_min, [.obj .tdense .d true, .obj .tdense .d true, .obj (.viewTDense .vec) .d false]),
  (.vml_min, [.obj .tdense .d true, .obj .tdense .d true, .obj (.viewTDense .mat) .d false]),
  (.vml_min, [.obj .tdense .d true, .obj .tdense .d true, .obj (.viewTDense .ten) .d false]),
  (.vml_min, [.obj .tdense .d true, .obj (.viewTDense .vec) .d true, .obj .tdense .d false]),
  (.vml_min, [.obj .tdense .d true, .obj (.viewTDense .vec) .d true, .obj (.viewTDense .vec) .d false]),
  (.vml_min, [.obj .tdense .d true, .obj (.viewTDense .vec) .d true, .obj (.viewTDense .mat) .d false]),
  (.vml_min, [.obj .tdense .d true, .obj (.viewTDense .vec) .d true, .obj (.viewTDense .ten) .d false]),
  (.vml_min, [.obj .tdense .d true, .obj (.viewTDense .mat) .d true, .obj .tdense .d false]),
  (.vml_min, [.obj .tdense .d true, .obj (.viewTDense .mat) .d true, .obj (.viewTDense .vec) .d false]),
  (.vml_min, [.obj .tdense .d true, .obj (.viewTDense .mat) .d true, .obj (.viewTDense .mat) .d false]),
  (.vml_min, [.obj .tdense .d true, .obj (.viewTDense .mat) .d true, .obj (.viewTDense .ten) .d false]),
  (.vml_min, [.obj .tdense .d true, .obj (.viewTDense .ten) .d true, .obj .tdense .d false]),
  (.vml_min, [.obj .tdense .d true, .obj (.viewTDense .ten) .d true, .obj (.viewTDense .vec) .d false]),
  (.vml_min, [.obj .tdense .d true, .obj (.viewTDense .ten) .d true, .obj (.viewTDense .mat) .d false]),
  (.vml_min, [.obj .tdense .d true, .obj (.viewTDense .ten) .d true, .obj (.viewTDense .ten) .d false]),
  (.vml_min, [.obj (.viewTDense .vec) .d true, .obj .tdense .d true, .obj .tdense .d false]),
  (.vml_min, [.obj (.viewTDense .vec) .d true, .obj .tdense .d true, .obj (.viewTDense .vec) .d false]),
  (.vml_min, [.obj (.viewTDense .vec) .d true, .obj .tdense .d true, .obj (.viewTDense .mat) .d false]),
  (.vml_min, [.obj (.viewTDense .vec) .d true, .obj .tdense .d true, .obj (.viewTDense .ten) .d false]),
  (.vml_min, [.obj (.viewTDense .vec) .d true, .obj (.viewTDense .vec) .d true, .obj .tdense .d false]),
  (.vml_min, [.obj (.viewTDense .vec) .d true, .obj (.viewTDense .vec) .d true, .obj (.viewTDense .vec) .d false]),
  (.vml_min, [.obj (.viewTDense .vec) .d true, .obj (.viewTDense .vec) .d true, .obj (.viewTDense .mat) .d false]),
  (.vml_min, [.obj (.viewTDense .vec) .d true, .obj (.viewTDense .vec) .d true, .obj (.viewTDense .ten) .d false]),
  (.vml_min, [.obj (.viewTDense .vec) .d true, .obj (.viewTDense .mat) .d true, .obj .tdense .d false]),
  (.vml_min, [.obj (.viewTDense .vec) .d true, .obj (.viewTDense .mat) .d true, .obj (.viewTDense .vec) .d false]),
  (.vml_min, [.obj (.viewTDense .vec) .d true, .obj (.viewTDense .mat) .d true, .obj (.viewTDense .mat) .d false]),
  (.vml_min, [.obj (.viewTDense .vec) .d true, .obj (.viewTDense .mat) .d true, .obj (.viewTDense .ten) .d false]),
  (.vml_min, [.obj (.viewTDense .vec) .d true, .obj (.viewTDense .ten) .d true, .obj .tdense .d false]),
  (.vml_min, [.obj (.viewTDense .vec) .d true, .obj (.viewTDense .ten) .d true, .obj (.viewTDense .vec) .d false]),
  (.vml_min, [.obj (.viewTDense .vec) .d true, .obj (.viewTDense .ten) .d true, .obj (.viewTDense .mat) .d false]),
  (.vml_min, [.obj (.viewTDense .vec) .d true, .obj (.viewTDense .ten) .d true, .obj (.viewTDense .ten) .d false]),
  (.vml_min, [.obj (.viewTDense .mat) .d true, .obj .tdense .d true, .obj .tdense .d false]),
  (.vml_min, [.obj (.viewTDense .mat) .d true, .obj .tdense .d true, .obj (.viewTDense .vec) .d false]),
  (.vml_min, [.obj (.viewTDense .mat) .d true, .obj .tdense .d true, .obj (.viewTDense .mat) .d false]),
  (.vml_min, [.obj (.viewTDense .mat) .d true, .obj .tdense .d true, .obj (.viewTDense .ten) .d false]),
  (.vml_min, [.obj (.viewTDense .mat) .d true, .obj (.viewTDense .vec) .d true, .obj .tdense .d false]),
  (.vml_min, [.obj (.viewTDense .mat) .d true, .obj (.viewTDense .vec) .d true, .obj (.viewTDense .vec) .d false]),
  (.vml_min, [.obj (.viewTDense .mat) .d true, .obj (.viewTDense .vec) .d true, .obj (.viewTDense .mat) .d false]),
  (.vml_min, [.obj (.viewTDense .mat) .d true, .obj (.viewTDense .vec) .d true, .obj (.viewTDense .ten) .d false]),
  (.vml_min, [.obj (.viewTDense .mat) .d true, .obj (.viewTDense .mat) .d true, .obj .tdense .d false]),
  (.vml_min, [.obj (.viewTDense .mat) .d true, .obj (.viewTDense .mat) .d true, .obj (.viewTDense .vec) .d false]),
  (.vml_min, [.obj (.viewTDense .mat) .d true, .obj (.viewTDense .mat) .d true, .obj (.viewTDense .mat) .d false]),
  (.vml_min, [.obj (.viewTDense .mat) .d true, .obj (.viewTDense .mat) .d true, .obj (.viewTDense .ten) .d false]),
  (.vml_min, [.obj (.viewTDense .mat) .d true, .obj (.viewTDense .ten) .d true, .obj .tdense .d false]),
  (.vml_min, [.obj (.viewTDense .mat) .d true, .obj (.viewTDense .ten) .d true, .obj (.viewTDense .vec) .d false]),
  (.vml_min, [.obj (.viewTDense .mat) .d true, .obj (.viewTDense .ten) .d true, .obj (.viewTDense .mat) .d false]),
  (.vml_min, [.obj (.viewTDense .mat) .d true, .obj (.viewTDense .ten) .d true, .obj (.viewTDense .ten) .d false]),
  (.vml_min, [.obj (.viewTDense .ten) .d true, .obj .tdense .d true, .obj .tdense .d false]),
  (.vml_min, [.obj (.viewTDense .ten) .d true, .obj .tdense .d true, .obj (.viewTDense .vec) .d false]),
  (.vml_min, [.obj (.viewTDense .ten) .d true, .obj .tdense .d true, .obj (.viewTDense .mat) .d false]),
  (.vml_min, [.obj (.viewTDense .ten) .d true, .obj .tdense .d true, .obj (.viewTDense .ten) .d false]),
  (.vml_min, [.obj (.viewTDense .ten) .d true, .obj (.viewTDense .vec) .d true, .obj .tdense .d false]),
  (.vml_min, [.obj (.viewTDense .ten) .d true, .obj (.viewTDense .vec) .d true, .obj (.viewTDense .vec) .d false]),
  (.vml_min, [.obj (.viewTDense .ten) .d true, .obj (.viewTDense .vec) .d true, .obj (.viewTDense .mat) .d false]),
  (.vml_min, [.obj (.viewTDense .ten) .d true, .obj (.viewTDense .vec) .d true, .obj (.viewTDense .ten) .d false]),
  (.vml_min, [.obj (.viewTDense .ten) .d true, .obj (.viewTDense .mat) .d true, .obj .tdense .d false]),
  (.vml_min, [.obj (.viewTDense .ten) .d true, .obj (.viewTDense .mat) .d true, .obj (.viewTDense .vec) .d false]),
  (.vml_min, [.obj (.viewTDense .ten) .d true, .obj (.viewTDense .mat) .d true, .obj (.viewTDense .mat) .d false])]

/-- the overloads of `tVmlTen_19` that are declared -/
def hVmlTen_19 : List (Fn × List Par) := [
  (.vml_min, [.obj (.viewTDense .ten) .d true, .obj (.viewTDense .mat) .d true, .obj (.viewTDense .ten) .d false]),
  (.vml_min, [.obj (.viewTDense .ten) .d true, .obj (.viewTDense .ten) .d true, .obj .tdense .d false]),
  (.vml_min, [.obj (.viewTDense .ten) .d true, .obj (.viewTDense .ten) .d true, .obj (.viewTDense .vec) .d false]),
  (.vml_min, [.obj (.viewTDense .ten) .d true, .obj (.viewTDense .ten) .d true, .obj (.viewTDense .mat) .d false]),
  (.vml_min, [.obj (.viewTDense .ten) .d true, .obj (.viewTDense .ten) .d true, .obj (.viewTDense .ten) .d false]),
  (.vml_min, [.obj .tcrs .s true, .obj .tcrs .s true, .obj .tcrs .s false]),
  (.vml_min, [.obj .tdense .s true, .obj .tdense .s true, .obj .tdense .s false]),
  (.vml_min, [.obj .tdense .s true, .obj .tdense .s true, .obj (.viewTDense .vec) .s false]),
  (.vml_min, [.obj .tdense .s true, .obj .tdense .s true, .obj (.viewTDense .mat) .s false]),
  (.vml_min, [.obj .tdense .s true, .obj .tdense .s true, .obj (.viewTDense .ten) .s false]),
  (.vml_min, [.obj .tdense .s true, .obj (.viewTDense .vec) .s true, .obj .tdense .s false]),
  (.vml_min, [.obj .tdense .s true, .obj (.viewTDense .vec) .s true, .obj (.viewTDense .vec) .s false]),
  (.vml_min, [.obj .tdense .s true, .obj (.viewTDense .vec) .s true, .obj (.viewTDense .mat) .s false]),
  (.vml_min, [.obj .tdense .s true, .obj (.viewTDense .vec) .s true, .obj (.viewTDense .ten) .s false]),
  (.vml_min, [.obj .tdense .s true, .obj (.viewTDense .mat) .s true, .obj .tdense .s false]),
  (.vml_min, [.obj .tdense .s true, .obj (.viewTDense .mat) .s true, .obj (.viewTDense .vec) .s false]),
  (.vml_min, [.obj .tdense .s true, .obj (.viewTDense .mat) .s true, .obj (.viewTDense .mat) .s false]),
  (.vml_min, [.obj .tdense .s true, .obj (.viewTDense .mat) .s true, .obj (.viewTDense .ten) .s false]),
  (.vml_min, [.obj .tdense .s true, .obj (.viewTDense .ten) .s true, .obj .tdense .s false]),
  (.vml_min, [.obj .tdense .s true, .obj (.viewTDense .ten) .s true, .obj (.viewTDense .vec) .s false]),
  (.vml_min, [.obj .tdense .s true, .obj (.viewTDense .ten) .s true, .obj (.viewTDense .mat) .s false]),
  (.vml_min, [.obj .tdense .s true, .obj (.viewTDense .ten) .s true, .obj (.viewTDense .ten) .s false]),
  (.vml_min, [.obj (.viewTDense .vec) .s true, .obj .tdense .s true, .obj .tdense .s false]),
  (.vml_min, [.obj (.viewTDense .vec) .s true, .obj .tdense .s true, .obj (.viewTDense .vec) .s false]),
  (.vml_min, [.obj (.viewTDense .vec) .s true, .obj .tdense .s true, .obj (.viewTDense .mat) .s false]),
  (.vml_min, [.obj (.viewTDense .vec) .s true, .obj .tdense .s true, .obj (.viewTDense .ten) .s false]),
  (.vml_min, [.obj (.viewTDense .vec) .s true, .obj (.viewTDense .vec) .s true, .obj .tdense .s false]),
  (.vml_min, [.obj (.viewTDense .vec) .s true, .obj (.viewTDense .vec) .s true, .obj (.viewTDense .vec) .s false]),
  (.vml_min, [.obj (.viewTDense .vec) .s true, .obj (.viewTDense .vec) .s true, .obj (.viewTDense .mat) .s false]),
  (.vml_min, [.obj (.viewTDense .vec) .s true, .obj (.viewTDense .vec) .s true, .obj (.viewTDense .ten) .s false]),
  (.vml_min, [.obj (.viewTDense .vec) .s true, .obj (.viewTDense .mat) .s true, .obj .tdense .s false]),
  (.vml_min, [.obj (.viewTDense .vec) .s true, .obj (.viewTDense .mat) .s true, .obj (.viewTDense .vec) .s false]),
  (.vml_min, [.obj (.viewTDense .vec) .s true, .obj (.viewTDense .mat) .s true, .obj (.viewTDense .mat) .s false]),
  (.vml_min, [.obj (.viewTDense .vec) .s true, .obj (.viewTDense .mat) .s true, .obj (.viewTDense .ten) .s false]),
  (.vml_min, [.obj (.viewTDense .vec) .s true, .obj (.viewTDense .ten) .s true, .obj .tdense .s false]),
  (.vml_min, [.obj (.viewTDense .vec) .s true, .obj (.viewTDense .ten) .s true, .obj (.viewTDense .vec) .s false]),
  (.vml_min, [.obj (.viewTDense .vec) .s true, .obj (.viewTDense .ten) .s true, .obj (.viewTDense .mat) .s false]),
  (.vml_min, [.obj (.viewTDense .vec) .s true, .obj (.viewTDense .ten) .s true, .obj (.viewTDense .ten) .s false]),
  (.vml_min, [.obj (.viewTDense .mat) .s true, .obj .tdense .s true, .obj .tdense .s false]),
  (.vml_min, [.obj (.viewTDense .mat) .s true, .obj .tdense .s true, .obj (.viewTDense .vec) .s false]),
  (.vml_min, [.obj (.viewTDense .mat) .s true, .obj .tdense .s true, .obj (.viewTDense .mat) .s false]),
  (.vml_min, [.obj (.viewTDense .mat) .s true, .obj .tdense .s true, .obj (.viewTDense .ten) .s false]),
  (.vml_min, [.obj (.viewTDense .mat) .s true, .obj (.viewTDense .vec) .s true, .obj .tdense .s false]),
  (.vml_min, [.obj (.viewTDense .mat) .s true, .obj (.viewTDense .vec) .s true, .obj (.viewTDense .vec) .s false]),
  (.vml_min, [.obj (.viewTDense .mat) .s true, .obj (.viewTDense .vec) .s true, .obj (.viewTDense .mat) .s false]),
  (.vml_min, [.obj (.viewTDense .mat) .s true, .obj (.viewTDense .vec) .s true, .obj (.viewTDense .ten) .s false]),
  (.vml_min, [.obj (.viewTDense .mat) .s true, .obj (.viewTDense .mat) .s true, .obj .tdense .s false]),
  (.vml_min, [.obj (.viewTDense .mat) .s true, .obj (.viewTDense .mat) .s true, .obj (.viewTDense .vec) .s false]),
  (.vml_min, [.obj (.viewTDense .mat) .s true, .obj (.viewTDense .mat) .s true, .obj (.viewTDense .mat) .s false]),
  (.vml_min, [.obj (.viewTDense .mat) .s true, .obj (.viewTDense .mat) .s true, .obj (.viewTDense .ten) .s false]),
  (.vml_min, [.obj (.viewTDense .mat) .s true, .obj (.viewTDense .ten) .s true, .obj .tdense .s false]),
  (.vml_min, [.obj (.viewTDense .mat) .s true, .obj (.viewTDense .ten) .s true, .obj (.viewTDense .vec) .s false]),
  (.vml_min, [.obj (.viewTDense .mat) .s true, .obj (.viewTDense .ten) .s true, .obj (.viewTDense .mat) .s false]),
  (.vml_min, [.obj (.viewTDense .mat) .s true, .obj (.viewTDense .ten) .s true, .obj (.viewTDense .ten) .s false]),
  (.vml_min, [.obj (.viewTDense .ten) .s true, .obj .tdense .s true, .obj .tdense .s false]),
  (.vml_min, [.obj (.viewTDense .ten) .s true, .obj .tdense .s true, .obj (.viewTDense .vec) .s false]),
  (.vml_min, [.obj (.viewTDense .ten) .s true, .obj .tdense .s true, .obj (.viewTDense .mat) .s false]),
  (.vml_min, [.obj (.viewTDense .ten) .s true, .obj .tdense .s true, .obj (.viewTDense .ten) .s false]),
  (.vml_min, [.obj (.viewTDense .ten) .s true, .obj (.viewTDense .vec) .s true, .obj .tdense .s false]),
  (.vml_min, [.obj (.viewTDense .ten) .s true, .obj (.viewTDense .vec) .s true, .obj (.viewTDense .vec) .s false]),
  (.vml_min, [.obj (.viewTDense .ten) .s true, .obj (.viewTDense .vec) .s true, .obj (.viewTDense .mat) .s false]),
  (.vml_min, [.obj (.viewTDense .ten) .s true, .obj (.viewTDense .vec) .s true, .obj (.viewTDense .ten) .s false]),
  (.vml_min, [.obj (.viewTDense .ten) .s true, .obj (.viewTDense .mat) .s true, .obj .tdense .s false]),
  (.vml_min, [.obj (.viewTDense .ten) .s true, .obj (.viewTDense .mat) .s true, .obj (.viewTDense .vec) .s false]),
  (.vml_min, [.obj (.viewTDense .ten) .s true, .obj (.viewTDense .mat) .s true, .obj (.viewTDense .mat) .s false]),
  (.vml_min, [.obj (.viewTDense .ten) .s true, .obj (.viewTDense .mat) .s true, .obj (.viewTDense .ten) .s false]),
  (.vml_min, [.obj (.viewTDense .ten) .s true, .obj (.viewTDense .ten) .s true, .obj .tdense .s false]),
  (.vml_min, [.obj (.viewTDense .ten) .s true, .obj (.viewTDense .ten) .s true, .obj (.viewTDense .vec) .s false]),
  (.vml_min, [.obj (.viewTDense .ten) .s true, .obj (.viewTDense .ten) .s true, .obj (.viewTDense .mat) .s false]),
  (.vml_min, [.obj (.viewTDense .ten) .s true, .obj (.viewTDense .ten) .s true, .obj (.viewTDense .ten) .s false]),
  (.vml_max, [.obj .tcrs .d true, .scal .d, .obj .tcrs .d false]),
  (.vml_max, [.obj .tdense .d true, .scal .d, .obj .tdense .d false]),
  (.vml_max, [.obj .tdense .d true, .scal .d, .obj (.viewTDense .vec) .d false]),
  (.vml_max, [.obj .tdense .d true, .scal .d, .obj (.viewTDense .mat) .d false]),
  (.vml_max, [.obj .tdense .d true, .scal .d, .obj (.viewTDense .ten) .d false]),
  (.vml_max, [.obj (.viewTDense .vec) .d true, .scal .d, .obj .tdense .d false]),
  (.vml_max, [.obj (.viewTDense .vec) .d true, .scal .d, .obj (.viewTDense .vec) .d false]),
  (.vml_max, [.obj (.viewTDense .vec) .d true, .scal .d, .obj (.viewTDense .mat) .d false]),
  (.vml_max, [.obj (.viewTDense .vec) .d true, .scal .d, .obj (.viewTDense .ten) .d false]),
  (.vml_max, [.obj (.viewTDense .mat) .d true, .scal .d, .obj .tdense .d false])]

/-- the overloads of `tVmlTen_20` that are declared -/
def hVmlTen_20 : List (Fn × List Par) := [
  (.vml_max, [.obj (.viewTDense .mat) .d true, .scal .d, .obj (.viewTDense .vec) .d false]),
  (.vml_max, [.obj (.viewTDense .mat) .d true, .scal .d, .obj (.viewTDense .mat) .d false]),
  (.vml_max, [.obj (.viewTDense .mat) .d true, .scal .d, .obj (.viewTDense .ten) .d false]),
  (.vml_max, [.obj (.viewTDense .ten) .d true, .scal .d, .obj .tdense .d false]),
  (.vml_max, [.obj (.viewTDense .ten) .d true, .scal .d, .obj (.viewTDense .vec) .d false]),
  (.vml_max, [.obj (.viewTDense .ten) .d true, .scal .d, .obj (.viewTDense .mat) .d false]),
  (.vml_max, [.obj (.viewTDense .ten) .d true, .scal .d, .obj (.viewTDense .ten) .d false]),
  (.vml_max, [.obj .tcrs .s true, .scal .s, .obj .tcrs .s false]),
  (.vml_max, [.obj .tdense .s true, .scal .s, .obj .tdense .s false]),
  (.vml_max, [.obj .tdense .s true, .scal .s, .obj (.viewTDense .vec) .s false]),
  (.vml_max, [.obj .tdense .s true, .scal .s, .obj (.viewTDense .mat) .s false]),
  (.vml_max, [.obj .tdense .s true, .scal .s, .obj (.viewTDense .ten) .s false]),
  (.vml_max, [.obj (.viewTDense .vec) .s true, .scal .s, .obj .tdense .s false]),
  (.vml_max, [.obj (.viewTDense .vec) .s true, .scal .s, .obj (.viewTDense .vec) .s false]),
  (.vml_max, [.obj (.viewTDense .vec) .s true, .scal .s, .obj (.viewTDense .mat) .s false]),
  (.vml_max, [.obj (.viewTDense .vec) .s true, .scal .s, .obj (.viewTDense .ten) .s false]),
  (.vml_max, [.obj (.viewTDense .mat) .s true, .scal .s, .obj .tdense .s false]),
  (.vml_max, [.obj (.viewTDense .mat) .s true, .scal .s, .obj (.viewTDense .vec) .s false]),
  (.vml_max, [.obj (.viewTDense .mat) .s true, .scal .s, .obj (.viewTDense .mat) .s false]),
  (.vml_max, [.obj (.viewTDense .mat) .s true, .scal .s, .obj (.viewTDense .ten) .s false]),
  (.vml_max, [.obj (.viewTDense .ten) .s true, .scal .s, .obj .tdense .s false]),
  (.vml_max, [.obj (.viewTDense .ten) .s true, .scal .s, .obj (.viewTDense .vec) .s false]),
  (.vml_max, [.obj (.viewTDense .ten) .s true, .scal .s, .obj (.viewTDense .mat) .s false]),
  (.vml_max, [.obj (.viewTDense .ten) .s true, .scal .s, .obj (.viewTDense .ten) .s false]),
  (.vml_min, [.obj .tcrs .d true, .scal .d, .obj .tcrs .d false]),
  (.vml_min, [.obj .tdense .d true, .scal .d, .obj .tdense .d false]),
  (.vml_min, [.obj .tdense .d true, .scal .d, .obj (.viewTDense .vec) .d false]),
  (.vml_min, [.obj .tdense .d true, .scal .d, .obj (.viewTDense .mat) .d false]),
  (.vml_min, [.obj .tdense .d true, .scal .d, .obj (.viewTDense .ten) .d false]),
  (.vml_min, [.obj (.viewTDense .vec) .d true, .scal .d, .obj .tdense .d false]),
  (.vml_min, [.obj (.viewTDense .vec) .d true, .scal .d, .obj (.viewTDense .vec) .d false]),
  (.vml_min, [.obj (.viewTDense .vec) .d true, .scal .d, .obj (.viewTDense .mat) .d false]),
  (.vml_min, [.obj (.viewTDense .vec) .d true, .scal .d, .obj (.viewTDense .ten) .d false]),
  (.vml_min, [.obj (.viewTDense .mat) .d true, .scal .d, .obj .tdense .d false]),
  (.vml_min, [.obj (.viewTDense .mat) .d true, .scal .d, .obj (.viewTDense .vec) .d false]),
  (.vml_min, [.obj (.viewTDense .mat) .d true, .scal .d, .obj (.viewTDense .mat) .d false]),
  (.vml_min, [.obj (.viewTDense .mat) .d true, .scal .d, .obj (.viewTDense .ten) .d false]),
  (.vml_min, [.obj (.viewTDense .ten) .d true, .scal .d, .obj .tdense .d false]),
  (.vml_min, [.obj (.viewTDense .ten) .d true, .scal .d, .obj (.viewTDense .vec) .d false]),
  (.vml_min, [.obj (.viewTDense .ten) .d true, .scal .d, .obj (.viewTDense .mat) .d false]),
  (.vml_min, [.obj (.viewTDense .ten) .d true, .scal .d, .obj (.viewTDense .ten) .d false]),
  (.vml_min, [.obj .tcrs .s true, .scal .s, .obj .tcrs .s false]),
  (.vml_min, [.obj .tdense .s true, .scal .s, .obj .tdense .s false]),
  (.vml_min, [.obj .tdense .s true, .scal .s, .obj (.viewTDense .vec) .s false]),
  (.vml_min, [.obj .tdense .s true, .scal .s, .obj (.viewTDense .mat) .s false]),
  (.vml_min, [.obj .tdense .s true, .scal .s, .obj (.viewTDense .ten) .s false]),
  (.vml_min, [.obj (.viewTDense .vec) .s true, .scal .s, .obj .tdense .s false]),
  (.vml_min, [.obj (.viewTDense .vec) .s true, .scal .s, .obj (.viewTDense .vec) .s false]),
  (.vml_min, [.obj (.viewTDense .vec) .s true, .scal .s, .obj (.viewTDense .mat) .s false]),
  (.vml_min, [.obj (.viewTDense .vec) .s true, .scal .s, .obj (.viewTDense .ten) .s false]),
  (.vml_min, [.obj (.viewTDense .mat) .s true, .scal .s, .obj .tdense .s false]),
  (.vml_min, [.obj (.viewTDense .mat) .s true, .scal .s, .obj (.viewTDense .vec) .s false]),
  (.vml_min, [.obj (.viewTDense .mat) .s true, .scal .s, .obj (.viewTDense .mat) .s false]),
  (.vml_min, [.obj (.viewTDense .mat) .s true, .scal .s, .obj (.viewTDense .ten) .s false]),
  (.vml_min, [.obj (.viewTDense .ten) .s true, .scal .s, .obj .tdense .s false]),
  (.vml_min, [.obj (.viewTDense .ten) .s true, .scal .s, .obj (.viewTDense .vec) .s false]),
  (.vml_min, [.obj (.viewTDense .ten) .s true, .scal .s, .obj (.viewTDense .mat) .s false]),
  (.vml_min, [.obj (.viewTDense .ten) .s true, .scal .s, .obj (.viewTDense .ten) .s false])]

/-- declared without a definition -/
def hExtra : List (Fn × List Par) := []

/-- all declarations (1656), table by table -/
def declared : List (List (Fn × List Par)) :=
  [hVmlTen_0, hVmlTen_1, hVmlTen_2, hVmlTen_3, hVmlTen_4, hVmlTen_5, hVmlTen_6, hVmlTen_7, hVmlTen_8, hVmlTen_9, hVmlTen_10, hVmlTen_11, hVmlTen_12, hVmlTen_13, hVmlTen_14, hVmlTen_15, hVmlTen_16, hVmlTen_17, hVmlTen_18, hVmlTen_19, hVmlTen_20, hExtra]

end Verif.Dispatch.HeaderTen
