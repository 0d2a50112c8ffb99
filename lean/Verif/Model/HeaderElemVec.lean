import Verif.Model.DispatchSrcVec

/-!
Generated by tools/header_gen.py from /repo/include/monolish/{blas,vml}/*.hpp: declared element-wise functions of DispatchSrcVec. Do not edit.
-/

namespace Verif.Dispatch.HeaderVec

/-- the overloads of `tVmlVec_0` that are declared -/
def hVmlVec_0 : List (Fn × List Par) := [
  (.vml_add, [.obj .vector .d true, .obj .vector .d true, .obj .vector .d false]),
  (.vml_add, [.obj .vector .d true, .obj .vector .d true, .obj (.view1D .vec) .d false]),
  (.vml_add, [.obj .vector .d true, .obj .vector .d true, .obj (.view1D .mat) .d false]),
  (.vml_add, [.obj .vector .d true, .obj .vector .d true, .obj (.view1D .ten) .d false]),
  (.vml_add, [.obj .vector .d true, .obj (.view1D .vec) .d true, .obj .vector .d false]),
  (.vml_add, [.obj .vector .d true, .obj (.view1D .vec) .d true, .obj (.view1D .vec) .d false]),
  (.vml_add, [.obj .vector .d true, .obj (.view1D .vec) .d true, .obj (.view1D .mat) .d false]),
  (.vml_add, [.obj .vector .d true, .obj (.view1D .vec) .d true, .obj (.view1D .ten) .d false]),
  (.vml_add, [.obj .vector .d true, .obj (.view1D .mat) .d true, .obj .vector .d false]),
  (.vml_add, [.obj .vector .d true, .obj (.view1D .mat) .d true, .obj (.view1D .vec) .d false]),
  (.vml_add, [.obj .vector .d true, .obj (.view1D .mat) .d true, .obj (.view1D .mat) .d false]),
  (.vml_add, [.obj .vector .d true, .obj (.view1D .mat) .d true, .obj (.view1D .ten) .d false]),
  (.vml_add, [.obj .vector .d true, .obj (.view1D .ten) .d true, .obj .vector .d false]),
  (.vml_add, [.obj .vector .d true, .obj (.view1D .ten) .d true, .obj (.view1D .vec) .d false]),
  (.vml_add, [.obj .vector .d true, .obj (.view1D .ten) .d true, .obj (.view1D .mat) .d false]),
  (.vml_add, [.obj .vector .d true, .obj (.view1D .ten) .d true, .obj (.view1D .ten) .d false]),
  (.vml_add, [.obj (.view1D .vec) .d true, .obj .vector .d true, .obj .vector .d false]),
  (.vml_add, [.obj (.view1D .vec) .d true, .obj .vector .d true, .obj (.view1D .vec) .d false]),
  (.vml_add, [.obj (.view1D .vec) .d true, .obj .vector .d true, .obj (.view1D .mat) .d false]),
  (.vml_add, [.obj (.view1D .vec) .d true, .obj .vector .d true, .obj (.view1D .ten) .d false]),
  (.vml_add, [.obj (.view1D .vec) .d true, .obj (.view1D .vec) .d true, .obj .vector .d false]),
  (.vml_add, [.obj (.view1D .vec) .d true, .obj (.view1D .vec) .d true, .obj (.view1D .vec) .d false]),
  (.vml_add, [.obj (.view1D .vec) .d true, .obj (.view1D .vec) .d true, .obj (.view1D .mat) .d false]),
  (.vml_add, [.obj (.view1D .vec) .d true, .obj (.view1D .vec) .d true, .obj (.view1D .ten) .d false]),
  (.vml_add, [.obj (.view1D .vec) .d true, .obj (.view1D .mat) .d true, .obj .vector .d false]),
  (.vml_add, [.obj (.view1D .vec) .d true, .obj (.view1D .mat) .d true, .obj (.view1D .vec) .d false]),
  (.vml_add, [.obj (.view1D .vec) .d true, .obj (.view1D .mat) .d true, .obj (.view1D .mat) .d false]),
  (.vml_add, [.obj (.view1D .vec) .d true, .obj (.view1D .mat) .d true, .obj (.view1D .ten) .d false]),
  (.vml_add, [.obj (.view1D .vec) .d true, .obj (.view1D .ten) .d true, .obj .vector .d false]),
  (.vml_add, [.obj (.view1D .vec) .d true, .obj (.view1D .ten) .d true, .obj (.view1D .vec) .d false]),
  (.vml_add, [.obj (.view1D .vec) .d true, .obj (.view1D .ten) .d true, .obj (.view1D .mat) .d false]),
  (.vml_add, [.obj (.view1D .vec) .d true, .obj (.view1D .ten) .d true, .obj (.view1D .ten) .d false]),
  (.vml_add, [.obj (.view1D .mat) .d true, .obj .vector .d true, .obj .vector .d false]),
  (.vml_add, [.obj (.view1D .mat) .d true, .obj .vector .d true, .obj (.view1D .vec) .d false]),
  (.vml_add, [.obj (.view1D .mat) .d true, .obj .vector .d true, .obj (.view1D .mat) .d false]),
  (.vml_add, [.obj (.view1D .mat) .d true, .obj .vector .d true, .obj (.view1D .ten) .d false]),
  (.vml_add, [.obj (.view1D .mat) .d true, .obj (.view1D .vec) .d true, .obj .vector .d false]),
  (.vml_add, [.obj (.view1D .mat) .d true, .obj (.view1D .vec) .d true, .obj (.view1D .vec) .d false]),
  (.vml_add, [.obj (.view1D .mat) .d true, .obj (.view1D .vec) .d true, .obj (.view1D .mat) .d false]),
  (.vml_add, [.obj (.view1D .mat) .d true, .obj (.view1D .vec) .d true, .obj (.view1D .ten) .d false]),
  (.vml_add, [.obj (.view1D .mat) .d true, .obj (.view1D .mat) .d true, .obj .vector .d false]),
  (.vml_add, [.obj (.view1D .mat) .d true, .obj (.view1D .mat) .d true, .obj (.view1D .vec) .d false]),
  (.vml_add, [.obj (.view1D .mat) .d true, .obj (.view1D .mat) .d true, .obj (.view1D .mat) .d false]),
  (.vml_add, [.obj (.view1D .mat) .d true, .obj (.view1D .mat) .d true, .obj (.view1D .ten) .d false]),
  (.vml_add, [.obj (.view1D .mat) .d true, .obj (.view1D .ten) .d true, .obj .vector .d false]),
  (.vml_add, [.obj (.view1D .mat) .d true, .obj (.view1D .ten) .d true, .obj (.view1D .vec) .d false]),
  (.vml_add, [.obj (.view1D .mat) .d true, .obj (.view1D .ten) .d true, .obj (.view1D .mat) .d false]),
  (.vml_add, [.obj (.view1D .mat) .d true, .obj (.view1D .ten) .d true, .obj (.view1D .ten) .d false]),
  (.vml_add, [.obj (.view1D .ten) .d true, .obj .vector .d true, .obj .vector .d false]),
  (.vml_add, [.obj (.view1D .ten) .d true, .obj .vector .d true, .obj (.view1D .vec) .d false]),
  (.vml_add, [.obj (.view1D .ten) .d true, .obj .vector .d true, .obj (.view1D .mat) .d false]),
  (.vml_add, [.obj (.view1D .ten) .d true, .obj .vector .d true, .obj (.view1D .ten) .d false]),
  (.vml_add, [.obj (.view1D .ten) .d true, .obj (.view1D .vec) .d true, .obj .vector .d false]),
  (.vml_add, [.obj (.view1D .ten) .d true, .obj (.view1D .vec) .d true, .obj (.view1D .vec) .d false]),
  (.vml_add, [.obj (.view1D .ten) .d true, .obj (.view1D .vec) .d true, .obj (.view1D .mat) .d false]),
  (.vml_add, [.obj (.view1D .ten) .d true, .obj (.view1D .vec) .d true, .obj (.view1D .ten) .d false]),
  (.vml_add, [.obj (.view1D .ten) .d true, .obj (.view1D .mat) .d true, .obj .vector .d false]),
  (.vml_add, [.obj (.view1D .ten) .d true, .obj (.view1D .mat) .d true, .obj (.view1D .vec) .d false]),
  (.vml_add, [.obj (.view1D .ten) .d true, .obj (.view1D .mat) .d true, .obj (.view1D .mat) .d false]),
  (.vml_add, [.obj (.view1D .ten) .d true, .obj (.view1D .mat) .d true, .obj (.view1D .ten) .d false]),
  (.vml_add, [.obj (.view1D .ten) .d true, .obj (.view1D .ten) .d true, .obj .vector .d false]),
  (.vml_add, [.obj (.view1D .ten) .d true, .obj (.view1D .ten) .d true, .obj (.view1D .vec) .d false]),
  (.vml_add, [.obj (.view1D .ten) .d true, .obj (.view1D .ten) .d true, .obj (.view1D .mat) .d false]),
  (.vml_add, [.obj (.view1D .ten) .d true, .obj (.view1D .ten) .d true, .obj (.view1D .ten) .d false]),
  (.vml_add, [.obj .vector .s true, .obj .vector .s true, .obj .vector .s false]),
  (.vml_add, [.obj .vector .s true, .obj .vector .s true, .obj (.view1D .vec) .s false]),
  (.vml_add, [.obj .vector .s true, .obj .vector .s true, .obj (.view1D .mat) .s false]),
  (.vml_add, [.obj .vector .s true, .obj .vector .s true, .obj (.view1D .ten) .s false]),
  (.vml_add, [.obj .vector .s true, .obj (.view1D .vec) .s true, .obj .vector .s false]),
  (.vml_add, [.obj .vector .s true, .obj (.view1D .vec) .s true, .obj (.view1D .vec) .s false]),
  (.vml_add, [.obj .vector .s true, .obj (.view1D .vec) .s true, .obj (.view1D .mat) .s false]),
  (.vml_add, [.obj .vector .s true, .obj (.view1D .vec) .s true, .obj (.view1D .ten) .s false]),
  (.vml_add, [.obj .vector .s true, .obj (.view1D .mat) .s true, .obj .vector .s false]),
  (.vml_add, [.obj .vector .s true, .obj (.view1D .mat) .s true, .obj (.view1D .vec) .s false]),
  (.vml_add, [.obj .vector .s true, .obj (.view1D .mat) .s true, .obj (.view1D .mat) .s false]),
  (.vml_add, [.obj .vector .s true, .obj (.view1D .mat) .s true, .obj (.view1D .ten) .s false]),
  (.vml_add, [.obj .vector .s true, .obj (.view1D .ten) .s true, .obj .vector .s false]),
  (.vml_add, [.obj .vector .s true, .obj (.view1D .ten) .s true, .obj (.view1D .vec) .s false]),
  (.vml_add, [.obj .vector .s true, .obj (.view1D .ten) .s true, .obj (.view1D .mat) .s false]),
  (.vml_add, [.obj .vector .s true, .obj (.view1D .ten) .s true, .obj (.view1D .ten) .s false])]

/-- the overloads of `tVmlVec_1` that are declared -/
def hVmlVec_1 : List (Fn × List Par) := [
  (.vml_add, [.obj (.view1D .vec) .s true, .obj .vector .s true, .obj .vector .s false]),
  (.vml_add, [.obj (.view1D .vec) .s true, .obj .vector .s true, .obj (.view1D .vec) .s false]),
  (.vml_add, [.obj (.view1D .vec) .s true, .obj .vector .s true, .obj (.view1D .mat) .s false]),
  (.vml_add, [.obj (.view1D .vec) .s true, .obj .vector .s true, .obj (.view1D .ten) .s false]),
  (.vml_add, [.obj (.view1D .vec) .s true, .obj (.view1D .vec) .s true, .obj .vector .s false]),
  (.vml_add, [.obj (.view1D .vec) .s true, .obj (.view1D .vec) .s true, .obj (.view1D .vec) .s false]),
  (.vml_add, [.obj (.view1D .vec) .s true, .obj (.view1D .vec) .s true, .obj (.view1D .mat) .s false]),
  (.vml_add, [.obj (.view1D .vec) .s true, .obj (.view1D .vec) .s true, .obj (.view1D .ten) .s false]),
  (.vml_add, [.obj (.view1D .vec) .s true, .obj (.view1D .mat) .s true, .obj .vector .s false]),
  (.vml_add, [.obj (.view1D .vec) .s true, .obj (.view1D .mat) .s true, .obj (.view1D .vec) .s false]),
  (.vml_add, [.obj (.view1D .vec) .s true, .obj (.view1D .mat) .s true, .obj (.view1D .mat) .s false]),
  (.vml_add, [.obj (.view1D .vec) .s true, .obj (.view1D .mat) .s true, .obj (.view1D .ten) .s false]),
  (.vml_add, [.obj (.view1D .vec) .s true, .obj (.view1D .ten) .s true, .obj .vector .s false]),
  (.vml_add, [.obj (.view1D .vec) .s true, .obj (.view1D .ten) .s true, .obj (.view1D .vec) .s false]),
  (.vml_add, [.obj (.view1D .vec) .s true, .obj (.view1D .ten) .s true, .obj (.view1D .mat) .s false]),
  (.vml_add, [.obj (.view1D .vec) .s true, .obj (.view1D .ten) .s true, .obj (.view1D .ten) .s false]),
  (.vml_add, [.obj (.view1D .mat) .s true, .obj .vector .s true, .obj .vector .s false]),
  (.vml_add, [.obj (.view1D .mat) .s true, .obj .vector .s true, .obj (.view1D .vec) .s false]),
  (.vml_add, [.obj (.view1D .mat) .s true, .obj .vector .s true, .obj (.view1D .mat) .s false]),
  (.vml_add, [.obj (.view1D .mat) .s true, .obj .vector .s true, .obj (.view1D .ten) .s false]),
  (.vml_add, [.obj (.view1D .mat) .s true, .obj (.view1D .vec) .s true, .obj .vector .s false]),
  (.vml_add, [.obj (.view1D .mat) .s true, .obj (.view1D .vec) .s true, .obj (.view1D .vec) .s false]),
  (.vml_add, [.obj (.view1D .mat) .s true, .obj (.view1D .vec) .s true, .obj (.view1D .mat) .s false]),
  (.vml_add, [.obj (.view1D .mat) .s true, .obj (.view1D .vec) .s true, .obj (.view1D .ten) .s false]),
  (.vml_add, [.obj (.view1D .mat) .s true, .obj (.view1D .mat) .s true, .obj .vector .s false]),
  (.vml_add, [.obj (.view1D .mat) .s true, .obj (.view1D .mat) .s true, .obj (.view1D .vec) .s false]),
  (.vml_add, [.obj (.view1D .mat) .s true, .obj (.view1D .mat) .s true, .obj (.view1D .mat) .s false]),
  (.vml_add, [.obj (.view1D .mat) .s true, .obj (.view1D .mat) .s true, .obj (.view1D .ten) .s false]),
  (.vml_add, [.obj (.view1D .mat) .s true, .obj (.view1D .ten) .s true, .obj .vector .s false]),
  (.vml_add, [.obj (.view1D .mat) .s true, .obj (.view1D .ten) .s true, .obj (.view1D .vec) .s false]),
  (.vml_add, [.obj (.view1D .mat) .s true, .obj (.view1D .ten) .s true, .obj (.view1D .mat) .s false]),
  (.vml_add, [.obj (.view1D .mat) .s true, .obj (.view1D .ten) .s true, .obj (.view1D .ten) .s false]),
  (.vml_add, [.obj (.view1D .ten) .s true, .obj .vector .s true, .obj .vector .s false]),
  (.vml_add, [.obj (.view1D .ten) .s true, .obj .vector .s true, .obj (.view1D .vec) .s false]),
  (.vml_add, [.obj (.view1D .ten) .s true, .obj .vector .s true, .obj (.view1D .mat) .s false]),
  (.vml_add, [.obj (.view1D .ten) .s true, .obj .vector .s true, .obj (.view1D .ten) .s false]),
  (.vml_add, [.obj (.view1D .ten) .s true, .obj (.view1D .vec) .s true, .obj .vector .s false]),
  (.vml_add, [.obj (.view1D .ten) .s true, .obj (.view1D .vec) .s true, .obj (.view1D .vec) .s false]),
  (.vml_add, [.obj (.view1D .ten) .s true, .obj (.view1D .vec) .s true, .obj (.view1D .mat) .s false]),
  (.vml_add, [.obj (.view1D .ten) .s true, .obj (.view1D .vec) .s true, .obj (.view1D .ten) .s false]),
  (.vml_add, [.obj (.view1D .ten) .s true, .obj (.view1D .mat) .s true, .obj .vector .s false]),
  (.vml_add, [.obj (.view1D .ten) .s true, .obj (.view1D .mat) .s true, .obj (.view1D .vec) .s false]),
  (.vml_add, [.obj (.view1D .ten) .s true, .obj (.view1D .mat) .s true, .obj (.view1D .mat) .s false]),
  (.vml_add, [.obj (.view1D .ten) .s true, .obj (.view1D .mat) .s true, .obj (.view1D .ten) .s false]),
  (.vml_add, [.obj (.view1D .ten) .s true, .obj (.view1D .ten) .s true, .obj .vector .s false]),
  (.vml_add, [.obj (.view1D .ten) .s true, .obj (.view1D .ten) .s true, .obj (.view1D .vec) .s false]),
  (.vml_add, [.obj (.view1D .ten) .s true, .obj (.view1D .ten) .s true, .obj (.view1D .mat) .s false]),
  (.vml_add, [.obj (.view1D .ten) .s true, .obj (.view1D .ten) .s true, .obj (.view1D .ten) .s false]),
  (.vml_sub, [.obj .vector .d true, .obj .vector .d true, .obj .vector .d false]),
  (.vml_sub, [.obj .vector .d true, .obj .vector .d true, .obj (.view1D .vec) .d false]),
  (.vml_sub, [.obj .vector .d true, .obj .vector .d true, .obj (.view1D .mat) .d false]),
  (.vml_sub, [.obj .vector .d true, .obj .vector .d true, .obj (.view1D .ten) .d false]),
  (.vml_sub, [.obj .vector .d true, .obj (.view1D .vec) .d true, .obj .vector .d false]),
  (.vml_sub, [.obj .vector .d true, .obj (.view1D .vec) .d true, .obj (.view1D .vec) .d false]),
  (.vml_sub, [.obj .vector .d true, .obj (.view1D .vec) .d true, .obj (.view1D .mat) .d false]),
  (.vml_sub, [.obj .vector .d true, .obj (.view1D .vec) .d true, .obj (.view1D .ten) .d false]),
  (.vml_sub, [.obj .vector .d true, .obj (.view1D .mat) .d true, .obj .vector .d false]),
  (.vml_sub, [.obj .vector .d true, .obj (.view1D .mat) .d true, .obj (.view1D .vec) .d false]),
  (.vml_sub, [.obj .vector .d true, .obj (.view1D .mat) .d true, .obj (.view1D .mat) .d false]),
  (.vml_sub, [.obj .vector .d true, .obj (.view1D .mat) .d true, .obj (.view1D .ten) .d false]),
  (.vml_sub, [.obj .vector .d true, .obj (.view1D .ten) .d true, .obj .vector .d false]),
  (.vml_sub, [.obj .vector .d true, .obj (.view1D .ten) .d true, .obj (.view1D .vec) .d false]),
  (.vml_sub, [.obj .vector .d true, .obj (.view1D .ten) .d true, .obj (.view1D .mat) .d false]),
  (.vml_sub, [.obj .vector .d true, .obj (.view1D .ten) .d true, .obj (.view1D .ten) .d false]),
  (.vml_sub, [.obj (.view1D .vec) .d true, .obj .vector .d true, .obj .vector .d false]),
  (.vml_sub, [.obj (.view1D .vec) .d true, .obj .vector .d true, .obj (.view1D .vec) .d false]),
  (.vml_sub, [.obj (.view1D .vec) .d true, .obj .vector .d true, .obj (.view1D .mat) .d false]),
  (.vml_sub, [.obj (.view1D .vec) .d true, .obj .vector .d true, .obj (.view1D .ten) .d false]),
  (.vml_sub, [.obj (.view1D .vec) .d true, .obj (.view1D .vec) .d true, .obj .vector .d false]),
  (.vml_sub, [.obj (.view1D .vec) .d true, .obj (.view1D .vec) .d true, .obj (.view1D .vec) .d false]),
  (.vml_sub, [.obj (.view1D .vec) .d true, .obj (.view1D .vec) .d true, .obj (.view1D .mat) .d false]),
  (.vml_sub, [.obj (.view1D .vec) .d true, .obj (.view1D .vec) .d true, .obj (.view1D .ten) .d false]),
  (.vml_sub, [.obj (.view1D .vec) .d true, .obj (.view1D .mat) .d true, .obj .vector .d false]),
  (.vml_sub, [.obj (.view1D .vec) .d true, .obj (.view1D .mat) .d true, .obj (.view1D .vec) .d false]),
  (.vml_sub, [.obj (.view1D .vec) .d true, .obj (.view1D .mat) .d true, .obj (.view1D .mat) .d false]),
  (.vml_sub, [.obj (.view1D .vec) .d true, .obj (.view1D .mat) .d true, .obj (.view1D .ten) .d false]),
  (.vml_sub, [.obj (.view1D .vec) .d true, .obj (.view1D .ten) .d true, .obj .vector .d false]),
  (.vml_sub, [.obj (.view1D .vec) .d true, .obj (.view1D .ten) .d true, .obj (.view1D .vec) .d false]),
  (.vml_sub, [.obj (.view1D .vec) .d true, .obj (.view1D .ten) .d true, .obj (.view1D .mat) .d false]),
  (.vml_sub, [.obj (.view1D .vec) .d true, .obj (.view1D .ten) .d true, .obj (.view1D .ten) .d false])]

/-- the overloads of `tVmlVec_2` that are declared -/
def hVmlVec_2 : List (Fn × List Par) := [
  (.vml_sub, [.obj (.view1D .mat) .d true, .obj .vector .d true, .obj .vector .d false]),
  (.vml_sub, [.obj (.view1D .mat) .d true, .obj .vector .d true, .obj (.view1D .vec) .d false]),
  (.vml_sub, [.obj (.view1D .mat) .d true, .obj .vector .d true, .obj (.view1D .mat) .d false]),
  (.vml_sub, [.obj (.view1D .mat) .d true, .obj .vector .d true, .obj (.view1D .ten) .d false]),
  (.vml_sub, [.obj (.view1D .mat) .d true, .obj (.view1D .vec) .d true, .obj .vector .d false]),
  (.vml_sub, [.obj (.view1D .mat) .d true, .obj (.view1D .vec) .d true, .obj (.view1D .vec) .d false]),
  (.vml_sub, [.obj (.view1D .mat) .d true, .obj (.view1D .vec) .d true, .obj (.view1D .mat) .d false]),
  (.vml_sub, [.obj (.view1D .mat) .d true, .obj (.view1D .vec) .d true, .obj (.view1D .ten) .d false]),
  (.vml_sub, [.obj (.view1D .mat) .d true, .obj (.view1D .mat) .d true, .obj .vector .d false]),
  (.vml_sub, [.obj (.view1D .mat) .d true, .obj (.view1D .mat) .d true, .obj (.view1D .vec) .d false]),
  (.vml_sub, [.obj (.view1D .mat) .d true, .obj (.view1D .mat) .d true, .obj (.view1D .mat) .d false]),
  (.vml_sub, [.obj (.view1D .mat) .d true, .obj (.view1D .mat) .d true, .obj (.view1D .ten) .d false]),
  (.vml_sub, [.obj (.view1D .mat) .d true, .obj (.view1D .ten) .d true, .obj .vector .d false]),
  (.vml_sub, [.obj (.view1D .mat) .d true, .obj (.view1D .ten) .d true, .obj (.view1D .vec) .d false]),
  (.vml_sub, [.obj (.view1D .mat) .d true, .obj (.view1D .ten) .d true, .obj (.view1D .mat) .d false]),
  (.vml_sub, [.obj (.view1D .mat) .d true, .obj (.view1D .ten) .d true, .obj (.view1D .ten) .d false]),
  (.vml_sub, [.obj (.view1D .ten) .d true, .obj .vector .d true, .obj .vector .d false]),
  (.vml_sub, [.obj (.view1D .ten) .d true, .obj .vector .d true, .obj (.view1D .vec) .d false]),
  (.vml_sub, [.obj (.view1D .ten) .d true, .obj .vector .d true, .obj (.view1D .mat) .d false]),
  (.vml_sub, [.obj (.view1D .ten) .d true, .obj .vector .d true, .obj (.view1D .ten) .d false]),
  (.vml_sub, [.obj (.view1D .ten) .d true, .obj (.view1D .vec) .d true, .obj .vector .d false]),
  (.vml_sub, [.obj (.view1D .ten) .d true, .obj (.view1D .vec) .d true, .obj (.view1D .vec) .d false]),
  (.vml_sub, [.obj (.view1D .ten) .d true, .obj (.view1D .vec) .d true, .obj (.view1D .mat) .d false]),
  (.vml_sub, [.obj (.view1D .ten) .d true, .obj (.view1D .vec) .d true, .obj (.view1D .ten) .d false]),
  (.vml_sub, [.obj (.view1D .ten) .d true, .obj (.view1D .mat) .d true, .obj .vector .d false]),
  (.vml_sub, [.obj (.view1D .ten) .d true, .obj (.view1D .mat) .d true, .obj (.view1D .vec) .d false]),
  (.vml_sub, [.obj (.view1D .ten) .d true, .obj (.view1D .mat) .d true, .obj (.view1D .mat) .d false]),
  (.vml_sub, [.obj (.view1D .ten) .d true, .obj (.view1D .mat) .d true, .obj (.view1D .ten) .d false]),
  (.vml_sub, [.obj (.view1D .ten) .d true, .obj (.view1D .ten) .d true, .obj .vector .d false]),
  (.vml_sub, [.obj (.view1D .ten) .d true, .obj (.view1D .ten) .d true, .obj (.view1D .vec) .d false]),
  (.vml_sub, [.obj (.view1D .ten) .d true, .obj (.view1D .ten) .d true, .obj (.view1D .mat) .d false]),
  (.vml_sub, [.obj (.view1D .ten) .d true, .obj (.view1D .ten) .d true, .obj (.view1D .ten) .d false]),
  (.vml_sub, [.obj .vector .s true, .obj .vector .s true, .obj .vector .s false]),
  (.vml_sub, [.obj .vector .s true, .obj .vector .s true, .obj (.view1D .vec) .s false]),
  (.vml_sub, [.obj .vector .s true, .obj .vector .s true, .obj (.view1D .mat) .s false]),
  (.vml_sub, [.obj .vector .s true, .obj .vector .s true, .obj (.view1D .ten) .s false]),
  (.vml_sub, [.obj .vector .s true, .obj (.view1D .vec) .s true, .obj .vector .s false]),
  (.vml_sub, [.obj .vector .s true, .obj (.view1D .vec) .s true, .obj (.view1D .vec) .s false]),
  (.vml_sub, [.obj .vector .s true, .obj (.view1D .vec) .s true, .obj (.view1D .mat) .s false]),
  (.vml_sub, [.obj .vector .s true, .obj (.view1D .vec) .s true, .obj (.view1D .ten) .s false]),
  (.vml_sub, [.obj .vector .s true, .obj (.view1D .mat) .s true, .obj .vector .s false]),
  (.vml_sub, [.obj .vector .s true, .obj (.view1D .mat) .s true, .obj (.view1D .vec) .s false]),
  (.vml_sub, [.obj .vector .s true, .obj (.view1D .mat) .s true, .obj (.view1D .mat) .s false]),
  (.vml_sub, [.obj .vector .s true, .obj (.view1D .mat) .s true, .obj (.view1D .ten) .s false]),
  (.vml_sub, [.obj .vector .s true, .obj (.view1D .ten) .s true, .obj .vector .s false]),
  (.vml_sub, [.obj .vector .s true, .obj (.view1D .ten) .s true, .obj (.view1D .vec) .s false]),
  (.vml_sub, [.obj .vector .s true, .obj (.view1D .ten) .s true, .obj (.view1D .mat) .s false]),
  (.vml_sub, [.obj .vector .s true, .obj (.view1D .ten) .s true, .obj (.view1D .ten) .s false]),
  (.vml_sub, [.obj (.view1D .vec) .s true, .obj .vector .s true, .obj .vector .s false]),
  (.vml_sub, [.obj (.view1D .vec) .s true, .obj .vector .s true, .obj (.view1D .vec) .s false]),
  (.vml_sub, [.obj (.view1D .vec) .s true, .obj .vector .s true, .obj (.view1D .mat) .s false]),
  (.vml_sub, [.obj (.view1D .vec) .s true, .obj .vector .s true, .obj (.view1D .ten) .s false]),
  (.vml_sub, [.obj (.view1D .vec) .s true, .obj (.view1D .vec) .s true, .obj .vector .s false]),
  (.vml_sub, [.obj (.view1D .vec) .s true, .obj (.view1D .vec) .s true, .obj (.view1D .vec) .s false]),
  (.vml_sub, [.obj (.view1D .vec) .s true, .obj (.view1D .vec) .s true, .obj (.view1D .mat) .s false]),
  (.vml_sub, [.obj (.view1D .vec) .s true, .obj (.view1D .vec) .s true, .obj (.view1D .ten) .s false]),
  (.vml_sub, [.obj (.view1D .vec) .s true, .obj (.view1D .mat) .s true, .obj .vector .s false]),
  (.vml_sub, [.obj (.view1D .vec) .s true, .obj (.view1D .mat) .s true, .obj (.view1D .vec) .s false]),
  (.vml_sub, [.obj (.view1D .vec) .s true, .obj (.view1D .mat) .s true, .obj (.view1D .mat) .s false]),
  (.vml_sub, [.obj (.view1D .vec) .s true, .obj (.view1D .mat) .s true, .obj (.view1D .ten) .s false]),
  (.vml_sub, [.obj (.view1D .vec) .s true, .obj (.view1D .ten) .s true, .obj .vector .s false]),
  (.vml_sub, [.obj (.view1D .vec) .s true, .obj (.view1D .ten) .s true, .obj (.view1D .vec) .s false]),
  (.vml_sub, [.obj (.view1D .vec) .s true, .obj (.view1D .ten) .s true, .obj (.view1D .mat) .s false]),
  (.vml_sub, [.obj (.view1D .vec) .s true, .obj (.view1D .ten) .s true, .obj (.view1D .ten) .s false]),
  (.vml_sub, [.obj (.view1D .mat) .s true, .obj .vector .s true, .obj .vector .s false]),
  (.vml_sub, [.obj (.view1D .mat) .s true, .obj .vector .s true, .obj (.view1D .vec) .s false]),
  (.vml_sub, [.obj (.view1D .mat) .s true, .obj .vector .s true, .obj (.view1D .mat) .s false]),
  (.vml_sub, [.obj (.view1D .mat) .s true, .obj .vector .s true, .obj (.view1D .ten) .s false]),
  (.vml_sub, [.obj (.view1D .mat) .s true, .obj (.view1D .vec) .s true, .obj .vector .s false]),
  (.vml_sub, [.obj (.view1D .mat) .s true, .obj (.view1D .vec) .s true, .obj (.view1D .vec) .s false]),
  (.vml_sub, [.obj (.view1D .mat) .s true, .obj (.view1D .vec) .s true, .obj (.view1D .mat) .s false]),
  (.vml_sub, [.obj (.view1D .mat) .s true, .obj (.view1D .vec) .s true, .obj (.view1D .ten) .s false]),
  (.vml_sub, [.obj (.view1D .mat) .s true, .obj (.view1D .mat) .s true, .obj .vector .s false]),
  (.vml_sub, [.obj (.view1D .mat) .s true, .obj (.view1D .mat) .s true, .obj (.view1D .vec) .s false]),
  (.vml_sub, [.obj (.view1D .mat) .s true, .obj (.view1D .mat) .s true, .obj (.view1D .mat) .s false]),
  (.vml_sub, [.obj (.view1D .mat) .s true, .obj (.view1D .mat) .s true, .obj (.view1D .ten) .s false]),
  (.vml_sub, [.obj (.view1D .mat) .s true, .obj (.view1D .ten) .s true, .obj .vector .s false]),
  (.vml_sub, [.obj (.view1D .mat) .s true, .obj (.view1D .ten) .s true, .obj (.view1D .vec) .s false]),
  (.vml_sub, [.obj (.view1D .mat) .s true, .obj (.view1D .ten) .s true, .obj (.view1D .mat) .s false]),
  (.vml_sub, [.obj (.view1D .mat) .s true, .obj (.view1D .ten) .s true, .obj (.view1D .ten) .s false])]

/-- the overloads of `tVmlVec_3` that are declared -/
def hVmlVec_3 : List (Fn × List Par) := [
  (.vml_sub, [.obj (.view1D .ten) .s true, .obj .vector .s true, .obj .vector .s false]),
  (.vml_sub, [.obj (.view1D .ten) .s true, .obj .vector .s true, .obj (.view1D .vec) .s false]),
  (.vml_sub, [.obj (.view1D .ten) .s true, .obj .vector .s true, .obj (.view1D .mat) .s false]),
  (.vml_sub, [.obj (.view1D .ten) .s true, .obj .vector .s true, .obj (.view1D .ten) .s false]),
  (.vml_sub, [.obj (.view1D .ten) .s true, .obj (.view1D .vec) .s true, .obj .vector .s false]),
  (.vml_sub, [.obj (.view1D .ten) .s true, .obj (.view1D .vec) .s true, .obj (.view1D .vec) .s false]),
  (.vml_sub, [.obj (.view1D .ten) .s true, .obj (.view1D .vec) .s true, .obj (.view1D .mat) .s false]),
  (.vml_sub, [.obj (.view1D .ten) .s true, .obj (.view1D .vec) .s true, .obj (.view1D .ten) .s false]),
  (.vml_sub, [.obj (.view1D .ten) .s true, .obj (.view1D .mat) .s true, .obj .vector .s false]),
  (.vml_sub, [.obj (.view1D .ten) .s true, .obj (.view1D .mat) .s true, .obj (.view1D .vec) .s false]),
  (.vml_sub, [.obj (.view1D .ten) .s true, .obj (.view1D .mat) .s true, .obj (.view1D .mat) .s false]),
  (.vml_sub, [.obj (.view1D .ten) .s true, .obj (.view1D .mat) .s true, .obj (.view1D .ten) .s false]),
  (.vml_sub, [.obj (.view1D .ten) .s true, .obj (.view1D .ten) .s true, .obj .vector .s false]),
  (.vml_sub, [.obj (.view1D .ten) .s true, .obj (.view1D .ten) .s true, .obj (.view1D .vec) .s false]),
  (.vml_sub, [.obj (.view1D .ten) .s true, .obj (.view1D .ten) .s true, .obj (.view1D .mat) .s false]),
  (.vml_sub, [.obj (.view1D .ten) .s true, .obj (.view1D .ten) .s true, .obj (.view1D .ten) .s false]),
  (.vml_mul, [.obj .vector .d true, .obj .vector .d true, .obj .vector .d false]),
  (.vml_mul, [.obj .vector .d true, .obj .vector .d true, .obj (.view1D .vec) .d false]),
  (.vml_mul, [.obj .vector .d true, .obj .vector .d true, .obj (.view1D .mat) .d false]),
  (.vml_mul, [.obj .vector .d true, .obj .vector .d true, .obj (.view1D .ten) .d false]),
  (.vml_mul, [.obj .vector .d true, .obj (.view1D .vec) .d true, .obj .vector .d false]),
  (.vml_mul, [.obj .vector .d true, .obj (.view1D .vec) .d true, .obj (.view1D .vec) .d false]),
  (.vml_mul, [.obj .vector .d true, .obj (.view1D .vec) .d true, .obj (.view1D .mat) .d false]),
  (.vml_mul, [.obj .vector .d true, .obj (.view1D .vec) .d true, .obj (.view1D .ten) .d false]),
  (.vml_mul, [.obj .vector .d true, .obj (.view1D .mat) .d true, .obj .vector .d false]),
  (.vml_mul, [.obj .vector .d true, .obj (.view1D .mat) .d true, .obj (.view1D .vec) .d false]),
  (.vml_mul, [.obj .vector .d true, .obj (.view1D .mat) .d true, .obj (.view1D .mat) .d false]),
  (.vml_mul, [.obj .vector .d true, .obj (.view1D .mat) .d true, .obj (.view1D .ten) .d false]),
  (.vml_mul, [.obj .vector .d true, .obj (.view1D .ten) .d true, .obj .vector .d false]),
  (.vml_mul, [.obj .vector .d true, .obj (.view1D .ten) .d true, .obj (.view1D .vec) .d false]),
  (.vml_mul, [.obj .vector .d true, .obj (.view1D .ten) .d true, .obj (.view1D .mat) .d false]),
  (.vml_mul, [.obj .vector .d true, .obj (.view1D .ten) .d true, .obj (.view1D .ten) .d false]),
  (.vml_mul, [.obj (.view1D .vec) .d true, .obj .vector .d true, .obj .vector .d false]),
  (.vml_mul, [.obj (.view1D .vec) .d true, .obj .vector .d true, .obj (.view1D .vec) .d false]),
  (.vml_mul, [.obj (.view1D .vec) .d true, .obj .vector .d true, .obj (.view1D .mat) .d false]),
  (.vml_mul, [.obj (.view1D .vec) .d true, .obj .vector .d true, .obj (.view1D .ten) .d false]),
  (.vml_mul, [.obj (.view1D .vec) .d true, .obj (.view1D .vec) .d true, .obj .vector .d false]),
  (.vml_mul, [.obj (.view1D .vec) .d true, .obj (.view1D .vec) .d true, .obj (.view1D .vec) .d false]),
  (.vml_mul, [.obj (.view1D .vec) .d true, .obj (.view1D .vec) .d true, .obj (.view1D .mat) .d false]),
  (.vml_mul, [.obj (.view1D .vec) .d true, .obj (.view1D .vec) .d true, .obj (.view1D .ten) .d false]),
  (.vml_mul, [.obj (.view1D .vec) .d true, .obj (.view1D .mat) .d true, .obj .vector .d false]),
  (.vml_mul, [.obj (.view1D .vec) .d true, .obj (.view1D .mat) .d true, .obj (.view1D .vec) .d false]),
  (.vml_mul, [.obj (.view1D .vec) .d true, .obj (.view1D .mat) .d true, .obj (.view1D .mat) .d false]),
  (.vml_mul, [.obj (.view1D .vec) .d true, .obj (.view1D .mat) .d true, .obj (.view1D .ten) .d false]),
  (.vml_mul, [.obj (.view1D .vec) .d true, .obj (.view1D .ten) .d true, .obj .vector .d false]),
  (.vml_mul, [.obj (.view1D .vec) .d true, .obj (.view1D .ten) .d true, .obj (.view1D .vec) .d false]),
  (.vml_mul, [.obj (.view1D .vec) .d true, .obj (.view1D .ten) .d true, .obj (.view1D .mat) .d false]),
  (.vml_mul, [.obj (.view1D .vec) .d true, .obj (.view1D .ten) .d true, .obj (.view1D .ten) .d false]),
  (.vml_mul, [.obj (.view1D .mat) .d true, .obj .vector .d true, .obj .vector .d false]),
  (.vml_mul, [.obj (.view1D .mat) .d true, .obj .vector .d true, .obj (.view1D .vec) .d false]),
  (.vml_mul, [.obj (.view1D .mat) .d true, .obj .vector .d true, .obj (.view1D .mat) .d false]),
  (.vml_mul, [.obj (.view1D .mat) .d true, .obj .vector .d true, .obj (.view1D .ten) .d false]),
  (.vml_mul, [.obj (.view1D .mat) .d true, .obj (.view1D .vec) .d true, .obj .vector .d false]),
  (.vml_mul, [.obj (.view1D .mat) .d true, .obj (.view1D .vec) .d true, .obj (.view1D .vec) .d false]),
  (.vml_mul, [.obj (.view1D .mat) .d true, .obj (.view1D .vec) .d true, .obj (.view1D .mat) .d false]),
  (.vml_mul, [.obj (.view1D .mat) .d true, .obj (.view1D .vec) .d true, .obj (.view1D .ten) .d false]),
  (.vml_mul, [.obj (.view1D .mat) .d true, .obj (.view1D .mat) .d true, .obj .vector .d false]),
  (.vml_mul, [.obj (.view1D .mat) .d true, .obj (.view1D .mat) .d true, .obj (.view1D .vec) .d false]),
  (.vml_mul, [.obj (.view1D .mat) .d true, .obj (.view1D .mat) .d true, .obj (.view1D .mat) .d false]),
  (.vml_mul, [.obj (.view1D .mat) .d true, .obj (.view1D .mat) .d true, .obj (.view1D .ten) .d false]),
  (.vml_mul, [.obj (.view1D .mat) .d true, .obj (.view1D .ten) .d true, .obj .vector .d false]),
  (.vml_mul, [.obj (.view1D .mat) .d true, .obj (.view1D .ten) .d true, .obj (.view1D .vec) .d false]),
  (.vml_mul, [.obj (.view1D .mat) .d true, .obj (.view1D .ten) .d true, .obj (.view1D .mat) .d false]),
  (.vml_mul, [.obj (.view1D .mat) .d true, .obj (.view1D .ten) .d true, .obj (.view1D .ten) .d false]),
  (.vml_mul, [.obj (.view1D .ten) .d true, .obj .vector .d true, .obj .vector .d false]),
  (.vml_mul, [.obj (.view1D .ten) .d true, .obj .vector .d true, .obj (.view1D .vec) .d false]),
  (.vml_mul, [.obj (.view1D .ten) .d true, .obj .vector .d true, .obj (.view1D .mat) .d false]),
  (.vml_mul, [.obj (.view1D .ten) .d true, .obj .vector .d true, .obj (.view1D .ten) .d false]),
  (.vml_mul, [.obj (.view1D .ten) .d true, .obj (.view1D .vec) .d true, .obj .vector .d false]),
  (.vml_mul, [.obj (.view1D .ten) .d true, .obj (.view1D .vec) .d true, .obj (.view1D .vec) .d false]),
  (.vml_mul, [.obj (.view1D .ten) .d true, .obj (.view1D .vec) .d true, .obj (.view1D .mat) .d false]),
  (.vml_mul, [.obj (.view1D .ten) .d true, .obj (.view1D .vec) .d true, .obj (.view1D .ten) .d false]),
  (.vml_mul, [.obj (.view1D .ten) .d true, .obj (.view1D .mat) .d true, .obj .vector .d false]),
  (.vml_mul, [.obj (.view1D .ten) .d true, .obj (.view1D .mat) .d true, .obj (.view1D .vec) .d false]),
  (.vml_mul, [.obj (.view1D .ten) .d true, .obj (.view1D .mat) .d true, .obj (.view1D .mat) .d false]),
  (.vml_mul, [.obj (.view1D .ten) .d true, .obj (.view1D .mat) .d true, .obj (.view1D .ten) .d false]),
  (.vml_mul, [.obj (.view1D .ten) .d true, .obj (.view1D .ten) .d true, .obj .vector .d false]),
  (.vml_mul, [.obj (.view1D .ten) .d true, .obj (.view1D .ten) .d true, .obj (.view1D .vec) .d false]),
  (.vml_mul, [.obj (.view1D .ten) .d true, .obj (.view1D .ten) .d true, .obj (.view1D .mat) .d false]),
  (.vml_mul, [.obj (.view1D .ten) .d true, .obj (.view1D .ten) .d true, .obj (.view1D .ten) .d false])]

/-- the overloads of `tVmlVec_4` that are declared -/
def hVmlVec_4 : List (Fn × List Par) := [
  (.vml_mul, [.obj .vector .s true, .obj .vector .s true, .obj .vector .s false]),
  (.vml_mul, [.obj .vector .s true, .obj .vector .s true, .obj (.view1D .vec) .s false]),
  (.vml_mul, [.obj .vector .s true, .obj .vector .s true, .obj (.view1D .mat) .s false]),
  (.vml_mul, [.obj .vector .s true, .obj .vector .s true, .obj (.view1D .ten) .s false]),
  (.vml_mul, [.obj .vector .s true, .obj (.view1D .vec) .s true, .obj .vector .s false]),
  (.vml_mul, [.obj .vector .s true, .obj (.view1D .vec) .s true, .obj (.view1D .vec) .s false]),
  (.vml_mul, [.obj .vector .s true, .obj (.view1D .vec) .s true, .obj (.view1D .mat) .s false]),
  (.vml_mul, [.obj .vector .s true, .obj (.view1D .vec) .s true, .obj (.view1D .ten) .s false]),
  (.vml_mul, [.obj .vector .s true, .obj (.view1D .mat) .s true, .obj .vector .s false]),
  (.vml_mul, [.obj .vector .s true, .obj (.view1D .mat) .s true, .obj (.view1D .vec) .s false]),
  (.vml_mul, [.obj .vector .s true, .obj (.view1D .mat) .s true, .obj (.view1D .mat) .s false]),
  (.vml_mul, [.obj .vector .s true, .obj (.view1D .mat) .s true, .obj (.view1D .ten) .s false]),
  (.vml_mul, [.obj .vector .s true, .obj (.view1D .ten) .s true, .obj .vector .s false]),
  (.vml_mul, [.obj .vector .s true, .obj (.view1D .ten) .s true, .obj (.view1D .vec) .s false]),
  (.vml_mul, [.obj .vector .s true, .obj (.view1D .ten) .s true, .obj (.view1D .mat) .s false]),
  (.vml_mul, [.obj .vector .s true, .obj (.view1D .ten) .s true, .obj (.view1D .ten) .s false]),
  (.vml_mul, [.obj (.view1D .vec) .s true, .obj .vector .s true, .obj .vector .s false]),
  (.vml_mul, [.obj (.view1D .vec) .s true, .obj .vector .s true, .obj (.view1D .vec) .s false]),
  (.vml_mul, [.obj (.view1D .vec) .s true, .obj .vector .s true, .obj (.view1D .mat) .s false]),
  (.vml_mul, [.obj (.view1D .vec) .s true, .obj .vector .s true, .obj (.view1D .ten) .s false]),
  (.vml_mul, [.obj (.view1D .vec) .s true, .obj (.view1D .vec) .s true, .obj .vector .s false]),
  (.vml_mul, [.obj (.view1D .vec) .s true, .obj (.view1D .vec) .s true, .obj (.view1D .vec) .s false]),
  (.vml_mul, [.obj (.view1D .vec) .s true, .obj (.view1D .vec) .s true, .obj (.view1D .mat) .s false]),
  (.vml_mul, [.obj (.view1D .vec) .s true, .obj (.view1D .vec) .s true, .obj (.view1D .ten) .s false]),
  (.vml_mul, [.obj (.view1D .vec) .s true, .obj (.view1D .mat) .s true, .obj .vector .s false]),
  (.vml_mul, [.obj (.view1D .vec) .s true, .obj (.view1D .mat) .s true, .obj (.view1D .vec) .s false]),
  (.vml_mul, [.obj (.view1D .vec) .s true, .obj (.view1D .mat) .s true, .obj (.view1D .mat) .s false]),
  (.vml_mul, [.obj (.view1D .vec) .s true, .obj (.view1D .mat) .s true, .obj (.view1D .ten) .s false]),
  (.vml_mul, [.obj (.view1D .vec) .s true, .obj (.view1D .ten) .s true, .obj .vector .s false]),
  (.vml_mul, [.obj (.view1D .vec) .s true, .obj (.view1D .ten) .s true, .obj (.view1D .vec) .s false]),
  (.vml_mul, [.obj (.view1D .vec) .s true, .obj (.view1D .ten) .s true, .obj (.view1D .mat) .s false]),
  (.vml_mul, [.obj (.view1D .vec) .s true, .obj (.view1D .ten) .s true, .obj (.view1D .ten) .s false]),
  (.vml_mul, [.obj (.view1D .mat) .s true, .obj .vector .s true, .obj .vector .s false]),
  (.vml_mul, [.obj (.view1D .mat) .s true, .obj .vector .s true, .obj (.view1D .vec) .s false]),
  (.vml_mul, [.obj (.view1D .mat) .s true, .obj .vector .s true, .obj (.view1D .mat) .s false]),
  (.vml_mul, [.obj (.view1D .mat) .s true, .obj .vector .s true, .obj (.view1D .ten) .s false]),
  (.vml_mul, [.obj (.view1D .mat) .s true, .obj (.view1D .vec) .s true, .obj .vector .s false]),
  (.vml_mul, [.obj (.view1D .mat) .s true, .obj (.view1D .vec) .s true, .obj (.view1D .vec) .s false]),
  (.vml_mul, [.obj (.view1D .mat) .s true, .obj (.view1D .vec) .s true, .obj (.view1D .mat) .s false]),
  (.vml_mul, [.obj (.view1D .mat) .s true, .obj (.view1D .vec) .s true, .obj (.view1D .ten) .s false]),
  (.vml_mul, [.obj (.view1D .mat) .s true, .obj (.view1D .mat) .s true, .obj .vector .s false]),
  (.vml_mul, [.obj (.view1D .mat) .s true, .obj (.view1D .mat) .s true, .obj (.view1D .vec) .s false]),
  (.vml_mul, [.obj (.view1D .mat) .s true, .obj (.view1D .mat) .s true, .obj (.view1D .mat) .s false]),
  (.vml_mul, [.obj (.view1D .mat) .s true, .obj (.view1D .mat) .s true, .obj (.view1D .ten) .s false]),
  (.vml_mul, [.obj (.view1D .mat) .s true, .obj (.view1D .ten) .s true, .obj .vector .s false]),
  (.vml_mul, [.obj (.view1D .mat) .s true, .obj (.view1D .ten) .s true, .obj (.view1D .vec) .s false]),
  (.vml_mul, [.obj (.view1D .mat) .s true, .obj (.view1D .ten) .s true, .obj (.view1D .mat) .s false]),
  (.vml_mul, [.obj (.view1D .mat) .s true, .obj (.view1D .ten) .s true, .obj (.view1D .ten) .s false]),
  (.vml_mul, [.obj (.view1D .ten) .s true, .obj .vector .s true, .obj .vector .s false]),
  (.vml_mul, [.obj (.view1D .ten) .s true, .obj .vector .s true, .obj (.view1D .vec) .s false]),
  (.vml_mul, [.obj (.view1D .ten) .s true, .obj .vector .s true, .obj (.view1D .mat) .s false]),
  (.vml_mul, [.obj (.view1D .ten) .s true, .obj .vector .s true, .obj (.view1D .ten) .s false]),
  (.vml_mul, [.obj (.view1D .ten) .s true, .obj (.view1D .vec) .s true, .obj .vector .s false]),
  (.vml_mul, [.obj (.view1D .ten) .s true, .obj (.view1D .vec) .s true, .obj (.view1D .vec) .s false]),
  (.vml_mul, [.obj (.view1D .ten) .s true, .obj (.view1D .vec) .s true, .obj (.view1D .mat) .s false]),
  (.vml_mul, [.obj (.view1D .ten) .s true, .obj (.view1D .vec) .s true, .obj (.view1D .ten) .s false]),
  (.vml_mul, [.obj (.view1D .ten) .s true, .obj (.view1D .mat) .s true, .obj .vector .s false]),
  (.vml_mul, [.obj (.view1D .ten) .s true, .obj (.view1D .mat) .s true, .obj (.view1D .vec) .s false]),
  (.vml_mul, [.obj (.view1D .ten) .s true, .obj (.view1D .mat) .s true, .obj (.view1D .mat) .s false]),
  (.vml_mul, [.obj (.view1D .ten) .s true, .obj (.view1D .mat) .s true, .obj (.view1D .ten) .s false]),
  (.vml_mul, [.obj (.view1D .ten) .s true, .obj (.view1D .ten) .s true, .obj .vector .s false]),
  (.vml_mul, [.obj (.view1D .ten) .s true, .obj (.view1D .ten) .s true, .obj (.view1D .vec) .s false]),
  (.vml_mul, [.obj (.view1D .ten) .s true, .obj (.view1D .ten) .s true, .obj (.view1D .mat) .s false]),
  (.vml_mul, [.obj (.view1D .ten) .s true, .obj (.view1D .ten) .s true, .obj (.view1D .ten) .s false]),
  (.vml_div, [.obj .vector .d true, .obj .vector .d true, .obj .vector .d false]),
  (.vml_div, [.obj .vector .d true, .obj .vector .d true, .obj (.view1D .vec) .d false]),
  (.vml_div, [.obj .vector .d true, .obj .vector .d true, .obj (.view1D .mat) .d false]),
  (.vml_div, [.obj .vector .d true, .obj .vector .d true, .obj (.view1D .ten) .d false]),
  (.vml_div, [.obj .vector .d true, .obj (.view1D .vec) .d true, .obj .vector .d false]),
  (.vml_div, [.obj .vector .d true, .obj (.view1D .vec) .d true, .obj (.view1D .vec) .d false]),
  (.vml_div, [.obj .vector .d true, .obj (.view1D .vec) .d true, .obj (.view1D .mat) .d false]),
  (.vml_div, [.obj .vector .d true, .obj (.view1D .vec) .d true, .obj (.view1D .ten) .d false]),
  (.vml_div, [.obj .vector .d true, .obj (.view1D .mat) .d true, .obj .vector .d false]),
  (.vml_div, [.obj .vector .d true, .obj (.view1D .mat) .d true, .obj (.view1D .vec) .d false]),
  (.vml_div, [.obj .vector .d true, .obj (.view1D .mat) .d true, .obj (.view1D .mat) .d false]),
  (.vml_div, [.obj .vector .d true, .obj (.view1D .mat) .d true, .obj (.view1D .ten) .d false]),
  (.vml_div, [.obj .vector .d true, .obj (.view1D .ten) .d true, .obj .vector .d false]),
  (.vml_div, [.obj .vector .d true, .obj (.view1D .ten) .d true, .obj (.view1D .vec) .d false]),
  (.vml_div, [.obj .vector .d true, .obj (.view1D .ten) .d true, .obj (.view1D .mat) .d false]),
  (.vml_div, [.obj .vector .d true, .obj (.view1D .ten) .d true, .obj (.view1D .ten) .d false])]

/-- the overloads of `tVmlVec_5` that are declared -/
def hVmlVec_5 : List (Fn × List Par) := [
  (.vml_div, [.obj (.view1D .vec) .d true, .obj .vector .d true, .obj .vector .d false]),
  (.vml_div, [.obj (.view1D .vec) .d true, .obj .vector .d true, .obj (.view1D .vec) .d false]),
  (.vml_div, [.obj (.view1D .vec) .d true, .obj .vector .d true, .obj (.view1D .mat) .d false]),
  (.vml_div, [.obj (.view1D .vec) .d true, .obj .vector .d true, .obj (.view1D .ten) .d false]),
  (.vml_div, [.obj (.view1D .vec) .d true, .obj (.view1D .vec) .d true, .obj .vector .d false]),
  (.vml_div, [.obj (.view1D .vec) .d true, .obj (.view1D .vec) .d true, .obj (.view1D .vec) .d false]),
  (.vml_div, [.obj (.view1D .vec) .d true, .obj (.view1D .vec) .d true, .obj (.view1D .mat) .d false]),
  (.vml_div, [.obj (.view1D .vec) .d true, .obj (.view1D .vec) .d true, .obj (.view1D .ten) .d false]),
  (.vml_div, [.obj (.view1D .vec) .d true, .obj (.view1D .mat) .d true, .obj .vector .d false]),
  (.vml_div, [.obj (.view1D .vec) .d true, .obj (.view1D .mat) .d true, .obj (.view1D .vec) .d false]),
  (.vml_div, [.obj (.view1D .vec) .d true, .obj (.view1D .mat) .d true, .obj (.view1D .mat) .d false]),
  (.vml_div, [.obj (.view1D .vec) .d true, .obj (.view1D .mat) .d true, .obj (.view1D .ten) .d false]),
  (.vml_div, [.obj (.view1D .vec) .d true, .obj (.view1D .ten) .d true, .obj .vector .d false]),
  (.vml_div, [.obj (.view1D .vec) .d true, .obj (.view1D .ten) .d true, .obj (.view1D .vec) .d false]),
  (.vml_div, [.obj (.view1D .vec) .d true, .obj (.view1D .ten) .d true, .obj (.view1D .mat) .d false]),
  (.vml_div, [.obj (.view1D .vec) .d true, .obj (.view1D .ten) .d true, .obj (.view1D .ten) .d false]),
  (.vml_div, [.obj (.view1D .mat) .d true, .obj .vector .d true, .obj .vector .d false]),
  (.vml_div, [.obj (.view1D .mat) .d true, .obj .vector .d true, .obj (.view1D .vec) .d false]),
  (.vml_div, [.obj (.view1D .mat) .d true, .obj .vector .d true, .obj (.view1D .mat) .d false]),
  (.vml_div, [.obj (.view1D .mat) .d true, .obj .vector .d true, .obj (.view1D .ten) .d false]),
  (.vml_div, [.obj (.view1D .mat) .d true, .obj (.view1D .vec) .d true, .obj .vector .d false]),
  (.vml_div, [.obj (.view1D .mat) .d true, .obj (.view1D .vec) .d true, .obj (.view1D .vec) .d false]),
  (.vml_div, [.obj (.view1D .mat) .d true, .obj (.view1D .vec) .d true, .obj (.view1D .mat) .d false]),
  (.vml_div, [.obj (.view1D .mat) .d true, .obj (.view1D .vec) .d true, .obj (.view1D .ten) .d false]),
  (.vml_div, [.obj (.view1D .mat) .d true, .obj (.view1D .mat) .d true, .obj .vector .d false]),
  (.vml_div, [.obj (.view1D .mat) .d true, .obj (.view1D .mat) .d true, .obj (.view1D .vec) .d false]),
  (.vml_div, [.obj (.view1D .mat) .d true, .obj (.view1D .mat) .d true, .obj (.view1D .mat) .d false]),
  (.vml_div, [.obj (.view1D .mat) .d true, .obj (.view1D .mat) .d true, .obj (.view1D .ten) .d false]),
  (.vml_div, [.obj (.view1D .mat) .d true, .obj (.view1D .ten) .d true, .obj .vector .d false]),
  (.vml_div, [.obj (.view1D .mat) .d true, .obj (.view1D .ten) .d true, .obj (.view1D .vec) .d false]),
  (.vml_div, [.obj (.view1D .mat) .d true, .obj (.view1D .ten) .d true, .obj (.view1D .mat) .d false]),
  (.vml_div, [.obj (.view1D .mat) .d true, .obj (.view1D .ten) .d true, .obj (.view1D .ten) .d false]),
  (.vml_div, [.obj (.view1D .ten) .d true, .obj .vector .d true, .obj .vector .d false]),
  (.vml_div, [.obj (.view1D .ten) .d true, .obj .vector .d true, .obj (.view1D .vec) .d false]),
  (.vml_div, [.obj (.view1D .ten) .d true, .obj .vector .d true, .obj (.view1D .mat) .d false]),
  (.vml_div, [.obj (.view1D .ten) .d true, .obj .vector .d true, .obj (.view1D .ten) .d false]),
  (.vml_div, [.obj (.view1D .ten) .d true, .obj (.view1D .vec) .d true, .obj .vector .d false]),
  (.vml_div, [.obj (.view1D .ten) .d true, .obj (.view1D .vec) .d true, .obj (.view1D .vec) .d false]),
  (.vml_div, [.obj (.view1D .ten) .d true, .obj (.view1D .vec) .d true, .obj (.view1D .mat) .d false]),
  (.vml_div, [.obj (.view1D .ten) .d true, .obj (.view1D .vec) .d true, .obj (.view1D .ten) .d false]),
  (.vml_div, [.obj (.view1D .ten) .d true, .obj (.view1D .mat) .d true, .obj .vector .d false]),
  (.vml_div, [.obj (.view1D .ten) .d true, .obj (.view1D .mat) .d true, .obj (.view1D .vec) .d false]),
  (.vml_div, [.obj (.view1D .ten) .d true, .obj (.view1D .mat) .d true, .obj (.view1D .mat) .d false]),
  (.vml_div, [.obj (.view1D .ten) .d true, .obj (.view1D .mat) .d true, .obj (.view1D .ten) .d false]),
  (.vml_div, [.obj (.view1D .ten) .d true, .obj (.view1D .ten) .d true, .obj .vector .d false]),
  (.vml_div, [.obj (.view1D .ten) .d true, .obj (.view1D .ten) .d true, .obj (.view1D .vec) .d false]),
  (.vml_div, [.obj (.view1D .ten) .d true, .obj (.view1D .ten) .d true, .obj (.view1D .mat) .d false]),
  (.vml_div, [.obj (.view1D .ten) .d true, .obj (.view1D .ten) .d true, .obj (.view1D .ten) .d false]),
  (.vml_div, [.obj .vector .s true, .obj .vector .s true, .obj .vector .s false]),
  (.vml_div, [.obj .vector .s true, .obj .vector .s true, .obj (.view1D .vec) .s false]),
  (.vml_div, [.obj .vector .s true, .obj .vector .s true, .obj (.view1D .mat) .s false]),
  (.vml_div, [.obj .vector .s true, .obj .vector .s true, .obj (.view1D .ten) .s false]),
  (.vml_div, [.obj .vector .s true, .obj (.view1D .vec) .s true, .obj .vector .s false]),
  (.vml_div, [.obj .vector .s true, .obj (.view1D .vec) .s true, .obj (.view1D .vec) .s false]),
  (.vml_div, [.obj .vector .s true, .obj (.view1D .vec) .s true, .obj (.view1D .mat) .s false]),
  (.vml_div, [.obj .vector .s true, .obj (.view1D .vec) .s true, .obj (.view1D .ten) .s false]),
  (.vml_div, [.obj .vector .s true, .obj (.view1D .mat) .s true, .obj .vector .s false]),
  (.vml_div, [.obj .vector .s true, .obj (.view1D .mat) .s true, .obj (.view1D .vec) .s false]),
  (.vml_div, [.obj .vector .s true, .obj (.view1D .mat) .s true, .obj (.view1D .mat) .s false]),
  (.vml_div, [.obj .vector .s true, .obj (.view1D .mat) .s true, .obj (.view1D .ten) .s false]),
  (.vml_div, [.obj .vector .s true, .obj (.view1D .ten) .s true, .obj .vector .s false]),
  (.vml_div, [.obj .vector .s true, .obj (.view1D .ten) .s true, .obj (.view1D .vec) .s false]),
  (.vml_div, [.obj .vector .s true, .obj (.view1D .ten) .s true, .obj (.view1D .mat) .s false]),
  (.vml_div, [.obj .vector .s true, .obj (.view1D .ten) .s true, .obj (.view1D .ten) .s false]),
  (.vml_div, [.obj (.view1D .vec) .s true, .obj .vector .s true, .obj .vector .s false]),
  (.vml_div, [.obj (.view1D .vec) .s true, .obj .vector .s true, .obj (.view1D .vec) .s false]),
  (.vml_div, [.obj (.view1D .vec) .s true, .obj .vector .s true, .obj (.view1D .mat) .s false]),
  (.vml_div, [.obj (.view1D .vec) .s true, .obj .vector .s true, .obj (.view1D .ten) .s false]),
  (.vml_div, [.obj (.view1D .vec) .s true, .obj (.view1D .vec) .s true, .obj .vector .s false]),
  (.vml_div, [.obj (.view1D .vec) .s true, .obj (.view1D .vec) .s true, .obj (.view1D .vec) .s false]),
  (.vml_div, [.obj (.view1D .vec) .s true, .obj (.view1D .vec) .s true, .obj (.view1D .mat) .s false]),
  (.vml_div, [.obj (.view1D .vec) .s true, .obj (.view1D .vec) .s true, .obj (.view1D .ten) .s false]),
  (.vml_div, [.obj (.view1D .vec) .s true, .obj (.view1D .mat) .s true, .obj .vector .s false]),
  (.vml_div, [.obj (.view1D .vec) .s true, .obj (.view1D .mat) .s true, .obj (.view1D .vec) .s false]),
  (.vml_div, [.obj (.view1D .vec) .s true, .obj (.view1D .mat) .s true, .obj (.view1D .mat) .s false]),
  (.vml_div, [.obj (.view1D .vec) .s true, .obj (.view1D .mat) .s true, .obj (.view1D .ten) .s false]),
  (.vml_div, [.obj (.view1D .vec) .s true, .obj (.view1D .ten) .s true, .obj .vector .s false]),
  (.vml_div, [.obj (.view1D .vec) .s true, .obj (.view1D .ten) .s true, .obj (.view1D .vec) .s false]),
  (.vml_div, [.obj (.view1D .vec) .s true, .obj (.view1D .ten) .s true, .obj (.view1D .mat) .s false]),
  (.vml_div, [.obj (.view1D .vec) .s true, .obj (.view1D .ten) .s true, .obj (.view1D .ten) .s false])]

/-- the overloads of `tVmlVec_6` that are declared -/
def hVmlVec_6 : List (Fn × List Par) := [
  (.vml_div, [.obj (.view1D .mat) .s true, .obj .vector .s true, .obj .vector .s false]),
  (.vml_div, [.obj (.view1D .mat) .s true, .obj .vector .s true, .obj (.view1D .vec) .s false]),
  (.vml_div, [.obj (.view1D .mat) .s true, .obj .vector .s true, .obj (.view1D .mat) .s false]),
  (.vml_div, [.obj (.view1D .mat) .s true, .obj .vector .s true, .obj (.view1D .ten) .s false]),
  (.vml_div, [.obj (.view1D .mat) .s true, .obj (.view1D .vec) .s true, .obj .vector .s false]),
  (.vml_div, [.obj (.view1D .mat) .s true, .obj (.view1D .vec) .s true, .obj (.view1D .vec) .s false]),
  (.vml_div, [.obj (.view1D .mat) .s true, .obj (.view1D .vec) .s true, .obj (.view1D .mat) .s false]),
  (.vml_div, [.obj (.view1D .mat) .s true, .obj (.view1D .vec) .s true, .obj (.view1D .ten) .s false]),
  (.vml_div, [.obj (.view1D .mat) .s true, .obj (.view1D .mat) .s true, .obj .vector .s false]),
  (.vml_div, [.obj (.view1D .mat) .s true, .obj (.view1D .mat) .s true, .obj (.view1D .vec) .s false]),
  (.vml_div, [.obj (.view1D .mat) .s true, .obj (.view1D .mat) .s true, .obj (.view1D .mat) .s false]),
  (.vml_div, [.obj (.view1D .mat) .s true, .obj (.view1D .mat) .s true, .obj (.view1D .ten) .s false]),
  (.vml_div, [.obj (.view1D .mat) .s true, .obj (.view1D .ten) .s true, .obj .vector .s false]),
  (.vml_div, [.obj (.view1D .mat) .s true, .obj (.view1D .ten) .s true, .obj (.view1D .vec) .s false]),
  (.vml_div, [.obj (.view1D .mat) .s true, .obj (.view1D .ten) .s true, .obj (.view1D .mat) .s false]),
  (.vml_div, [.obj (.view1D .mat) .s true, .obj (.view1D .ten) .s true, .obj (.view1D .ten) .s false]),
  (.vml_div, [.obj (.view1D .ten) .s true, .obj .vector .s true, .obj .vector .s false]),
  (.vml_div, [.obj (.view1D .ten) .s true, .obj .vector .s true, .obj (.view1D .vec) .s false]),
  (.vml_div, [.obj (.view1D .ten) .s true, .obj .vector .s true, .obj (.view1D .mat) .s false]),
  (.vml_div, [.obj (.view1D .ten) .s true, .obj .vector .s true, .obj (.view1D .ten) .s false]),
  (.vml_div, [.obj (.view1D .ten) .s true, .obj (.view1D .vec) .s true, .obj .vector .s false]),
  (.vml_div, [.obj (.view1D .ten) .s true, .obj (.view1D .vec) .s true, .obj (.view1D .vec) .s false]),
  (.vml_div, [.obj (.view1D .ten) .s true, .obj (.view1D .vec) .s true, .obj (.view1D .mat) .s false]),
  (.vml_div, [.obj (.view1D .ten) .s true, .obj (.view1D .vec) .s true, .obj (.view1D .ten) .s false]),
  (.vml_div, [.obj (.view1D .ten) .s true, .obj (.view1D .mat) .s true, .obj .vector .s false]),
  (.vml_div, [.obj (.view1D .ten) .s true, .obj (.view1D .mat) .s true, .obj (.view1D .vec) .s false]),
  (.vml_div, [.obj (.view1D .ten) .s true, .obj (.view1D .mat) .s true, .obj (.view1D .mat) .s false]),
  (.vml_div, [.obj (.view1D .ten) .s true, .obj (.view1D .mat) .s true, .obj (.view1D .ten) .s false]),
  (.vml_div, [.obj (.view1D .ten) .s true, .obj (.view1D .ten) .s true, .obj .vector .s false]),
  (.vml_div, [.obj (.view1D .ten) .s true, .obj (.view1D .ten) .s true, .obj (.view1D .vec) .s false]),
  (.vml_div, [.obj (.view1D .ten) .s true, .obj (.view1D .ten) .s true, .obj (.view1D .mat) .s false]),
  (.vml_div, [.obj (.view1D .ten) .s true, .obj (.view1D .ten) .s true, .obj (.view1D .ten) .s false]),
  (.vml_add, [.obj .vector .d true, .scal .d, .obj .vector .d false]),
  (.vml_add, [.obj .vector .d true, .scal .d, .obj (.view1D .vec) .d false]),
  (.vml_add, [.obj .vector .d true, .scal .d, .obj (.view1D .mat) .d false]),
  (.vml_add, [.obj .vector .d true, .scal .d, .obj (.view1D .ten) .d false]),
  (.vml_add, [.obj (.view1D .vec) .d true, .scal .d, .obj .vector .d false]),
  (.vml_add, [.obj (.view1D .vec) .d true, .scal .d, .obj (.view1D .vec) .d false]),
  (.vml_add, [.obj (.view1D .vec) .d true, .scal .d, .obj (.view1D .mat) .d false]),
  (.vml_add, [.obj (.view1D .vec) .d true, .scal .d, .obj (.view1D .ten) .d false]),
  (.vml_add, [.obj (.view1D .mat) .d true, .scal .d, .obj .vector .d false]),
  (.vml_add, [.obj (.view1D .mat) .d true, .scal .d, .obj (.view1D .vec) .d false]),
  (.vml_add, [.obj (.view1D .mat) .d true, .scal .d, .obj (.view1D .mat) .d false]),
  (.vml_add, [.obj (.view1D .mat) .d true, .scal .d, .obj (.view1D .ten) .d false]),
  (.vml_add, [.obj (.view1D .ten) .d true, .scal .d, .obj .vector .d false]),
  (.vml_add, [.obj (.view1D .ten) .d true, .scal .d, .obj (.view1D .vec) .d false]),
  (.vml_add, [.obj (.view1D .ten) .d true, .scal .d, .obj (.view1D .mat) .d false]),
  (.vml_add, [.obj (.view1D .ten) .d true, .scal .d, .obj (.view1D .ten) .d false]),
  (.vml_add, [.obj .vector .s true, .scal .s, .obj .vector .s false]),
  (.vml_add, [.obj .vector .s true, .scal .s, .obj (.view1D .vec) .s false]),
  (.vml_add, [.obj .vector .s true, .scal .s, .obj (.view1D .mat) .s false]),
  (.vml_add, [.obj .vector .s true, .scal .s, .obj (.view1D .ten) .s false]),
  (.vml_add, [.obj (.view1D .vec) .s true, .scal .s, .obj .vector .s false]),
  (.vml_add, [.obj (.view1D .vec) .s true, .scal .s, .obj (.view1D .vec) .s false]),
  (.vml_add, [.obj (.view1D .vec) .s true, .scal .s, .obj (.view1D .mat) .s false]),
  (.vml_add, [.obj (.view1D .vec) .s true, .scal .s, .obj (.view1D .ten) .s false]),
  (.vml_add, [.obj (.view1D .mat) .s true, .scal .s, .obj .vector .s false]),
  (.vml_add, [.obj (.view1D .mat) .s true, .scal .s, .obj (.view1D .vec) .s false]),
  (.vml_add, [.obj (.view1D .mat) .s true, .scal .s, .obj (.view1D .mat) .s false]),
  (.vml_add, [.obj (.view1D .mat) .s true, .scal .s, .obj (.view1D .ten) .s false]),
  (.vml_add, [.obj (.view1D .ten) .s true, .scal .s, .obj .vector .s false]),
  (.vml_add, [.obj (.view1D .ten) .s true, .scal .s, .obj (.view1D .vec) .s false]),
  (.vml_add, [.obj (.view1D .ten) .s true, .scal .s, .obj (.view1D .mat) .s false]),
  (.vml_add, [.obj (.view1D .ten) .s true, .scal .s, .obj (.view1D .ten) .s false]),
  (.vml_sub, [.obj .vector .d true, .scal .d, .obj .vector .d false]),
  (.vml_sub, [.obj .vector .d true, .scal .d, .obj (.view1D .vec) .d false]),
  (.vml_sub, [.obj .vector .d true, .scal .d, .obj (.view1D .mat) .d false]),
  (.vml_sub, [.obj .vector .d true, .scal .d, .obj (.view1D .ten) .d false]),
  (.vml_sub, [.obj (.view1D .vec) .d true, .scal .d, .obj .vector .d false]),
  (.vml_sub, [.obj (.view1D .vec) .d true, .scal .d, .obj (.view1D .vec) .d false]),
  (.vml_sub, [.obj (.view1D .vec) .d true, .scal .d, .obj (.view1D .mat) .d false]),
  (.vml_sub, [.obj (.view1D .vec) .d true, .scal .d, .obj (.view1D .ten) .d false]),
  (.vml_sub, [.obj (.view1D .mat) .d true, .scal .d, .obj .vector .d false]),
  (.vml_sub, [.obj (.view1D .mat) .d true, .scal .d, .obj (.view1D .vec) .d false]),
  (.vml_sub, [.obj (.view1D .mat) .d true, .scal .d, .obj (.view1D .mat) .d false]),
  (.vml_sub, [.obj (.view1D .mat) .d true, .scal .d, .obj (.view1D .ten) .d false]),
  (.vml_sub, [.obj (.view1D .ten) .d true, .scal .d, .obj .vector .d false]),
  (.vml_sub, [.obj (.view1D .ten) .d true, .scal .d, .obj (.view1D .vec) .d false]),
  (.vml_sub, [.obj (.view1D .ten) .d true, .scal .d, .obj (.view1D .mat) .d false]),
  (.vml_sub, [.obj (.view1D .ten) .d true, .scal .d, .obj (.view1D .ten) .d false])]

/-- the overloads of `tVmlVec_7` that are declared -/
def hVmlVec_7 : List (Fn × List Par) := [
  (.vml_sub, [.obj .vector .s true, .scal .s, .obj .vector .s false]),
  (.vml_sub, [.obj .vector .s true, .scal .s, .obj (.view1D .vec) .s false]),
  (.vml_sub, [.obj .vector .s true, .scal .s, .obj (.view1D .mat) .s false]),
  (.vml_sub, [.obj .vector .s true, .scal .s, .obj (.view1D .ten) .s false]),
  (.vml_sub, [.obj (.view1D .vec) .s true, .scal .s, .obj .vector .s false]),
  (.vml_sub, [.obj (.view1D .vec) .s true, .scal .s, .obj (.view1D .vec) .s false]),
  (.vml_sub, [.obj (.view1D .vec) .s true, .scal .s, .obj (.view1D .mat) .s false]),
  (.vml_sub, [.obj (.view1D .vec) .s true, .scal .s, .obj (.view1D .ten) .s false]),
  (.vml_sub, [.obj (.view1D .mat) .s true, .scal .s, .obj .vector .s false]),
  (.vml_sub, [.obj (.view1D .mat) .s true, .scal .s, .obj (.view1D .vec) .s false]),
  (.vml_sub, [.obj (.view1D .mat) .s true, .scal .s, .obj (.view1D .mat) .s false]),
  (.vml_sub, [.obj (.view1D .mat) .s true, .scal .s, .obj (.view1D .ten) .s false]),
  (.vml_sub, [.obj (.view1D .ten) .s true, .scal .s, .obj .vector .s false]),
  (.vml_sub, [.obj (.view1D .ten) .s true, .scal .s, .obj (.view1D .vec) .s false]),
  (.vml_sub, [.obj (.view1D .ten) .s true, .scal .s, .obj (.view1D .mat) .s false]),
  (.vml_sub, [.obj (.view1D .ten) .s true, .scal .s, .obj (.view1D .ten) .s false]),
  (.vml_mul, [.obj .vector .d true, .scal .d, .obj .vector .d false]),
  (.vml_mul, [.obj .vector .d true, .scal .d, .obj (.view1D .vec) .d false]),
  (.vml_mul, [.obj .vector .d true, .scal .d, .obj (.view1D .mat) .d false]),
  (.vml_mul, [.obj .vector .d true, .scal .d, .obj (.view1D .ten) .d false]),
  (.vml_mul, [.obj (.view1D .vec) .d true, .scal .d, .obj .vector .d false]),
  (.vml_mul, [.obj (.view1D .vec) .d true, .scal .d, .obj (.view1D .vec) .d false]),
  (.vml_mul, [.obj (.view1D .vec) .d true, .scal .d, .obj (.view1D .mat) .d false]),
  (.vml_mul, [.obj (.view1D .vec) .d true, .scal .d, .obj (.view1D .ten) .d false]),
  (.vml_mul, [.obj (.view1D .mat) .d true, .scal .d, .obj .vector .d false]),
  (.vml_mul, [.obj (.view1D .mat) .d true, .scal .d, .obj (.view1D .vec) .d false]),
  (.vml_mul, [.obj (.view1D .mat) .d true, .scal .d, .obj (.view1D .mat) .d false]),
  (.vml_mul, [.obj (.view1D .mat) .d true, .scal .d, .obj (.view1D .ten) .d false]),
  (.vml_mul, [.obj (.view1D .ten) .d true, .scal .d, .obj .vector .d false]),
  (.vml_mul, [.obj (.view1D .ten) .d true, .scal .d, .obj (.view1D .vec) .d false]),
  (.vml_mul, [.obj (.view1D .ten) .d true, .scal .d, .obj (.view1D .mat) .d false]),
  (.vml_mul, [.obj (.view1D .ten) .d true, .scal .d, .obj (.view1D .ten) .d false]),
  (.vml_mul, [.obj .vector .s true, .scal .s, .obj .vector .s false]),
  (.vml_mul, [.obj .vector .s true, .scal .s, .obj (.view1D .vec) .s false]),
  (.vml_mul, [.obj .vector .s true, .scal .s, .obj (.view1D .mat) .s false]),
  (.vml_mul, [.obj .vector .s true, .scal .s, .obj (.view1D .ten) .s false]),
  (.vml_mul, [.obj (.view1D .vec) .s true, .scal .s, .obj .vector .s false]),
  (.vml_mul, [.obj (.view1D .vec) .s true, .scal .s, .obj (.view1D .vec) .s false]),
  (.vml_mul, [.obj (.view1D .vec) .s true, .scal .s, .obj (.view1D .mat) .s false]),
  (.vml_mul, [.obj (.view1D .vec) .s true, .scal .s, .obj (.view1D .ten) .s false]),
  (.vml_mul, [.obj (.view1D .mat) .s true, .scal .s, .obj .vector .s false]),
  (.vml_mul, [.obj (.view1D .mat) .s true, .scal .s, .obj (.view1D .vec) .s false]),
  (.vml_mul, [.obj (.view1D .mat) .s true, .scal .s, .obj (.view1D .mat) .s false]),
  (.vml_mul, [.obj (.view1D .mat) .s true, .scal .s, .obj (.view1D .ten) .s false]),
  (.vml_mul, [.obj (.view1D .ten) .s true, .scal .s, .obj .vector .s false]),
  (.vml_mul, [.obj (.view1D .ten) .s true, .scal .s, .obj (.view1D .vec) .s false]),
  (.vml_mul, [.obj (.view1D .ten) .s true, .scal .s, .obj (.view1D .mat) .s false]),
  (.vml_mul, [.obj (.view1D .ten) .s true, .scal .s, .obj (.view1D .ten) .s false]),
  (.vml_div, [.obj .vector .d true, .scal .d, .obj .vector .d false]),
  (.vml_div, [.obj .vector .d true, .scal .d, .obj (.view1D .vec) .d false]),
  (.vml_div, [.obj .vector .d true, .scal .d, .obj (.view1D .mat) .d false]),
  (.vml_div, [.obj .vector .d true, .scal .d, .obj (.view1D .ten) .d false]),
  (.vml_div, [.obj (.view1D .vec) .d true, .scal .d, .obj .vector .d false]),
  (.vml_div, [.obj (.view1D .vec) .d true, .scal .d, .obj (.view1D .vec) .d false]),
  (.vml_div, [.obj (.view1D .vec) .d true, .scal .d, .obj (.view1D .mat) .d false]),
  (.vml_div, [.obj (.view1D .vec) .d true, .scal .d, .obj (.view1D .ten) .d false]),
  (.vml_div, [.obj (.view1D .mat) .d true, .scal .d, .obj .vector .d false]),
  (.vml_div, [.obj (.view1D .mat) .d true, .scal .d, .obj (.view1D .vec) .d false]),
  (.vml_div, [.obj (.view1D .mat) .d true, .scal .d, .obj (.view1D .mat) .d false]),
  (.vml_div, [.obj (.view1D .mat) .d true, .scal .d, .obj (.view1D .ten) .d false]),
  (.vml_div, [.obj (.view1D .ten) .d true, .scal .d, .obj .vector .d false]),
  (.vml_div, [.obj (.view1D .ten) .d true, .scal .d, .obj (.view1D .vec) .d false]),
  (.vml_div, [.obj (.view1D .ten) .d true, .scal .d, .obj (.view1D .mat) .d false]),
  (.vml_div, [.obj (.view1D .ten) .d true, .scal .d, .obj (.view1D .ten) .d false]),
  (.vml_div, [.obj .vector .s true, .scal .s, .obj .vector .s false]),
  (.vml_div, [.obj .vector .s true, .scal .s, .obj (.view1D .vec) .s false]),
  (.vml_div, [.obj .vector .s true, .scal .s, .obj (.view1D .mat) .s false]),
  (.vml_div, [.obj .vector .s true, .scal .s, .obj (.view1D .ten) .s false]),
  (.vml_div, [.obj (.view1D .vec) .s true, .scal .s, .obj .vector .s false]),
  (.vml_div, [.obj (.view1D .vec) .s true, .scal .s, .obj (.view1D .vec) .s false]),
  (.vml_div, [.obj (.view1D .vec) .s true, .scal .s, .obj (.view1D .mat) .s false]),
  (.vml_div, [.obj (.view1D .vec) .s true, .scal .s, .obj (.view1D .ten) .s false]),
  (.vml_div, [.obj (.view1D .mat) .s true, .scal .s, .obj .vector .s false]),
  (.vml_div, [.obj (.view1D .mat) .s true, .scal .s, .obj (.view1D .vec) .s false]),
  (.vml_div, [.obj (.view1D .mat) .s true, .scal .s, .obj (.view1D .mat) .s false]),
  (.vml_div, [.obj (.view1D .mat) .s true, .scal .s, .obj (.view1D .ten) .s false]),
  (.vml_div, [.obj (.view1D .ten) .s true, .scal .s, .obj .vector .s false]),
  (.vml_div, [.obj (.view1D .ten) .s true, .scal .s, .obj (.view1D .vec) .s false]),
  (.vml_div, [.obj (.view1D .ten) .s true, .scal .s, .obj (.view1D .mat) .s false]),
  (.vml_div, [.obj (.view1D .ten) .s true, .scal .s, .obj (.view1D .ten) .s false])]

/-- the overloads of `tVmlVec_8` that are declared -/
def hVmlVec_8 : List (Fn × List Par) := [
  (.vml_pow, [.obj .vector .d true, .obj .vector .d true, .obj .vector .d false]),
  (.vml_pow, [.obj .vector .d true, .obj .vector .d true, .obj (.view1D .vec) .d false]),
  (.vml_pow, [.obj .vector .d true, .obj .vector .d true, .obj (.view1D .mat) .d false]),
  (.vml_pow, [.obj .vector .d true, .obj .vector .d true, .obj (.view1D .ten) .d false]),
  (.vml_pow, [.obj .vector .d true, .obj (.view1D .vec) .d true, .obj .vector .d false]),
  (.vml_pow, [.obj .vector .d true, .obj (.view1D .vec) .d true, .obj (.view1D .vec) .d false]),
  (.vml_pow, [.obj .vector .d true, .obj (.view1D .vec) .d true, .obj (.view1D .mat) .d false]),
  (.vml_pow, [.obj .vector .d true, .obj (.view1D .vec) .d true, .obj (.view1D .ten) .d false]),
  (.vml_pow, [.obj .vector .d true, .obj (.view1D .mat) .d true, .obj .vector .d false]),
  (.vml_pow, [.obj .vector .d true, .obj (.view1D .mat) .d true, .obj (.view1D .vec) .d false]),
  (.vml_pow, [.obj .vector .d true, .obj (.view1D .mat) .d true, .obj (.view1D .mat) .d false]),
  (.vml_pow, [.obj .vector .d true, .obj (.view1D .mat) .d true, .obj (.view1D .ten) .d false]),
  (.vml_pow, [.obj .vector .d true, .obj (.view1D .ten) .d true, .obj .vector .d false]),
  (.vml_pow, [.obj .vector .d true, .obj (.view1D .ten) .d true, .obj (.view1D .vec) .d false]),
  (.vml_pow, [.obj .vector .d true, .obj (.view1D .ten) .d true, .obj (.view1D .mat) .d false]),
  (.vml_pow, [.obj .vector .d true, .obj (.view1D .ten) .d true, .obj (.view1D .ten) .d false]),
  (.vml_pow, [.obj (.view1D .vec) .d true, .obj .vector .d true, .obj .vector .d false]),
  (.vml_pow, [.obj (.view1D .vec) .d true, .obj .vector .d true, .obj (.view1D .vec) .d false]),
  (.vml_pow, [.obj (.view1D .vec) .d true, .obj .vector .d true, .obj (.view1D .mat) .d false]),
  (.vml_pow, [.obj (.view1D .vec) .d true, .obj .vector .d true, .obj (.view1D .ten) .d false]),
  (.vml_pow, [.obj (.view1D .vec) .d true, .obj (.view1D .vec) .d true, .obj .vector .d false]),
  (.vml_pow, [.obj (.view1D .vec) .d true, .obj (.view1D .vec) .d true, .obj (.view1D .vec) .d false]),
  (.vml_pow, [.obj (.view1D .vec) .d true, .obj (.view1D .vec) .d true, .obj (.view1D .mat) .d false]),
  (.vml_pow, [.obj (.view1D .vec) .d true, .obj (.view1D .vec) .d true, .obj (.view1D .ten) .d false]),
  (.vml_pow, [.obj (.view1D .vec) .d true, .obj (.view1D .mat) .d true, .obj .vector .d false]),
  (.vml_pow, [.obj (.view1D .vec) .d true, .obj (.view1D .mat) .d true, .obj (.view1D .vec) .d false]),
  (.vml_pow, [.obj (.view1D .vec) .d true, .obj (.view1D .mat) .d true, .obj (.view1D .mat) .d false]),
  (.vml_pow, [.obj (.view1D .vec) .d true, .obj (.view1D .mat) .d true, .obj (.view1D .ten) .d false]),
  (.vml_pow, [.obj (.view1D .vec) .d true, .obj (.view1D .ten) .d true, .obj .vector .d false]),
  (.vml_pow, [.obj (.view1D .vec) .d true, .obj (.view1D .ten) .d true, .obj (.view1D .vec) .d false]),
  (.vml_pow, [.obj (.view1D .vec) .d true, .obj (.view1D .ten) .d true, .obj (.view1D .mat) .d false]),
  (.vml_pow, [.obj (.view1D .vec) .d true, .obj (.view1D .ten) .d true, .obj (.view1D .ten) .d false]),
  (.vml_pow, [.obj (.view1D .mat) .d true, .obj .vector .d true, .obj .vector .d false]),
  (.vml_pow, [.obj (.view1D .mat) .d true, .obj .vector .d true, .obj (.view1D .vec) .d false]),
  (.vml_pow, [.obj (.view1D .mat) .d true, .obj .vector .d true, .obj (.view1D .mat) .d false]),
  (.vml_pow, [.obj (.view1D .mat) .d true, .obj .vector .d true, .obj (.view1D .ten) .d false]),
  (.vml_pow, [.obj (.view1D .mat) .d true, .obj (.view1D .vec) .d true, .obj .vector .d false]),
  (.vml_pow, [.obj (.view1D .mat) .d true, .obj (.view1D .vec) .d true, .obj (.view1D .vec) .d false]),
  (.vml_pow, [.obj (.view1D .mat) .d true, .obj (.view1D .vec) .d true, .obj (.view1D .mat) .d false]),
  (.vml_pow, [.obj (.view1D .mat) .d true, .obj (.view1D .vec) .d true, .obj (.view1D .ten) .d false]),
  (.vml_pow, [.obj (.view1D .mat) .d true, .obj (.view1D .mat) .d true, .obj .vector .d false]),
  (.vml_pow, [.obj (.view1D .mat) .d true, .obj (.view1D .mat) .d true, .obj (.view1D .vec) .d false]),
  (.vml_pow, [.obj (.view1D .mat) .d true, .obj (.view1D .mat) .d true, .obj (.view1D .mat) .d false]),
  (.vml_pow, [.obj (.view1D .mat) .d true, .obj (.view1D .mat) .d true, .obj (.view1D .ten) .d false]),
  (.vml_pow, [.obj (.view1D .mat) .d true, .obj (.view1D .ten) .d true, .obj .vector .d false]),
  (.vml_pow, [.obj (.view1D .mat) .d true, .obj (.view1D .ten) .d true, .obj (.view1D .vec) .d false]),
  (.vml_pow, [.obj (.view1D .mat) .d true, .obj (.view1D .ten) .d true, .obj (.view1D .mat) .d false]),
  (.vml_pow, [.obj (.view1D .mat) .d true, .obj (.view1D .ten) .d true, .obj (.view1D .ten) .d false]),
  (.vml_pow, [.obj (.view1D .ten) .d true, .obj .vector .d true, .obj .vector .d false]),
  (.vml_pow, [.obj (.view1D .ten) .d true, .obj .vector .d true, .obj (.view1D .vec) .d false]),
  (.vml_pow, [.obj (.view1D .ten) .d true, .obj .vector .d true, .obj (.view1D .mat) .d false]),
  (.vml_pow, [.obj (.view1D .ten) .d true, .obj .vector .d true, .obj (.view1D .ten) .d false]),
  (.vml_pow, [.obj (.view1D .ten) .d true, .obj (.view1D .vec) .d true, .obj .vector .d false]),
  (.vml_pow, [.obj (.view1D .ten) .d true, .obj (.view1D .vec) .d true, .obj (.view1D .vec) .d false]),
  (.vml_pow, [.obj (.view1D .ten) .d true, .obj (.view1D .vec) .d true, .obj (.view1D .mat) .d false]),
  (.vml_pow, [.obj (.view1D .ten) .d true, .obj (.view1D .vec) .d true, .obj (.view1D .ten) .d false]),
  (.vml_pow, [.obj (.view1D .ten) .d true, .obj (.view1D .mat) .d true, .obj .vector .d false]),
  (.vml_pow, [.obj (.view1D .ten) .d true, .obj (.view1D .mat) .d true, .obj (.view1D .vec) .d false]),
  (.vml_pow, [.obj (.view1D .ten) .d true, .obj (.view1D .mat) .d true, .obj (.view1D .mat) .d false]),
  (.vml_pow, [.obj (.view1D .ten) .d true, .obj (.view1D .mat) .d true, .obj (.view1D .ten) .d false]),
  (.vml_pow, [.obj (.view1D .ten) .d true, .obj (.view1D .ten) .d true, .obj .vector .d false]),
  (.vml_pow, [.obj (.view1D .ten) .d true, .obj (.view1D .ten) .d true, .obj (.view1D .vec) .d false]),
  (.vml_pow, [.obj (.view1D .ten) .d true, .obj (.view1D .ten) .d true, .obj (.view1D .mat) .d false]),
  (.vml_pow, [.obj (.view1D .ten) .d true, .obj (.view1D .ten) .d true, .obj (.view1D .ten) .d false]),
  (.vml_pow, [.obj .vector .s true, .obj .vector .s true, .obj .vector .s false]),
  (.vml_pow, [.obj .vector .s true, .obj .vector .s true, .obj (.view1D .vec) .s false]),
  (.vml_pow, [.obj .vector .s true, .obj .vector .s true, .obj (.view1D .mat) .s false]),
  (.vml_pow, [.obj .vector .s true, .obj .vector .s true, .obj (.view1D .ten) .s false]),
  (.vml_pow, [.obj .vector .s true, .obj (.view1D .vec) .s true, .obj .vector .s false]),
  (.vml_pow, [.obj .vector .s true, .obj (.view1D .vec) .s true, .obj (.view1D .vec) .s false]),
  (.vml_pow, [.obj .vector .s true, .obj (.view1D .vec) .s true, .obj (.view1D .mat) .s false]),
  (.vml_pow, [.obj .vector .s true, .obj (.view1D .vec) .s true, .obj (.view1D .ten) .s false]),
  (.vml_pow, [.obj .vector .s true, .obj (.view1D .mat) .s true, .obj .vector .s false]),
  (.vml_pow, [.obj .vector .s true, .obj (.view1D .mat) .s true, .obj (.view1D .vec) .s false]),
  (.vml_pow, [.obj .vector .s true, .obj (.view1D .mat) .s true, .obj (.view1D .mat) .s false]),
  (.vml_pow, [.obj .vector .s true, .obj (.view1D .mat) .s true, .obj (.view1D .ten) .s false]),
  (.vml_pow, [.obj .vector .s true, .obj (.view1D .ten) .s true, .obj .vector .s false]),
  (.vml_pow, [.obj .vector .s true, .obj (.view1D .ten) .s true, .obj (.view1D .vec) .s false]),
  (.vml_pow, [.obj .vector .s true, .obj (.view1D .ten) .s true, .obj (.view1D .mat) .s false]),
  (.vml_pow, [.obj .vector .s true, .obj (.view1D .ten) .s true, .obj (.view1D .ten) .s false])]

/-- the overloads of `tVmlVec_9` that are declared -/
def hVmlVec_9 : List (Fn × List Par) := [
  (.vml_pow, [.obj (.view1D .vec) .s true, .obj .vector .s true, .obj .vector .s false]),
  (.vml_pow, [.obj (.view1D .vec) .s true, .obj .vector .s true, .obj (.view1D .vec) .s false]),
  (.vml_pow, [.obj (.view1D .vec) .s true, .obj .vector .s true, .obj (.view1D .mat) .s false]),
  (.vml_pow, [.obj (.view1D .vec) .s true, .obj .vector .s true, .obj (.view1D .ten) .s false]),
  (.vml_pow, [.obj (.view1D .vec) .s true, .obj (.view1D .vec) .s true, .obj .vector .s false]),
  (.vml_pow, [.obj (.view1D .vec) .s true, .obj (.view1D .vec) .s true, .obj (.view1D .vec) .s false]),
  (.vml_pow, [.obj (.view1D .vec) .s true, .obj (.view1D .vec) .s true, .obj (.view1D .mat) .s false]),
  (.vml_pow, [.obj (.view1D .vec) .s true, .obj (.view1D .vec) .s true, .obj (.view1D .ten) .s false]),
  (.vml_pow, [.obj (.view1D .vec) .s true, .obj (.view1D .mat) .s true, .obj .vector .s false]),
  (.vml_pow, [.obj (.view1D .vec) .s true, .obj (.view1D .mat) .s true, .obj (.view1D .vec) .s false]),
  (.vml_pow, [.obj (.view1D .vec) .s true, .obj (.view1D .mat) .s true, .obj (.view1D .mat) .s false]),
  (.vml_pow, [.obj (.view1D .vec) .s true, .obj (.view1D .mat) .s true, .obj (.view1D .ten) .s false]),
  (.vml_pow, [.obj (.view1D .vec) .s true, .obj (.view1D .ten) .s true, .obj .vector .s false]),
  (.vml_pow, [.obj (.view1D .vec) .s true, .obj (.view1D .ten) .s true, .obj (.view1D .vec) .s false]),
  (.vml_pow, [.obj (.view1D .vec) .s true, .obj (.view1D .ten) .s true, .obj (.view1D .mat) .s false]),
  (.vml_pow, [.obj (.view1D .vec) .s true, .obj (.view1D .ten) .s true, .obj (.view1D .ten) .s false]),
  (.vml_pow, [.obj (.view1D .mat) .s true, .obj .vector .s true, .obj .vector .s false]),
  (.vml_pow, [.obj (.view1D .mat) .s true, .obj .vector .s true, .obj (.view1D .vec) .s false]),
  (.vml_pow, [.obj (.view1D .mat) .s true, .obj .vector .s true, .obj (.view1D .mat) .s false]),
  (.vml_pow, [.obj (.view1D .mat) .s true, .obj .vector .s true, .obj (.view1D .ten) .s false]),
  (.vml_pow, [.obj (.view1D .mat) .s true, .obj (.view1D .vec) .s true, .obj .vector .s false]),
  (.vml_pow, [.obj (.view1D .mat) .s true, .obj (.view1D .vec) .s true, .obj (.view1D .vec) .s false]),
  (.vml_pow, [.obj (.view1D .mat) .s true, .obj (.view1D .vec) .s true, .obj (.view1D .mat) .s false]),
  (.vml_pow, [.obj (.view1D .mat) .s true, .obj (.view1D .vec) .s true, .obj (.view1D .ten) .s false]),
  (.vml_pow, [.obj (.view1D .mat) .s true, .obj (.view1D .mat) .s true, .obj .vector .s false]),
  (.vml_pow, [.obj (.view1D .mat) .s true, .obj (.view1D .mat) .s true, .obj (.view1D .vec) .s false]),
  (.vml_pow, [.obj (.view1D .mat) .s true, .obj (.view1D .mat) .s true, .obj (.view1D .mat) .s false]),
  (.vml_pow, [.obj (.view1D .mat) .s true, .obj (.view1D .mat) .s true, .obj (.view1D .ten) .s false]),
  (.vml_pow, [.obj (.view1D .mat) .s true, .obj (.view1D .ten) .s true, .obj .vector .s false]),
  (.vml_pow, [.obj (.view1D .mat) .s true, .obj (.view1D .ten) .s true, .obj (.view1D .vec) .s false]),
  (.vml_pow, [.obj (.view1D .mat) .s true, .obj (.view1D .ten) .s true, .obj (.view1D .mat) .s false]),
  (.vml_pow, [.obj (.view1D .mat) .s true, .obj (.view1D .ten) .s true, .obj (.view1D .ten) .s false]),
  (.vml_pow, [.obj (.view1D .ten) .s true, .obj .vector .s true, .obj .vector .s false]),
  (.vml_pow, [.obj (.view1D .ten) .s true, .obj .vector .s true, .obj (.view1D .vec) .s false]),
  (.vml_pow, [.obj (.view1D .ten) .s true, .obj .vector .s true, .obj (.view1D .mat) .s false]),
  (.vml_pow, [.obj (.view1D .ten) .s true, .obj .vector .s true, .obj (.view1D .ten) .s false]),
  (.vml_pow, [.obj (.view1D .ten) .s true, .obj (.view1D .vec) .s true, .obj .vector .s false]),
  (.vml_pow, [.obj (.view1D .ten) .s true, .obj (.view1D .vec) .s true, .obj (.view1D .vec) .s false]),
  (.vml_pow, [.obj (.view1D .ten) .s true, .obj (.view1D .vec) .s true, .obj (.view1D .mat) .s false]),
  (.vml_pow, [.obj (.view1D .ten) .s true, .obj (.view1D .vec) .s true, .obj (.view1D .ten) .s false]),
  (.vml_pow, [.obj (.view1D .ten) .s true, .obj (.view1D .mat) .s true, .obj .vector .s false]),
  (.vml_pow, [.obj (.view1D .ten) .s true, .obj (.view1D .mat) .s true, .obj (.view1D .vec) .s false]),
  (.vml_pow, [.obj (.view1D .ten) .s true, .obj (.view1D .mat) .s true, .obj (.view1D .mat) .s false]),
  (.vml_pow, [.obj (.view1D .ten) .s true, .obj (.view1D .mat) .s true, .obj (.view1D .ten) .s false]),
  (.vml_pow, [.obj (.view1D .ten) .s true, .obj (.view1D .ten) .s true, .obj .vector .s false]),
  (.vml_pow, [.obj (.view1D .ten) .s true, .obj (.view1D .ten) .s true, .obj (.view1D .vec) .s false]),
  (.vml_pow, [.obj (.view1D .ten) .s true, .obj (.view1D .ten) .s true, .obj (.view1D .mat) .s false]),
  (.vml_pow, [.obj (.view1D .ten) .s true, .obj (.view1D .ten) .s true, .obj (.view1D .ten) .s false]),
  (.vml_pow, [.obj .vector .d true, .scal .d, .obj .vector .d false]),
  (.vml_pow, [.obj .vector .d true, .scal .d, .obj (.view1D .vec) .d false]),
  (.vml_pow, [.obj .vector .d true, .scal .d, .obj (.view1D .mat) .d false]),
  (.vml_pow, [.obj .vector .d true, .scal .d, .obj (.view1D .ten) .d false]),
  (.vml_pow, [.obj (.view1D .vec) .d true, .scal .d, .obj .vector .d false]),
  (.vml_pow, [.obj (.view1D .vec) .d true, .scal .d, .obj (.view1D .vec) .d false]),
  (.vml_pow, [.obj (.view1D .vec) .d true, .scal .d, .obj (.view1D .mat) .d false]),
  (.vml_pow, [.obj (.view1D .vec) .d true, .scal .d, .obj (.view1D .ten) .d false]),
  (.vml_pow, [.obj (.view1D .mat) .d true, .scal .d, .obj .vector .d false]),
  (.vml_pow, [.obj (.view1D .mat) .d true, .scal .d, .obj (.view1D .vec) .d false]),
  (.vml_pow, [.obj (.view1D .mat) .d true, .scal .d, .obj (.view1D .mat) .d false]),
  (.vml_pow, [.obj (.view1D .mat) .d true, .scal .d, .obj (.view1D .ten) .d false]),
  (.vml_pow, [.obj (.view1D .ten) .d true, .scal .d, .obj .vector .d false]),
  (.vml_pow, [.obj (.view1D .ten) .d true, .scal .d, .obj (.view1D .vec) .d false]),
  (.vml_pow, [.obj (.view1D .ten) .d true, .scal .d, .obj (.view1D .mat) .d false]),
  (.vml_pow, [.obj (.view1D .ten) .d true, .scal .d, .obj (.view1D .ten) .d false]),
  (.vml_pow, [.obj .vector .s true, .scal .s, .obj .vector .s false]),
  (.vml_pow, [.obj .vector .s true, .scal .s, .obj (.view1D .vec) .s false]),
  (.vml_pow, [.obj .vector .s true, .scal .s, .obj (.view1D .mat) .s false]),
  (.vml_pow, [.obj .vector .s true, .scal .s, .obj (.view1D .ten) .s false]),
  (.vml_pow, [.obj (.view1D .vec) .s true, .scal .s, .obj .vector .s false]),
  (.vml_pow, [.obj (.view1D .vec) .s true, .scal .s, .obj (.view1D .vec) .s false]),
  (.vml_pow, [.obj (.view1D .vec) .s true, .scal .s, .obj (.view1D .mat) .s false]),
  (.vml_pow, [.obj (.view1D .vec) .s true, .scal .s, .obj (.view1D .ten) .s false]),
  (.vml_pow, [.obj (.view1D .mat) .s true, .scal .s, .obj .vector .s false]),
  (.vml_pow, [.obj (.view1D .mat) .s true, .scal .s, .obj (.view1D .vec) .s false]),
  (.vml_pow, [.obj (.view1D .mat) .s true, .scal .s, .obj (.view1D .mat) .s false]),
  (.vml_pow, [.obj (.view1D .mat) .s true, .scal .s, .obj (.view1D .ten) .s false]),
  (.vml_pow, [.obj (.view1D .ten) .s true, .scal .s, .obj .vector .s false]),
  (.vml_pow, [.obj (.view1D .ten) .s true, .scal .s, .obj (.view1D .vec) .s false]),
  (.vml_pow, [.obj (.view1D .ten) .s true, .scal .s, .obj (.view1D .mat) .s false]),
  (.vml_pow, [.obj (.view1D .ten) .s true, .scal .s, .obj (.view1D .ten) .s false])]

/-- the overloads of `tVmlVec_10` that are declared -/
def hVmlVec_10 : List (Fn × List Par) := [
  (.vml_sin, [.obj .vector .d true, .obj .vector .d false]),
  (.vml_sin, [.obj .vector .d true, .obj (.view1D .vec) .d false]),
  (.vml_sin, [.obj .vector .d true, .obj (.view1D .mat) .d false]),
  (.vml_sin, [.obj .vector .d true, .obj (.view1D .ten) .d false]),
  (.vml_sin, [.obj (.view1D .vec) .d true, .obj .vector .d false]),
  (.vml_sin, [.obj (.view1D .vec) .d true, .obj (.view1D .vec) .d false]),
  (.vml_sin, [.obj (.view1D .vec) .d true, .obj (.view1D .mat) .d false]),
  (.vml_sin, [.obj (.view1D .vec) .d true, .obj (.view1D .ten) .d false]),
  (.vml_sin, [.obj (.view1D .mat) .d true, .obj .vector .d false]),
  (.vml_sin, [.obj (.view1D .mat) .d true, .obj (.view1D .vec) .d false]),
  (.vml_sin, [.obj (.view1D .mat) .d true, .obj (.view1D .mat) .d false]),
  (.vml_sin, [.obj (.view1D .mat) .d true, .obj (.view1D .ten) .d false]),
  (.vml_sin, [.obj (.view1D .ten) .d true, .obj .vector .d false]),
  (.vml_sin, [.obj (.view1D .ten) .d true, .obj (.view1D .vec) .d false]),
  (.vml_sin, [.obj (.view1D .ten) .d true, .obj (.view1D .mat) .d false]),
  (.vml_sin, [.obj (.view1D .ten) .d true, .obj (.view1D .ten) .d false]),
  (.vml_sin, [.obj .vector .s true, .obj .vector .s false]),
  (.vml_sin, [.obj .vector .s true, .obj (.view1D .vec) .s false]),
  (.vml_sin, [.obj .vector .s true, .obj (.view1D .mat) .s false]),
  (.vml_sin, [.obj .vector .s true, .obj (.view1D .ten) .s false]),
  (.vml_sin, [.obj (.view1D .vec) .s true, .obj .vector .s false]),
  (.vml_sin, [.obj (.view1D .vec) .s true, .obj (.view1D .vec) .s false]),
  (.vml_sin, [.obj (.view1D .vec) .s true, .obj (.view1D .mat) .s false]),
  (.vml_sin, [.obj (.view1D .vec) .s true, .obj (.view1D .ten) .s false]),
  (.vml_sin, [.obj (.view1D .mat) .s true, .obj .vector .s false]),
  (.vml_sin, [.obj (.view1D .mat) .s true, .obj (.view1D .vec) .s false]),
  (.vml_sin, [.obj (.view1D .mat) .s true, .obj (.view1D .mat) .s false]),
  (.vml_sin, [.obj (.view1D .mat) .s true, .obj (.view1D .ten) .s false]),
  (.vml_sin, [.obj (.view1D .ten) .s true, .obj .vector .s false]),
  (.vml_sin, [.obj (.view1D .ten) .s true, .obj (.view1D .vec) .s false]),
  (.vml_sin, [.obj (.view1D .ten) .s true, .obj (.view1D .mat) .s false]),
  (.vml_sin, [.obj (.view1D .ten) .s true, .obj (.view1D .ten) .s false]),
  (.vml_sqrt, [.obj .vector .d true, .obj .vector .d false]),
  (.vml_sqrt, [.obj .vector .d true, .obj (.view1D .vec) .d false]),
  (.vml_sqrt, [.obj .vector .d true, .obj (.view1D .mat) .d false]),
  (.vml_sqrt, [.obj .vector .d true, .obj (.view1D .ten) .d false]),
  (.vml_sqrt, [.obj (.view1D .vec) .d true, .obj .vector .d false]),
  (.vml_sqrt, [.obj (.view1D .vec) .d true, .obj (.view1D .vec) .d false]),
  (.vml_sqrt, [.obj (.view1D .vec) .d true, .obj (.view1D .mat) .d false]),
  (.vml_sqrt, [.obj (.view1D .vec) .d true, .obj (.view1D .ten) .d false]),
  (.vml_sqrt, [.obj (.view1D .mat) .d true, .obj .vector .d false]),
  (.vml_sqrt, [.obj (.view1D .mat) .d true, .obj (.view1D .vec) .d false]),
  (.vml_sqrt, [.obj (.view1D .mat) .d true, .obj (.view1D .mat) .d false]),
  (.vml_sqrt, [.obj (.view1D .mat) .d true, .obj (.view1D .ten) .d false]),
  (.vml_sqrt, [.obj (.view1D .ten) .d true, .obj .vector .d false]),
  (.vml_sqrt, [.obj (.view1D .ten) .d true, .obj (.view1D .vec) .d false]),
  (.vml_sqrt, [.obj (.view1D .ten) .d true, .obj (.view1D .mat) .d false]),
  (.vml_sqrt, [.obj (.view1D .ten) .d true, .obj (.view1D .ten) .d false]),
  (.vml_sqrt, [.obj .vector .s true, .obj .vector .s false]),
  (.vml_sqrt, [.obj .vector .s true, .obj (.view1D .vec) .s false]),
  (.vml_sqrt, [.obj .vector .s true, .obj (.view1D .mat) .s false]),
  (.vml_sqrt, [.obj .vector .s true, .obj (.view1D .ten) .s false]),
  (.vml_sqrt, [.obj (.view1D .vec) .s true, .obj .vector .s false]),
  (.vml_sqrt, [.obj (.view1D .vec) .s true, .obj (.view1D .vec) .s false]),
  (.vml_sqrt, [.obj (.view1D .vec) .s true, .obj (.view1D .mat) .s false]),
  (.vml_sqrt, [.obj (.view1D .vec) .s true, .obj (.view1D .ten) .s false]),
  (.vml_sqrt, [.obj (.view1D .mat) .s true, .obj .vector .s false]),
  (.vml_sqrt, [.obj (.view1D .mat) .s true, .obj (.view1D .vec) .s false]),
  (.vml_sqrt, [.obj (.view1D .mat) .s true, .obj (.view1D .mat) .s false]),
  (.vml_sqrt, [.obj (.view1D .mat) .s true, .obj (.view1D .ten) .s false]),
  (.vml_sqrt, [.obj (.view1D .ten) .s true, .obj .vector .s false]),
  (.vml_sqrt, [.obj (.view1D .ten) .s true, .obj (.view1D .vec) .s false]),
  (.vml_sqrt, [.obj (.view1D .ten) .s true, .obj (.view1D .mat) .s false]),
  (.vml_sqrt, [.obj (.view1D .ten) .s true, .obj (.view1D .ten) .s false]),
  (.vml_sinh, [.obj .vector .d true, .obj .vector .d false]),
  (.vml_sinh, [.obj .vector .d true, .obj (.view1D .vec) .d false]),
  (.vml_sinh, [.obj .vector .d true, .obj (.view1D .mat) .d false]),
  (.vml_sinh, [.obj .vector .d true, .obj (.view1D .ten) .d false]),
  (.vml_sinh, [.obj (.view1D .vec) .d true, .obj .vector .d false]),
  (.vml_sinh, [.obj (.view1D .vec) .d true, .obj (.view1D .vec) .d false]),
  (.vml_sinh, [.obj (.view1D .vec) .d true, .obj (.view1D .mat) .d false]),
  (.vml_sinh, [.obj (.view1D .vec) .d true, .obj (.view1D .ten) .d false]),
  (.vml_sinh, [.obj (.view1D .mat) .d true, .obj .vector .d false]),
  (.vml_sinh, [.obj (.view1D .mat) .d true, .obj (.view1D .vec) .d false]),
  (.vml_sinh, [.obj (.view1D .mat) .d true, .obj (.view1D .mat) .d false]),
  (.vml_sinh, [.obj (.view1D .mat) .d true, .obj (.view1D .ten) .d false]),
  (.vml_sinh, [.obj (.view1D .ten) .d true, .obj .vector .d false]),
  (.vml_sinh, [.obj (.view1D .ten) .d true, .obj (.view1D .vec) .d false]),
  (.vml_sinh, [.obj (.view1D .ten) .d true, .obj (.view1D .mat) .d false]),
  (.vml_sinh, [.obj (.view1D .ten) .d true, .obj (.view1D .ten) .d false])]

/-- the overloads of `tVmlVec_11` that are declared -/
def hVmlVec_11 : List (Fn × List Par) := [
  (.vml_sinh, [.obj .vector .s true, .obj .vector .s false]),
  (.vml_sinh, [.obj .vector .s true, .obj (.view1D .vec) .s false]),
  (.vml_sinh, [.obj .vector .s true, .obj (.view1D .mat) .s false]),
  (.vml_sinh, [.obj .vector .s true, .obj (.view1D .ten) .s false]),
  (.vml_sinh, [.obj (.view1D .vec) .s true, .obj .vector .s false]),
  (.vml_sinh, [.obj (.view1D .vec) .s true, .obj (.view1D .vec) .s false]),
  (.vml_sinh, [.obj (.view1D .vec) .s true, .obj (.view1D .mat) .s false]),
  (.vml_sinh, [.obj (.view1D .vec) .s true, .obj (.view1D .ten) .s false]),
  (.vml_sinh, [.obj (.view1D .mat) .s true, .obj .vector .s false]),
  (.vml_sinh, [.obj (.view1D .mat) .s true, .obj (.view1D .vec) .s false]),
  (.vml_sinh, [.obj (.view1D .mat) .s true, .obj (.view1D .mat) .s false]),
  (.vml_sinh, [.obj (.view1D .mat) .s true, .obj (.view1D .ten) .s false]),
  (.vml_sinh, [.obj (.view1D .ten) .s true, .obj .vector .s false]),
  (.vml_sinh, [.obj (.view1D .ten) .s true, .obj (.view1D .vec) .s false]),
  (.vml_sinh, [.obj (.view1D .ten) .s true, .obj (.view1D .mat) .s false]),
  (.vml_sinh, [.obj (.view1D .ten) .s true, .obj (.view1D .ten) .s false]),
  (.vml_asin, [.obj .vector .d true, .obj .vector .d false]),
  (.vml_asin, [.obj .vector .d true, .obj (.view1D .vec) .d false]),
  (.vml_asin, [.obj .vector .d true, .obj (.view1D .mat) .d false]),
  (.vml_asin, [.obj .vector .d true, .obj (.view1D .ten) .d false]),
  (.vml_asin, [.obj (.view1D .vec) .d true, .obj .vector .d false]),
  (.vml_asin, [.obj (.view1D .vec) .d true, .obj (.view1D .vec) .d false]),
  (.vml_asin, [.obj (.view1D .vec) .d true, .obj (.view1D .mat) .d false]),
  (.vml_asin, [.obj (.view1D .vec) .d true, .obj (.view1D .ten) .d false]),
  (.vml_asin, [.obj (.view1D .mat) .d true, .obj .vector .d false]),
  (.vml_asin, [.obj (.view1D .mat) .d true, .obj (.view1D .vec) .d false]),
  (.vml_asin, [.obj (.view1D .mat) .d true, .obj (.view1D .mat) .d false]),
  (.vml_asin, [.obj (.view1D .mat) .d true, .obj (.view1D .ten) .d false]),
  (.vml_asin, [.obj (.view1D .ten) .d true, .obj .vector .d false]),
  (.vml_asin, [.obj (.view1D .ten) .d true, .obj (.view1D .vec) .d false]),
  (.vml_asin, [.obj (.view1D .ten) .d true, .obj (.view1D .mat) .d false]),
  (.vml_asin, [.obj (.view1D .ten) .d true, .obj (.view1D .ten) .d false]),
  (.vml_asin, [.obj .vector .s true, .obj .vector .s false]),
  (.vml_asin, [.obj .vector .s true, .obj (.view1D .vec) .s false]),
  (.vml_asin, [.obj .vector .s true, .obj (.view1D .mat) .s false]),
  (.vml_asin, [.obj .vector .s true, .obj (.view1D .ten) .s false]),
  (.vml_asin, [.obj (.view1D .vec) .s true, .obj .vector .s false]),
  (.vml_asin, [.obj (.view1D .vec) .s true, .obj (.view1D .vec) .s false]),
  (.vml_asin, [.obj (.view1D .vec) .s true, .obj (.view1D .mat) .s false]),
  (.vml_asin, [.obj (.view1D .vec) .s true, .obj (.view1D .ten) .s false]),
  (.vml_asin, [.obj (.view1D .mat) .s true, .obj .vector .s false]),
  (.vml_asin, [.obj (.view1D .mat) .s true, .obj (.view1D .vec) .s false]),
  (.vml_asin, [.obj (.view1D .mat) .s true, .obj (.view1D .mat) .s false]),
  (.vml_asin, [.obj (.view1D .mat) .s true, .obj (.view1D .ten) .s false]),
  (.vml_asin, [.obj (.view1D .ten) .s true, .obj .vector .s false]),
  (.vml_asin, [.obj (.view1D .ten) .s true, .obj (.view1D .vec) .s false]),
  (.vml_asin, [.obj (.view1D .ten) .s true, .obj (.view1D .mat) .s false]),
  (.vml_asin, [.obj (.view1D .ten) .s true, .obj (.view1D .ten) .s false]),
  (.vml_asinh, [.obj .vector .d true, .obj .vector .d false]),
  (.vml_asinh, [.obj .vector .d true, .obj (.view1D .vec) .d false]),
  (.vml_asinh, [.obj .vector .d true, .obj (.view1D .mat) .d false]),
  (.vml_asinh, [.obj .vector .d true, .obj (.view1D .ten) .d false]),
  (.vml_asinh, [.obj (.view1D .vec) .d true, .obj .vector .d false]),
  (.vml_asinh, [.obj (.view1D .vec) .d true, .obj (.view1D .vec) .d false]),
  (.vml_asinh, [.obj (.view1D .vec) .d true, .obj (.view1D .mat) .d false]),
  (.vml_asinh, [.obj (.view1D .vec) .d true, .obj (.view1D .ten) .d false]),
  (.vml_asinh, [.obj (.view1D .mat) .d true, .obj .vector .d false]),
  (.vml_asinh, [.obj (.view1D .mat) .d true, .obj (.view1D .vec) .d false]),
  (.vml_asinh, [.obj (.view1D .mat) .d true, .obj (.view1D .mat) .d false]),
  (.vml_asinh, [.obj (.view1D .mat) .d true, .obj (.view1D .ten) .d false]),
  (.vml_asinh, [.obj (.view1D .ten) .d true, .obj .vector .d false]),
  (.vml_asinh, [.obj (.view1D .ten) .d true, .obj (.view1D .vec) .d false]),
  (.vml_asinh, [.obj (.view1D .ten) .d true, .obj (.view1D .mat) .d false]),
  (.vml_asinh, [.obj (.view1D .ten) .d true, .obj (.view1D .ten) .d false]),
  (.vml_asinh, [.obj .vector .s true, .obj .vector .s false]),
  (.vml_asinh, [.obj .vector .s true, .obj (.view1D .vec) .s false]),
  (.vml_asinh, [.obj .vector .s true, .obj (.view1D .mat) .s false]),
  (.vml_asinh, [.obj .vector .s true, .obj (.view1D .ten) .s false]),
  (.vml_asinh, [.obj (.view1D .vec) .s true, .obj .vector .s false]),
  (.vml_asinh, [.obj (.view1D .vec) .s true, .obj (.view1D .vec) .s false]),
  (.vml_asinh, [.obj (.view1D .vec) .s true, .obj (.view1D .mat) .s false]),
  (.vml_asinh, [.obj (.view1D .vec) .s true, .obj (.view1D .ten) .s false]),
  (.vml_asinh, [.obj (.view1D .mat) .s true, .obj .vector .s false]),
  (.vml_asinh, [.obj (.view1D .mat) .s true, .obj (.view1D .vec) .s false]),
  (.vml_asinh, [.obj (.view1D .mat) .s true, .obj (.view1D .mat) .s false]),
  (.vml_asinh, [.obj (.view1D .mat) .s true, .obj (.view1D .ten) .s false]),
  (.vml_asinh, [.obj (.view1D .ten) .s true, .obj .vector .s false]),
  (.vml_asinh, [.obj (.view1D .ten) .s true, .obj (.view1D .vec) .s false]),
  (.vml_asinh, [.obj (.view1D .ten) .s true, .obj (.view1D .mat) .s false]),
  (.vml_asinh, [.obj (.view1D .ten) .s true, .obj (.view1D .ten) .s false])]

/-- the overloads of `tVmlVec_12` that are declared -/
def hVmlVec_12 : List (Fn × List Par) := [
  (.vml_tan, [.obj .vector .d true, .obj .vector .d false]),
  (.vml_tan, [.obj .vector .d true, .obj (.view1D .vec) .d false]),
  (.vml_tan, [.obj .vector .d true, .obj (.view1D .mat) .d false]),
  (.vml_tan, [.obj .vector .d true, .obj (.view1D .ten) .d false]),
  (.vml_tan, [.obj (.view1D .vec) .d true, .obj .vector .d false]),
  (.vml_tan, [.obj (.view1D .vec) .d true, .obj (.view1D .vec) .d false]),
  (.vml_tan, [.obj (.view1D .vec) .d true, .obj (.view1D .mat) .d false]),
  (.vml_tan, [.obj (.view1D .vec) .d true, .obj (.view1D .ten) .d false]),
  (.vml_tan, [.obj (.view1D .mat) .d true, .obj .vector .d false]),
  (.vml_tan, [.obj (.view1D .mat) .d true, .obj (.view1D .vec) .d false]),
  (.vml_tan, [.obj (.view1D .mat) .d true, .obj (.view1D .mat) .d false]),
  (.vml_tan, [.obj (.view1D .mat) .d true, .obj (.view1D .ten) .d false]),
  (.vml_tan, [.obj (.view1D .ten) .d true, .obj .vector .d false]),
  (.vml_tan, [.obj (.view1D .ten) .d true, .obj (.view1D .vec) .d false]),
  (.vml_tan, [.obj (.view1D .ten) .d true, .obj (.view1D .mat) .d false]),
  (.vml_tan, [.obj (.view1D .ten) .d true, .obj (.view1D .ten) .d false]),
  (.vml_tan, [.obj .vector .s true, .obj .vector .s false]),
  (.vml_tan, [.obj .vector .s true, .obj (.view1D .vec) .s false]),
  (.vml_tan, [.obj .vector .s true, .obj (.view1D .mat) .s false]),
  (.vml_tan, [.obj .vector .s true, .obj (.view1D .ten) .s false]),
  (.vml_tan, [.obj (.view1D .vec) .s true, .obj .vector .s false]),
  (.vml_tan, [.obj (.view1D .vec) .s true, .obj (.view1D .vec) .s false]),
  (.vml_tan, [.obj (.view1D .vec) .s true, .obj (.view1D .mat) .s false]),
  (.vml_tan, [.obj (.view1D .vec) .s true, .obj (.view1D .ten) .s false]),
  (.vml_tan, [.obj (.view1D .mat) .s true, .obj .vector .s false]),
  (.vml_tan, [.obj (.view1D .mat) .s true, .obj (.view1D .vec) .s false]),
  (.vml_tan, [.obj (.view1D .mat) .s true, .obj (.view1D .mat) .s false]),
  (.vml_tan, [.obj (.view1D .mat) .s true, .obj (.view1D .ten) .s false]),
  (.vml_tan, [.obj (.view1D .ten) .s true, .obj .vector .s false]),
  (.vml_tan, [.obj (.view1D .ten) .s true, .obj (.view1D .vec) .s false]),
  (.vml_tan, [.obj (.view1D .ten) .s true, .obj (.view1D .mat) .s false]),
  (.vml_tan, [.obj (.view1D .ten) .s true, .obj (.view1D .ten) .s false]),
  (.vml_tanh, [.obj .vector .d true, .obj .vector .d false]),
  (.vml_tanh, [.obj .vector .d true, .obj (.view1D .vec) .d false]),
  (.vml_tanh, [.obj .vector .d true, .obj (.view1D .mat) .d false]),
  (.vml_tanh, [.obj .vector .d true, .obj (.view1D .ten) .d false]),
  (.vml_tanh, [.obj (.view1D .vec) .d true, .obj .vector .d false]),
  (.vml_tanh, [.obj (.view1D .vec) .d true, .obj (.view1D .vec) .d false]),
  (.vml_tanh, [.obj (.view1D .vec) .d true, .obj (.view1D .mat) .d false]),
  (.vml_tanh, [.obj (.view1D .vec) .d true, .obj (.view1D .ten) .d false]),
  (.vml_tanh, [.obj (.view1D .mat) .d true, .obj .vector .d false]),
  (.vml_tanh, [.obj (.view1D .mat) .d true, .obj (.view1D .vec) .d false]),
  (.vml_tanh, [.obj (.view1D .mat) .d true, .obj (.view1D .mat) .d false]),
  (.vml_tanh, [.obj (.view1D .mat) .d true, .obj (.view1D .ten) .d false]),
  (.vml_tanh, [.obj (.view1D .ten) .d true, .obj .vector .d false]),
  (.vml_tanh, [.obj (.view1D .ten) .d true, .obj (.view1D .vec) .d false]),
  (.vml_tanh, [.obj (.view1D .ten) .d true, .obj (.view1D .mat) .d false]),
  (.vml_tanh, [.obj (.view1D .ten) .d true, .obj (.view1D .ten) .d false]),
  (.vml_tanh, [.obj .vector .s true, .obj .vector .s false]),
  (.vml_tanh, [.obj .vector .s true, .obj (.view1D .vec) .s false]),
  (.vml_tanh, [.obj .vector .s true, .obj (.view1D .mat) .s false]),
  (.vml_tanh, [.obj .vector .s true, .obj (.view1D .ten) .s false]),
  (.vml_tanh, [.obj (.view1D .vec) .s true, .obj .vector .s false]),
  (.vml_tanh, [.obj (.view1D .vec) .s true, .obj (.view1D .vec) .s false]),
  (.vml_tanh, [.obj (.view1D .vec) .s true, .obj (.view1D .mat) .s false]),
  (.vml_tanh, [.obj (.view1D .vec) .s true, .obj (.view1D .ten) .s false]),
  (.vml_tanh, [.obj (.view1D .mat) .s true, .obj .vector .s false]),
  (.vml_tanh, [.obj (.view1D .mat) .s true, .obj (.view1D .vec) .s false]),
  (.vml_tanh, [.obj (.view1D .mat) .s true, .obj (.view1D .mat) .s false]),
  (.vml_tanh, [.obj (.view1D .mat) .s true, .obj (.view1D .ten) .s false]),
  (.vml_tanh, [.obj (.view1D .ten) .s true, .obj .vector .s false]),
  (.vml_tanh, [.obj (.view1D .ten) .s true, .obj (.view1D .vec) .s false]),
  (.vml_tanh, [.obj (.view1D .ten) .s true, .obj (.view1D .mat) .s false]),
  (.vml_tanh, [.obj (.view1D .ten) .s true, .obj (.view1D .ten) .s false]),
  (.vml_atan, [.obj .vector .d true, .obj .vector .d false]),
  (.vml_atan, [.obj .vector .d true, .obj (.view1D .vec) .d false]),
  (.vml_atan, [.obj .vector .d true, .obj (.view1D .mat) .d false]),
  (.vml_atan, [.obj .vector .d true, .obj (.view1D .ten) .d false]),
  (.vml_atan, [.obj (.view1D .vec) .d true, .obj .vector .d false]),
  (.vml_atan, [.obj (.view1D .vec) .d true, .obj (.view1D .vec) .d false]),
  (.vml_atan, [.obj (.view1D .vec) .d true, .obj (.view1D .mat) .d false]),
  (.vml_atan, [.obj (.view1D .vec) .d true, .obj (.view1D .ten) .d false]),
  (.vml_atan, [.obj (.view1D .mat) .d true, .obj .vector .d false]),
  (.vml_atan, [.obj (.view1D .mat) .d true, .obj (.view1D .vec) .d false]),
  (.vml_atan, [.obj (.view1D .mat) .d true, .obj (.view1D .mat) .d false]),
  (.vml_atan, [.obj (.view1D .mat) .d true, .obj (.view1D .ten) .d false]),
  (.vml_atan, [.obj (.view1D .ten) .d true, .obj .vector .d false]),
  (.vml_atan, [.obj (.view1D .ten) .d true, .obj (.view1D .vec) .d false]),
  (.vml_atan, [.obj (.view1D .ten) .d true, .obj (.view1D .mat) .d false]),
  (.vml_atan, [.obj (.view1D .ten) .d true, .obj (.view1D .ten) .d false])]

/-- the overloads of `tVmlVec_13` that are declared -/
def hVmlVec_13 : List (Fn × List Par) := [
  (.vml_atan, [.obj .vector .s true, .obj .vector .s false]),
  (.vml_atan, [.obj .vector .s true, .obj (.view1D .vec) .s false]),
  (.vml_atan, [.obj .vector .s true, .obj (.view1D .mat) .s false]),
  (.vml_atan, [.obj .vector .s true, .obj (.view1D .ten) .s false]),
  (.vml_atan, [.obj (.view1D .vec) .s true, .obj .vector .s false]),
  (.vml_atan, [.obj (.view1D .vec) .s true, .obj (.view1D .vec) .s false]),
  (.vml_atan, [.obj (.view1D .vec) .s true, .obj (.view1D .mat) .s false]),
  (.vml_atan, [.obj (.view1D .vec) .s true, .obj (.view1D .ten) .s false]),
  (.vml_atan, [.obj (.view1D .mat) .s true, .obj .vector .s false]),
  (.vml_atan, [.obj (.view1D .mat) .s true, .obj (.view1D .vec) .s false]),
  (.vml_atan, [.obj (.view1D .mat) .s true, .obj (.view1D .mat) .s false]),
  (.vml_atan, [.obj (.view1D .mat) .s true, .obj (.view1D .ten) .s false]),
  (.vml_atan, [.obj (.view1D .ten) .s true, .obj .vector .s false]),
  (.vml_atan, [.obj (.view1D .ten) .s true, .obj (.view1D .vec) .s false]),
  (.vml_atan, [.obj (.view1D .ten) .s true, .obj (.view1D .mat) .s false]),
  (.vml_atan, [.obj (.view1D .ten) .s true, .obj (.view1D .ten) .s false]),
  (.vml_atanh, [.obj .vector .d true, .obj .vector .d false]),
  (.vml_atanh, [.obj .vector .d true, .obj (.view1D .vec) .d false]),
  (.vml_atanh, [.obj .vector .d true, .obj (.view1D .mat) .d false]),
  (.vml_atanh, [.obj .vector .d true, .obj (.view1D .ten) .d false]),
  (.vml_atanh, [.obj (.view1D .vec) .d true, .obj .vector .d false]),
  (.vml_atanh, [.obj (.view1D .vec) .d true, .obj (.view1D .vec) .d false]),
  (.vml_atanh, [.obj (.view1D .vec) .d true, .obj (.view1D .mat) .d false]),
  (.vml_atanh, [.obj (.view1D .vec) .d true, .obj (.view1D .ten) .d false]),
  (.vml_atanh, [.obj (.view1D .mat) .d true, .obj .vector .d false]),
  (.vml_atanh, [.obj (.view1D .mat) .d true, .obj (.view1D .vec) .d false]),
  (.vml_atanh, [.obj (.view1D .mat) .d true, .obj (.view1D .mat) .d false]),
  (.vml_atanh, [.obj (.view1D .mat) .d true, .obj (.view1D .ten) .d false]),
  (.vml_atanh, [.obj (.view1D .ten) .d true, .obj .vector .d false]),
  (.vml_atanh, [.obj (.view1D .ten) .d true, .obj (.view1D .vec) .d false]),
  (.vml_atanh, [.obj (.view1D .ten) .d true, .obj (.view1D .mat) .d false]),
  (.vml_atanh, [.obj (.view1D .ten) .d true, .obj (.view1D .ten) .d false]),
  (.vml_atanh, [.obj .vector .s true, .obj .vector .s false]),
  (.vml_atanh, [.obj .vector .s true, .obj (.view1D .vec) .s false]),
  (.vml_atanh, [.obj .vector .s true, .obj (.view1D .mat) .s false]),
  (.vml_atanh, [.obj .vector .s true, .obj (.view1D .ten) .s false]),
  (.vml_atanh, [.obj (.view1D .vec) .s true, .obj .vector .s false]),
  (.vml_atanh, [.obj (.view1D .vec) .s true, .obj (.view1D .vec) .s false]),
  (.vml_atanh, [.obj (.view1D .vec) .s true, .obj (.view1D .mat) .s false]),
  (.vml_atanh, [.obj (.view1D .vec) .s true, .obj (.view1D .ten) .s false]),
  (.vml_atanh, [.obj (.view1D .mat) .s true, .obj .vector .s false]),
  (.vml_atanh, [.obj (.view1D .mat) .s true, .obj (.view1D .vec) .s false]),
  (.vml_atanh, [.obj (.view1D .mat) .s true, .obj (.view1D .mat) .s false]),
  (.vml_atanh, [.obj (.view1D .mat) .s true, .obj (.view1D .ten) .s false]),
  (.vml_atanh, [.obj (.view1D .ten) .s true, .obj .vector .s false]),
  (.vml_atanh, [.obj (.view1D .ten) .s true, .obj (.view1D .vec) .s false]),
  (.vml_atanh, [.obj (.view1D .ten) .s true, .obj (.view1D .mat) .s false]),
  (.vml_atanh, [.obj (.view1D .ten) .s true, .obj (.view1D .ten) .s false]),
  (.vml_ceil, [.obj .vector .d true, .obj .vector .d false]),
  (.vml_ceil, [.obj .vector .d true, .obj (.view1D .vec) .d false]),
  (.vml_ceil, [.obj .vector .d true, .obj (.view1D .mat) .d false]),
  (.vml_ceil, [.obj .vector .d true, .obj (.view1D .ten) .d false]),
  (.vml_ceil, [.obj (.view1D .vec) .d true, .obj .vector .d false]),
  (.vml_ceil, [.obj (.view1D .vec) .d true, .obj (.view1D .vec) .d false]),
  (.vml_ceil, [.obj (.view1D .vec) .d true, .obj (.view1D .mat) .d false]),
  (.vml_ceil, [.obj (.view1D .vec) .d true, .obj (.view1D .ten) .d false]),
  (.vml_ceil, [.obj (.view1D .mat) .d true, .obj .vector .d false]),
  (.vml_ceil, [.obj (.view1D .mat) .d true, .obj (.view1D .vec) .d false]),
  (.vml_ceil, [.obj (.view1D .mat) .d true, .obj (.view1D .mat) .d false]),
  (.vml_ceil, [.obj (.view1D .mat) .d true, .obj (.view1D .ten) .d false]),
  (.vml_ceil, [.obj (.view1D .ten) .d true, .obj .vector .d false]),
  (.vml_ceil, [.obj (.view1D .ten) .d true, .obj (.view1D .vec) .d false]),
  (.vml_ceil, [.obj (.view1D .ten) .d true, .obj (.view1D .mat) .d false]),
  (.vml_ceil, [.obj (.view1D .ten) .d true, .obj (.view1D .ten) .d false]),
  (.vml_ceil, [.obj .vector .s true, .obj .vector .s false]),
  (.vml_ceil, [.obj .vector .s true, .obj (.view1D .vec) .s false]),
  (.vml_ceil, [.obj .vector .s true, .obj (.view1D .mat) .s false]),
  (.vml_ceil, [.obj .vector .s true, .obj (.view1D .ten) .s false]),
  (.vml_ceil, [.obj (.view1D .vec) .s true, .obj .vector .s false]),
  (.vml_ceil, [.obj (.view1D .vec) .s true, .obj (.view1D .vec) .s false]),
  (.vml_ceil, [.obj (.view1D .vec) .s true, .obj (.view1D .mat) .s false]),
  (.vml_ceil, [.obj (.view1D .vec) .s true, .obj (.view1D .ten) .s false]),
  (.vml_ceil, [.obj (.view1D .mat) .s true, .obj .vector .s false]),
  (.vml_ceil, [.obj (.view1D .mat) .s true, .obj (.view1D .vec) .s false]),
  (.vml_ceil, [.obj (.view1D .mat) .s true, .obj (.view1D .mat) .s false]),
  (.vml_ceil, [.obj (.view1D .mat) .s true, .obj (.view1D .ten) .s false]),
  (.vml_ceil, [.obj (.view1D .ten) .s true, .obj .vector .s false]),
  (.vml_ceil, [.obj (.view1D .ten) .s true, .obj (.view1D .vec) .s false]),
  (.vml_ceil, [.obj (.view1D .ten) .s true, .obj (.view1D .mat) .s false]),
  (.vml_ceil, [.obj (.view1D .ten) .s true, .obj (.view1D .ten) .s false])]

/-- the overloads of `tVmlVec_14` that are declared -/
def hVmlVec_14 : List (Fn × List Par) := [
  (.vml_floor, [.obj .vector .d true, .obj .vector .d false]),
  (.vml_floor, [.obj .vector .d true, .obj (.view1D .vec) .d false]),
  (.vml_floor, [.obj .vector .d true, .obj (.view1D .mat) .d false]),
  (.vml_floor, [.obj .vector .d true, .obj (.view1D .ten) .d false]),
  (.vml_floor, [.obj (.view1D .vec) .d true, .obj .vector .d false]),
  (.vml_floor, [.obj (.view1D .vec) .d true, .obj (.view1D .vec) .d false]),
  (.vml_floor, [.obj (.view1D .vec) .d true, .obj (.view1D .mat) .d false]),
  (.vml_floor, [.obj (.view1D .vec) .d true, .obj (.view1D .ten) .d false]),
  (.vml_floor, [.obj (.view1D .mat) .d true, .obj .vector .d false]),
  (.vml_floor, [.obj (.view1D .mat) .d true, .obj (.view1D .vec) .d false]),
  (.vml_floor, [.obj (.view1D .mat) .d true, .obj (.view1D .mat) .d false]),
  (.vml_floor, [.obj (.view1D .mat) .d true, .obj (.view1D .ten) .d false]),
  (.vml_floor, [.obj (.view1D .ten) .d true, .obj .vector .d false]),
  (.vml_floor, [.obj (.view1D .ten) .d true, .obj (.view1D .vec) .d false]),
  (.vml_floor, [.obj (.view1D .ten) .d true, .obj (.view1D .mat) .d false]),
  (.vml_floor, [.obj (.view1D .ten) .d true, .obj (.view1D .ten) .d false]),
  (.vml_floor, [.obj .vector .s true, .obj .vector .s false]),
  (.vml_floor, [.obj .vector .s true, .obj (.view1D .vec) .s false]),
  (.vml_floor, [.obj .vector .s true, .obj (.view1D .mat) .s false]),
  (.vml_floor, [.obj .vector .s true, .obj (.view1D .ten) .s false]),
  (.vml_floor, [.obj (.view1D .vec) .s true, .obj .vector .s false]),
  (.vml_floor, [.obj (.view1D .vec) .s true, .obj (.view1D .vec) .s false]),
  (.vml_floor, [.obj (.view1D .vec) .s true, .obj (.view1D .mat) .s false]),
  (.vml_floor, [.obj (.view1D .vec) .s true, .obj (.view1D .ten) .s false]),
  (.vml_floor, [.obj (.view1D .mat) .s true, .obj .vector .s false]),
  (.vml_floor, [.obj (.view1D .mat) .s true, .obj (.view1D .vec) .s false]),
  (.vml_floor, [.obj (.view1D .mat) .s true, .obj (.view1D .mat) .s false]),
  (.vml_floor, [.obj (.view1D .mat) .s true, .obj (.view1D .ten) .s false]),
  (.vml_floor, [.obj (.view1D .ten) .s true, .obj .vector .s false]),
  (.vml_floor, [.obj (.view1D .ten) .s true, .obj (.view1D .vec) .s false]),
  (.vml_floor, [.obj (.view1D .ten) .s true, .obj (.view1D .mat) .s false]),
  (.vml_floor, [.obj (.view1D .ten) .s true, .obj (.view1D .ten) .s false]),
  (.vml_sign, [.obj .vector .d true, .obj .vector .d false]),
  (.vml_sign, [.obj .vector .d true, .obj (.view1D .vec) .d false]),
  (.vml_sign, [.obj .vector .d true, .obj (.view1D .mat) .d false]),
  (.vml_sign, [.obj .vector .d true, .obj (.view1D .ten) .d false]),
  (.vml_sign, [.obj (.view1D .vec) .d true, .obj .vector .d false]),
  (.vml_sign, [.obj (.view1D .vec) .d true, .obj (.view1D .vec) .d false]),
  (.vml_sign, [.obj (.view1D .vec) .d true, .obj (.view1D .mat) .d false]),
  (.vml_sign, [.obj (.view1D .vec) .d true, .obj (.view1D .ten) .d false]),
  (.vml_sign, [.obj (.view1D .mat) .d true, .obj .vector .d false]),
  (.vml_sign, [.obj (.view1D .mat) .d true, .obj (.view1D .vec) .d false]),
  (.vml_sign, [.obj (.view1D .mat) .d true, .obj (.view1D .mat) .d false]),
  (.vml_sign, [.obj (.view1D .mat) .d true, .obj (.view1D .ten) .d false]),
  (.vml_sign, [.obj (.view1D .ten) .d true, .obj .vector .d false]),
  (.vml_sign, [.obj (.view1D .ten) .d true, .obj (.view1D .vec) .d false]),
  (.vml_sign, [.obj (.view1D .ten) .d true, .obj (.view1D .mat) .d false]),
  (.vml_sign, [.obj (.view1D .ten) .d true, .obj (.view1D .ten) .d false]),
  (.vml_sign, [.obj .vector .s true, .obj .vector .s false]),
  (.vml_sign, [.obj .vector .s true, .obj (.view1D .vec) .s false]),
  (.vml_sign, [.obj .vector .s true, .obj (.view1D .mat) .s false]),
  (.vml_sign, [.obj .vector .s true, .obj (.view1D .ten) .s false]),
  (.vml_sign, [.obj (.view1D .vec) .s true, .obj .vector .s false]),
  (.vml_sign, [.obj (.view1D .vec) .s true, .obj (.view1D .vec) .s false]),
  (.vml_sign, [.obj (.view1D .vec) .s true, .obj (.view1D .mat) .s false]),
  (.vml_sign, [.obj (.view1D .vec) .s true, .obj (.view1D .ten) .s false]),
  (.vml_sign, [.obj (.view1D .mat) .s true, .obj .vector .s false]),
  (.vml_sign, [.obj (.view1D .mat) .s true, .obj (.view1D .vec) .s false]),
  (.vml_sign, [.obj (.view1D .mat) .s true, .obj (.view1D .mat) .s false]),
  (.vml_sign, [.obj (.view1D .mat) .s true, .obj (.view1D .ten) .s false]),
  (.vml_sign, [.obj (.view1D .ten) .s true, .obj .vector .s false]),
  (.vml_sign, [.obj (.view1D .ten) .s true, .obj (.view1D .vec) .s false]),
  (.vml_sign, [.obj (.view1D .ten) .s true, .obj (.view1D .mat) .s false]),
  (.vml_sign, [.obj (.view1D .ten) .s true, .obj (.view1D .ten) .s false]),
  (.vml_reciprocal, [.obj .vector .d true, .obj .vector .d false]),
  (.vml_reciprocal, [.obj .vector .d true, .obj (.view1D .vec) .d false]),
  (.vml_reciprocal, [.obj .vector .d true, .obj (.view1D .mat) .d false]),
  (.vml_reciprocal, [.obj .vector .d true, .obj (.view1D .ten) .d false]),
  (.vml_reciprocal, [.obj (.view1D .vec) .d true, .obj .vector .d false]),
  (.vml_reciprocal, [.obj (.view1D .vec) .d true, .obj (.view1D .vec) .d false]),
  (.vml_reciprocal, [.obj (.view1D .vec) .d true, .obj (.view1D .mat) .d false]),
  (.vml_reciprocal, [.obj (.view1D .vec) .d true, .obj (.view1D .ten) .d false]),
  (.vml_reciprocal, [.obj (.view1D .mat) .d true, .obj .vector .d false]),
  (.vml_reciprocal, [.obj (.view1D .mat) .d true, .obj (.view1D .vec) .d false]),
  (.vml_reciprocal, [.obj (.view1D .mat) .d true, .obj (.view1D .mat) .d false]),
  (.vml_reciprocal, [.obj (.view1D .mat) .d true, .obj (.view1D .ten) .d false]),
  (.vml_reciprocal, [.obj (.view1D .ten) .d true, .obj .vector .d false]),
  (.vml_reciprocal, [.obj (.view1D .ten) .d true, .obj (.view1D .vec) .d false]),
  (.vml_reciprocal, [.obj (.view1D .ten) .d true, .obj (.view1D .mat) .d false]),
  (.vml_reciprocal, [.obj (.view1D .ten) .d true, .obj (.view1D .ten) .d false])]

/-- the overloads of `tVmlVec_15` that are declared -/
def hVmlVec_15 : List (Fn × List Par) := [
  (.vml_reciprocal, [.obj .vector .s true, .obj .vector .s false]),
  (.vml_reciprocal, [.obj .vector .s true, .obj (.view1D .vec) .s false]),
  (.vml_reciprocal, [.obj .vector .s true, .obj (.view1D .mat) .s false]),
  (.vml_reciprocal, [.obj .vector .s true, .obj (.view1D .ten) .s false]),
  (.vml_reciprocal, [.obj (.view1D .vec) .s true, .obj .vector .s false]),
  (.vml_reciprocal, [.obj (.view1D .vec) .s true, .obj (.view1D .vec) .s false]),
  (.vml_reciprocal, [.obj (.view1D .vec) .s true, .obj (.view1D .mat) .s false]),
  (.vml_reciprocal, [.obj (.view1D .vec) .s true, .obj (.view1D .ten) .s false]),
  (.vml_reciprocal, [.obj (.view1D .mat) .s true, .obj .vector .s false]),
  (.vml_reciprocal, [.obj (.view1D .mat) .s true, .obj (.view1D .vec) .s false]),
  (.vml_reciprocal, [.obj (.view1D .mat) .s true, .obj (.view1D .mat) .s false]),
  (.vml_reciprocal, [.obj (.view1D .mat) .s true, .obj (.view1D .ten) .s false]),
  (.vml_reciprocal, [.obj (.view1D .ten) .s true, .obj .vector .s false]),
  (.vml_reciprocal, [.obj (.view1D .ten) .s true, .obj (.view1D .vec) .s false]),
  (.vml_reciprocal, [.obj (.view1D .ten) .s true, .obj (.view1D .mat) .s false]),
  (.vml_reciprocal, [.obj (.view1D .ten) .s true, .obj (.view1D .ten) .s false]),
  (.vml_exp, [.obj .vector .d true, .obj .vector .d false]),
  (.vml_exp, [.obj .vector .d true, .obj (.view1D .vec) .d false]),
  (.vml_exp, [.obj .vector .d true, .obj (.view1D .mat) .d false]),
  (.vml_exp, [.obj .vector .d true, .obj (.view1D .ten) .d false]),
  (.vml_exp, [.obj (.view1D .vec) .d true, .obj .vector .d false]),
  (.vml_exp, [.obj (.view1D .vec) .d true, .obj (.view1D .vec) .d false]),
  (.vml_exp, [.obj (.view1D .vec) .d true, .obj (.view1D .mat) .d false]),
  (.vml_exp, [.obj (.view1D .vec) .d true, .obj (.view1D .ten) .d false]),
  (.vml_exp, [.obj (.view1D .mat) .d true, .obj .vector .d false]),
  (.vml_exp, [.obj (.view1D .mat) .d true, .obj (.view1D .vec) .d false]),
  (.vml_exp, [.obj (.view1D .mat) .d true, .obj (.view1D .mat) .d false]),
  (.vml_exp, [.obj (.view1D .mat) .d true, .obj (.view1D .ten) .d false]),
  (.vml_exp, [.obj (.view1D .ten) .d true, .obj .vector .d false]),
  (.vml_exp, [.obj (.view1D .ten) .d true, .obj (.view1D .vec) .d false]),
  (.vml_exp, [.obj (.view1D .ten) .d true, .obj (.view1D .mat) .d false]),
  (.vml_exp, [.obj (.view1D .ten) .d true, .obj (.view1D .ten) .d false]),
  (.vml_exp, [.obj .vector .s true, .obj .vector .s false]),
  (.vml_exp, [.obj .vector .s true, .obj (.view1D .vec) .s false]),
  (.vml_exp, [.obj .vector .s true, .obj (.view1D .mat) .s false]),
  (.vml_exp, [.obj .vector .s true, .obj (.view1D .ten) .s false]),
  (.vml_exp, [.obj (.view1D .vec) .s true, .obj .vector .s false]),
  (.vml_exp, [.obj (.view1D .vec) .s true, .obj (.view1D .vec) .s false]),
  (.vml_exp, [.obj (.view1D .vec) .s true, .obj (.view1D .mat) .s false]),
  (.vml_exp, [.obj (.view1D .vec) .s true, .obj (.view1D .ten) .s false]),
  (.vml_exp, [.obj (.view1D .mat) .s true, .obj .vector .s false]),
  (.vml_exp, [.obj (.view1D .mat) .s true, .obj (.view1D .vec) .s false]),
  (.vml_exp, [.obj (.view1D .mat) .s true, .obj (.view1D .mat) .s false]),
  (.vml_exp, [.obj (.view1D .mat) .s true, .obj (.view1D .ten) .s false]),
  (.vml_exp, [.obj (.view1D .ten) .s true, .obj .vector .s false]),
  (.vml_exp, [.obj (.view1D .ten) .s true, .obj (.view1D .vec) .s false]),
  (.vml_exp, [.obj (.view1D .ten) .s true, .obj (.view1D .mat) .s false]),
  (.vml_exp, [.obj (.view1D .ten) .s true, .obj (.view1D .ten) .s false]),
  (.vml_max, [.obj .vector .d true, .obj .vector .d true, .obj .vector .d false]),
  (.vml_max, [.obj .vector .d true, .obj .vector .d true, .obj (.view1D .vec) .d false]),
  (.vml_max, [.obj .vector .d true, .obj .vector .d true, .obj (.view1D .mat) .d false]),
  (.vml_max, [.obj .vector .d true, .obj .vector .d true, .obj (.view1D .ten) .d false]),
  (.vml_max, [.obj .vector .d true, .obj (.view1D .vec) .d true, .obj .vector .d false]),
  (.vml_max, [.obj .vector .d true, .obj (.view1D .vec) .d true, .obj (.view1D .vec) .d false]),
  (.vml_max, [.obj .vector .d true, .obj (.view1D .vec) .d true, .obj (.view1D .mat) .d false]),
  (.vml_max, [.obj .vector .d true, .obj (.view1D .vec) .d true, .obj (.view1D .ten) .d false]),
  (.vml_max, [.obj .vector .d true, .obj (.view1D .mat) .d true, .obj .vector .d false]),
  (.vml_max, [.obj .vector .d true, .obj (.view1D .mat) .d true, .obj (.view1D .vec) .d false]),
  (.vml_max, [.obj .vector .d true, .obj (.view1D .mat) .d true, .obj (.view1D .mat) .d false]),
  (.vml_max, [.obj .vector .d true, .obj (.view1D .mat) .d true, .obj (.view1D .ten) .d false]),
  (.vml_max, [.obj .vector .d true, .obj (.view1D .ten) .d true, .obj .vector .d false]),
  (.vml_max, [.obj .vector .d true, .obj (.view1D .ten) .d true, .obj (.view1D .vec) .d false]),
  (.vml_max, [.obj .vector .d true, .obj (.view1D .ten) .d true, .obj (.view1D .mat) .d false]),
  (.vml_max, [.obj .vector .d true, .obj (.view1D .ten) .d true, .obj (.view1D .ten) .d false]),
  (.vml_max, [.obj (.view1D .vec) .d true, .obj .vector .d true, .obj .vector .d false]),
  (.vml_max, [.obj (.view1D .vec) .d true, .obj .vector .d true, .obj (.view1D .vec) .d false]),
  (.vml_max, [.obj (.view1D .vec) .d true, .obj .vector .d true, .obj (.view1D .mat) .d false]),
  (.vml_max, [.obj (.view1D .vec) .d true, .obj .vector .d true, .obj (.view1D .ten) .d false]),
  (.vml_max, [.obj (.view1D .vec) .d true, .obj (.view1D .vec) .d true, .obj .vector .d false]),
  (.vml_max, [.obj (.view1D .vec) .d true, .obj (.view1D .vec) .d true, .obj (.view1D .vec) .d false]),
  (.vml_max, [.obj (.view1D .vec) .d true, .obj (.view1D .vec) .d true, .obj (.view1D .mat) .d false]),
  (.vml_max, [.obj (.view1D .vec) .d true, .obj (.view1D .vec) .d true, .obj (.view1D .ten) .d false]),
  (.vml_max, [.obj (.view1D .vec) .d true, .obj (.view1D .mat) .d true, .obj .vector .d false]),
  (.vml_max, [.obj (.view1D .vec) .d true, .obj (.view1D .mat) .d true, .obj (.view1D .vec) .d false]),
  (.vml_max, [.obj (.view1D .vec) .d true, .obj (.view1D .mat) .d true, .obj (.view1D .mat) .d false]),
  (.vml_max, [.obj (.view1D .vec) .d true, .obj (.view1D .mat) .d true, .obj (.view1D .ten) .d false]),
  (.vml_max, [.obj (.view1D .vec) .d true, .obj (.view1D .ten) .d true, .obj .vector .d false]),
  (.vml_max, [.obj (.view1D .vec) .d true, .obj (.view1D .ten) .d true, .obj (.view1D .vec) .d false]),
  (.vml_max, [.obj (.view1D .vec) .d true, .obj (.view1D .ten) .d true, .obj (.view1D .mat) .d false]),
  (.vml_max, [.obj (.view1D .vec) .d true, .obj (.view1D .ten) .d true, .obj (.view1D .ten) .d false])]

/-- the overloads of `tVmlVec_16` that are declared -/
def hVmlVec_16 : List (Fn × List Par) := [
  (.vml_max, [.obj (.view1D .mat) .d true, .obj .vector .d true, .obj .vector .d false]),
  (.vml_max, [.obj (.view1D .mat) .d true, .obj .vector .d true, .obj (.view1D .vec) .d false]),
  (.vml_max, [.obj (.view1D .mat) .d true, .obj .vector .d true, .obj (.view1D .mat) .d false]),
  (.vml_max, [.obj (.view1D .mat) .d true, .obj .vector .d true, .obj (.view1D .ten) .d false]),
  (.vml_max, [.obj (.view1D .mat) .d true, .obj (.view1D .vec) .d true, .obj .vector .d false]),
  (.vml_max, [.obj (.view1D .mat) .d true, .obj (.view1D .vec) .d true, .obj (.view1D .vec) .d false]),
  (.vml_max, [.obj (.view1D .mat) .d true, .obj (.view1D .vec) .d true, .obj (.view1D .mat) .d false]),
  (.vml_max, [.obj (.view1D .mat) .d true, .obj (.view1D .vec) .d true, .obj (.view1D .ten) .d false]),
  (.vml_max, [.obj (.view1D .mat) .d true, .obj (.view1D .mat) .d true, .obj .vector .d false]),
  (.vml_max, [.obj (.view1D .mat) .d true, .obj (.view1D .mat) .d true, .obj (.view1D .vec) .d false]),
  (.vml_max, [.obj (.view1D .mat) .d true, .obj (.view1D .mat) .d true, .obj (.view1D .mat) .d false]),
  (.vml_max, [.obj (.view1D .mat) .d true, .obj (.view1D .mat) .d true, .obj (.view1D .ten) .d false]),
  (.vml_max, [.obj (.view1D .mat) .d true, .obj (.view1D .ten) .d true, .obj .vector .d false]),
  (.vml_max, [.obj (.view1D .mat) .d true, .obj (.view1D .ten) .d true, .obj (.view1D .vec) .d false]),
  (.vml_max, [.obj (.view1D .mat) .d true, .obj (.view1D .ten) .d true, .obj (.view1D .mat) .d false]),
  (.vml_max, [.obj (.view1D .mat) .d true, .obj (.view1D .ten) .d true, .obj (.view1D .ten) .d false]),
  (.vml_max, [.obj (.view1D .ten) .d true, .obj .vector .d true, .obj .vector .d false]),
  (.vml_max, [.obj (.view1D .ten) .d true, .obj .vector .d true, .obj (.view1D .vec) .d false]),
  (.vml_max, [.obj (.view1D .ten) .d true, .obj .vector .d true, .obj (.view1D .mat) .d false]),
  (.vml_max, [.obj (.view1D .ten) .d true, .obj .vector .d true, .obj (.view1D .ten) .d false]),
  (.vml_max, [.obj (.view1D .ten) .d true, .obj (.view1D .vec) .d true, .obj .vector .d false]),
  (.vml_max, [.obj (.view1D .ten) .d true, .obj (.view1D .vec) .d true, .obj (.view1D .vec) .d false]),
  (.vml_max, [.obj (.view1D .ten) .d true, .obj (.view1D .vec) .d true, .obj (.view1D .mat) .d false]),
  (.vml_max, [.obj (.view1D .ten) .d true, .obj (.view1D .vec) .d true, .obj (.view1D .ten) .d false]),
  (.vml_max, [.obj (.view1D .ten) .d true, .obj (.view1D .mat) .d true, .obj .vector .d false]),
  (.vml_max, [.obj (.view1D .ten) .d true, .obj (.view1D .mat) .d true, .obj (.view1D .vec) .d false]),
  (.vml_max, [.obj (.view1D .ten) .d true, .obj (.view1D .mat) .d true, .obj (.view1D .mat) .d false]),
  (.vml_max, [.obj (.view1D .ten) .d true, .obj (.view1D .mat) .d true, .obj (.view1D .ten) .d false]),
  (.vml_max, [.obj (.view1D .ten) .d true, .obj (.view1D .ten) .d true, .obj .vector .d false]),
  (.vml_max, [.obj (.view1D .ten) .d true, .obj (.view1D .ten) .d true, .obj (.view1D .vec) .d false]),
  (.vml_max, [.obj (.view1D .ten) .d true, .obj (.view1D .ten) .d true, .obj (.view1D .mat) .d false]),
  (.vml_max, [.obj (.view1D .ten) .d true, .obj (.view1D .ten) .d true, .obj (.view1D .ten) .d false]),
  (.vml_max, [.obj .vector .s true, .obj .vector .s true, .obj .vector .s false]),
  (.vml_max, [.obj .vector .s true, .obj .vector .s true, .obj (.view1D .vec) .s false]),
  (.vml_max, [.obj .vector .s true, .obj .vector .s true, .obj (.view1D .mat) .s false]),
  (.vml_max, [.obj .vector .s true, .obj .vector .s true, .obj (.view1D .ten) .s false]),
  (.vml_max, [.obj .vector .s true, .obj (.view1D .vec) .s true, .obj .vector .s false]),
  (.vml_max, [.obj .vector .s true, .obj (.view1D .vec) .s true, .obj (.view1D .vec) .s false]),
  (.vml_max, [.obj .vector .s true, .obj (.view1D .vec) .s true, .obj (.view1D .mat) .s false]),
  (.vml_max, [.obj .vector .s true, .obj (.view1D .vec) .s true, .obj (.view1D .ten) .s false]),
  (.vml_max, [.obj .vector .s true, .obj (.view1D .mat) .s true, .obj .vector .s false]),
  (.vml_max, [.obj .vector .s true, .obj (.view1D .mat) .s true, .obj (.view1D .vec) .s false]),
  (.vml_max, [.obj .vector .s true, .obj (.view1D .mat) .s true, .obj (.view1D .mat) .s false]),
  (.vml_max, [.obj .vector .s true, .obj (.view1D .mat) .s true, .obj (.view1D .ten) .s false]),
  (.vml_max, [.obj .vector .s true, .obj (.view1D .ten) .s true, .obj .vector .s false]),
  (.vml_max, [.obj .vector .s true, .obj (.view1D .ten) .s true, .obj (.view1D .vec) .s false]),
  (.vml_max, [.obj .vector .s true, .obj (.view1D .ten) .s true, .obj (.view1D .mat) .s false]),
  (.vml_max, [.obj .vector .s true, .obj (.view1D .ten) .s true, .obj (.view1D .ten) .s false]),
  (.vml_max, [.obj (.view1D .vec) .s true, .obj .vector .s true, .obj .vector .s false]),
  (.vml_max, [.obj (.view1D .vec) .s true, .obj .vector .s true, .obj (.view1D .vec) .s false]),
  (.vml_max, [.obj (.view1D .vec) .s true, .obj .vector .s true, .obj (.view1D .mat) .s false]),
  (.vml_max, [.obj (.view1D .vec) .s true, .obj .vector .s true, .obj (.view1D .ten) .s false]),
  (.vml_max, [.obj (.view1D .vec) .s true, .obj (.view1D .vec) .s true, .obj .vector .s false]),
  (.vml_max, [.obj (.view1D .vec) .s true, .obj (.view1D .vec) .s true, .obj (.view1D .vec) .s false]),
  (.vml_max, [.obj (.view1D .vec) .s true, .obj (.view1D .vec) .s true, .obj (.view1D .mat) .s false]),
  (.vml_max, [.obj (.view1D .vec) .s true, .obj (.view1D .vec) .s true, .obj (.view1D .ten) .s false]),
  (.vml_max, [.obj (.view1D .vec) .s true, .obj (.view1D .mat) .s true, .obj .vector .s false]),
  (.vml_max, [.obj (.view1D .vec) .s true, .obj (.view1D .mat) .s true, .obj (.view1D .vec) .s false]),
  (.vml_max, [.obj (.view1D .vec) .s true, .obj (.view1D .mat) .s true, .obj (.view1D .mat) .s false]),
  (.vml_max, [.obj (.view1D .vec) .s true, .obj (.view1D .mat) .s true, .obj (.view1D .ten) .s false]),
  (.vml_max, [.obj (.view1D .vec) .s true, .obj (.view1D .ten) .s true, .obj .vector .s false]),
  (.vml_max, [.obj (.view1D .vec) .s true, .obj (.view1D .ten) .s true, .obj (.view1D .vec) .s false]),
  (.vml_max, [.obj (.view1D .vec) .s true, .obj (.view1D .ten) .s true, .obj (.view1D .mat) .s false]),
  (.vml_max, [.obj (.view1D .vec) .s true, .obj (.view1D .ten) .s true, .obj (.view1D .ten) .s false]),
  (.vml_max, [.obj (.view1D .mat) .s true, .obj .vector .s true, .obj .vector .s false]),
  (.vml_max, [.obj (.view1D .mat) .s true, .obj .vector .s true, .obj (.view1D .vec) .s false]),
  (.vml_max, [.obj (.view1D .mat) .s true, .obj .vector .s true, .obj (.view1D .mat) .s false]),
  (.vml_max, [.obj (.view1D .mat) .s true, .obj .vector .s true, .obj (.view1D .ten) .s false]),
  (.vml_max, [.obj (.view1D .mat) .s true, .obj (.view1D .vec) .s true, .obj .vector .s false]),
  (.vml_max, [.obj (.view1D .mat) .s true, .obj (.view1D .vec) .s true, .obj (.view1D .vec) .s false]),
  (.vml_max, [.obj (.view1D .mat) .s true, .obj (.view1D .vec) .s true, .obj (.view1D .mat) .s false]),
  (.vml_max, [.obj (.view1D .mat) .s true, .obj (.view1D .vec) .s true, .obj (.view1D .ten) .s false]),
  (.vml_max, [.obj (.view1D .mat) .s true, .obj (.view1D .mat) .s true, .obj .vector .s false]),
  (.vml_max, [.obj (.view1D .mat) .s true, .obj (.view1D .mat) .s true, .obj (.view1D .vec) .s false]),
  (.vml_max, [.obj (.view1D .mat) .s true, .obj (.view1D .mat) .s true, .obj (.view1D .mat) .s false]),
  (.vml_max, [.obj (.view1D .mat) .s true, .obj (.view1D .mat) .s true, .obj (.view1D .ten) .s false]),
  (.vml_max, [.obj (.view1D .mat) .s true, .obj (.view1D .ten) .s true, .obj .vector .s false]),
  (.vml_max, [.obj (.view1D .mat) .s true, .obj (.view1D .ten) .s true, .obj (.view1D .vec) .s false]),
  (.vml_max, [.obj (.view1D .mat) .s true, .obj (.view1D .ten) .s true, .obj (.view1D .mat) .s false]),
  (.vml_max, [.obj (.view1D .mat) .s true, .obj (.view1D .ten) .s true, .obj (.view1D .ten) .s false])]

/-- the overloads of `tVmlVec_17` that are declared -/
def hVmlVec_17 : List (Fn × List Par) := [
  (.vml_max, [.obj (.view1D .ten) .s true, .obj .vector .s true, .obj .vector .s false]),
  (.vml_max, [.obj (.view1D .ten) .s true, .obj .vector .s true, .obj (.view1D .vec) .s false]),
  (.vml_max, [.obj (.view1D .ten) .s true, .obj .vector .s true, .obj (.view1D .mat) .s false]),
  (.vml_max, [.obj (.view1D .ten) .s true, .obj .vector .s true, .obj (.view1D .ten) .s false]),
  (.vml_max, [.obj (.view1D .ten) .s true, .obj (.view1D .vec) .s true, .obj .vector .s false]),
  (.vml_max, [.obj (.view1D .ten) .s true, .obj (.view1D .vec) .s true, .obj (.view1D .vec) .s false]),
  (.vml_max, [.obj (.view1D .ten) .s true, .obj (.view1D .vec) .s true, .obj (.view1D .mat) .s false]),
  (.vml_max, [.obj (.view1D .ten) .s true, .obj (.view1D .vec) .s true, .obj (.view1D .ten) .s false]),
  (.vml_max, [.obj (.view1D .ten) .s true, .obj (.view1D .mat) .s true, .obj .vector .s false]),
  (.vml_max, [.obj (.view1D .ten) .s true, .obj (.view1D .mat) .s true, .obj (.view1D .vec) .s false]),
  (.vml_max, [.obj (.view1D .ten) .s true, .obj (.view1D .mat) .s true, .obj (.view1D .mat) .s false]),
  (.vml_max, [.obj (.view1D .ten) .s true, .obj (.view1D .mat) .s true, .obj (.view1D .ten) .s false]),
  (.vml_max, [.obj (.view1D .ten) .s true, .obj (.view1D .ten) .s true, .obj .vector .s false]),
  (.vml_max, [.obj (.view1D .ten) .s true, .obj (.view1D .ten) .s true, .obj (.view1D .vec) .s false]),
  (.vml_max, [.obj (.view1D .ten) .s true, .obj (.view1D .ten) .s true, .obj (.view1D .mat) .s false]),
  (.vml_max, [.obj (.view1D .ten) .s true, .obj (.view1D .ten) .s true, .obj (.view1D .ten) .s false]),
  (.vml_min, [.obj .vector .d true, .obj .vector .d true, .obj .vector .d false]),
  (.vml_min, [.obj .vector .d true, .obj .vector .d true, .obj (.view1D .vec) .d false]),
  (.vml_min, [.obj .vector .d true, .obj .vector .d true, .obj (.view1D .mat) .d false]),
  (.vml_min, [.obj .vector .d true, .obj .vector .d true, .obj (.view1D .ten) .d false]),
  (.vml_min, [.obj .vector .d true, .obj (.view1D .vec) .d true, .obj .vector .d false]),
  (.vml_min, [.obj .vector .d true, .obj (.view1D .vec) .d true, .obj (.view1D .vec) .d false]),
  (.vml_min, [.obj .vector .d true, .obj (.view1D .vec) .d true, .obj (.view1D .mat) .d false]),
  (.vml_min, [.obj .vector .d true, .obj (.view1D .vec) .d true, .obj (.view1D .ten) .d false]),
  (.vml_min, [.obj .vector .d true, .obj (.view1D .mat) .d true, .obj .vector .d false]),
  (.vml_min, [.obj .vector .d true, .obj (.view1D .mat) .d true, .obj (.view1D .vec) .d false]),
  (.vml_min, [.obj .vector .d true, .obj (.view1D .mat) .d true, .obj (.view1D .mat) .d false]),
  (.vml_min, [.obj .vector .d true, .obj (.view1D .mat) .d true, .obj (.view1D .ten) .d false]),
  (.vml_min, [.obj .vector .d true, .obj (.view1D .ten) .d true, .obj .vector .d false]),
  (.vml_min, [.obj .vector .d true, .obj (.view1D .ten) .d true, .obj (.view1D .vec) .d false]),
  (.vml_min, [.obj .vector .d true, .obj (.view1D .ten) .d true, .obj (.view1D .mat) .d false]),
  (.vml_min, [.obj .vector .d true, .obj (.view1D .ten) .d true, .obj (.view1D .ten) .d false]),
  (.vml_min, [.obj (.view1D .vec) .d true, .obj .vector .d true, .obj .vector .d false]),
  (.vml_min, [.obj (.view1D .vec) .d true, .obj .vector .d true, .obj (.view1D .vec) .d false]),
  (.vml_min, [.obj (.view1D .vec) .d true, .obj .vector .d true, .obj (.view1D .mat) .d false]),
  (.vml_min, [.obj (.view1D .vec) .d true, .obj .vector .d true, .obj (.view1D .ten) .d false]),
  (.vml_min, [.obj (.view1D .vec) .d true, .obj (.view1D .vec) .d true, .obj .vector .d false]),
  (.vml_min, [.obj (.view1D .vec) .d true, .obj (.view1D .vec) .d true, .obj (.view1D .vec) .d false]),
  (.vml_min, [.obj (.view1D .vec) .d true, .obj (.view1D .vec) .d true, .obj (.view1D .mat) .d false]),
  (.vml_min, [.obj (.view1D .vec) .d true, .obj (.view1D .vec) .d true, .obj (.view1D .ten) .d false]),
  (.vml_min, [.obj (.view1D .vec) .d true, .obj (.view1D .mat) .d true, .obj .vector .d false]),
  (.vml_min, [.obj (.view1D .vec) .d true, .obj (.view1D .mat) .d true, .obj (.view1D .vec) .d false]),
  (.vml_min, [.obj (.view1D .vec) .d true, .obj (.view1D .mat) .d true, .obj (.view1D .mat) .d false]),
  (.vml_min, [.obj (.view1D .vec) .d true, .obj (.view1D .mat) .d true, .obj (.view1D .ten) .d false]),
  (.vml_min, [.obj (.view1D .vec) .d true, .obj (.view1D .ten) .d true, .obj .vector .d false]),
  (.vml_min, [.obj (.view1D .vec) .d true, .obj (.view1D .ten) .d true, .obj (.view1D .vec) .d false]),
  (.vml_min, [.obj (.view1D .vec) .d true, .obj (.view1D .ten) .d true, .obj (.view1D .mat) .d false]),
  (.vml_min, [.obj (.view1D .vec) .d true, .obj (.view1D .ten) .d true, .obj (.view1D .ten) .d false]),
  (.vml_min, [.obj (.view1D .mat) .d true, .obj .vector .d true, .obj .vector .d false]),
  (.vml_min, [.obj (.view1D .mat) .d true, .obj .vector .d true, .obj (.view1D .vec) .d false]),
  (.vml_min, [.obj (.view1D .mat) .d true, .obj .vector .d true, .obj (.view1D .mat) .d false]),
  (.vml_min, [.obj (.view1D .mat) .d true, .obj .vector .d true, .obj (.view1D .ten) .d false]),
  (.vml_min, [.obj (.view1D .mat) .d true, .obj (.view1D .vec) .d true, .obj .vector .d false]),
  (.vml_min, [.obj (.view1D .mat) .d true, .obj (.view1D .vec) .d true, .obj (.view1D .vec) .d false]),
  (.vml_min, [.obj (.view1D .mat) .d true, .obj (.view1D .vec) .d true, .obj (.view1D .mat) .d false]),
  (.vml_min, [.obj (.view1D .mat) .d true, .obj (.view1D .vec) .d true, .obj (.view1D .ten) .d false]),
  (.vml_min, [.obj (.view1D .mat) .d true, .obj (.view1D .mat) .d true, .obj .vector .d false]),
  (.vml_min, [.obj (.view1D .mat) .d true, .obj (.view1D .mat) .d true, .obj (.view1D .vec) .d false]),
  (.vml_min, [.obj (.view1D .mat) .d true, .obj (.view1D .mat) .d true, .obj (.view1D .mat) .d false]),
  (.vml_min, [.obj (.view1D .mat) .d true, .obj (.view1D .mat) .d true, .obj (.view1D .ten) .d false]),
  (.vml_min, [.obj (.view1D .mat) .d true, .obj (.view1D .ten) .d true, .obj .vector .d false]),
  (.vml_min, [.obj (.view1D .mat) .d true, .obj (.view1D .ten) .d true, .obj (.view1D .vec) .d false]),
  (.vml_min, [.obj (.view1D .mat) .d true, .obj (.view1D .ten) .d true, .obj (.view1D .mat) .d false]),
  (.vml_min, [.obj (.view1D .mat) .d true, .obj (.view1D .ten) .d true, .obj (.view1D .ten) .d false]),
  (.vml_min, [.obj (.view1D .ten) .d true, .obj .vector .d true, .obj .vector .d false]),
  (.vml_min, [.obj (.view1D .ten) .d true, .obj .vector .d true, .obj (.view1D .vec) .d false]),
  (.vml_min, [.obj (.view1D .ten) .d true, .obj .vector .d true, .obj (.view1D .mat) .d false]),
  (.vml_min, [.obj (.view1D .ten) .d true, .obj .vector .d true, .obj (.view1D .ten) .d false]),
  (.vml_min, [.obj (.view1D .ten) .d true, .obj (.view1D .vec) .d true, .obj .vector .d false]),
  (.vml_min, [.obj (.view1D .ten) .d true, .obj (.view1D .vec) .d true, .obj (.view1D .vec) .d false]),
  (.vml_min, [.obj (.view1D .ten) .d true, .obj (.view1D .vec) .d true, .obj (.view1D .mat) .d false]),
  (.vml_min, [.obj (.view1D .ten) .d true, .obj (.view1D .vec) .d true, .obj (.view1D .ten) .d false]),
  (.vml_min, [.obj (.view1D .ten) .d true, .obj (.view1D .mat) .d true, .obj .vector .d false]),
  (.vml_min, [.obj (.view1D .ten) .d true, .obj (.view1D .mat) .d true, .obj (.view1D .vec) .d false]),
  (.vml_min, [.obj (.view1D .ten) .d true, .obj (.view1D .mat) .d true, .obj (.view1D .mat) .d false]),
  (.vml_min, [.obj (.view1D .ten) .d true, .obj (.view1D .mat) .d true, .obj (.view1D .ten) .d false]),
  (.vml_min, [.obj (.view1D .ten) .d true, .obj (.view1D .ten) .d true, .obj .vector .d false]),
  (.vml_min, [.obj (.view1D .ten) .d true, .obj (.view1D .ten) .d true, .obj (.view1D .vec) .d false]),
  (.vml_min, [.obj (.view1D .ten) .d true, .obj (.view1D .ten) .d true, .obj (.view1D .mat) .d false]),
  (.vml_min, [.obj (.view1D .ten) .d true, .obj (.view1D .ten) .d true, .obj (.view1D .ten) .d false])]

/-- the overloads of `tVmlVec_18` that are declared -/
def hVmlVec_18 : List (Fn × List Par) := [
  (.vml_min, [.obj .vector .s true, .obj .vector .s true, .obj .vector .s false]),
  (.vml_min, [.obj .vector .s true, .obj .vector .s true, .obj (.view1D .vec) .s false]),
  (.vml_min, [.obj .vector .s true, .obj .vector .s true, .obj (.view1D .mat) .s false]),
  (.vml_min, [.obj .vector .s true, .obj .vector .s true, .obj (.view1D .ten) .s false]),
  (.vml_min, [.obj .vector .s true, .obj (.view1D .vec) .s true, .obj .vector .s false]),
  (.vml_min, [.obj .vector .s true, .obj (.view1D .vec) .s true, .obj (.view1D .vec) .s false]),
  (.vml_min, [.obj .vector .s true, .obj (.view1D .vec) .s true, .obj (.view1D .mat) .s false]),
  (.vml_min, [.obj .vector .s true, .obj (.view1D .vec) .s true, .obj (.view1D .ten) .s false]),
  (.vml_min, [.obj .vector .s true, .obj (.view1D .mat) .s true, .obj .vector .s false]),
  (.vml_min, [.obj .vector .s true, .obj (.view1D .mat) .s true, .obj (.view1D .vec) .s false]),
  (.vml_min, [.obj .vector .s true, .obj (.view1D .mat) .s true, .obj (.view1D .mat) .s false]),
  (.vml_min, [.obj .vector .s true, .obj (.view1D .mat) .s true, .obj (.view1D .ten) .s false]),
  (.vml_min, [.obj .vector .s true, .obj (.view1D .ten) .s true, .obj .vector .s false]),
  (.vml_min, [.obj .vector .s true, .obj (.view1D .ten) .s true, .obj (.view1D .vec) .s false]),
  (.vml_min, [.obj .vector .s true, .obj (.view1D .ten) .s true, .obj (.view1D .mat) .s false]),
  (.vml_min, [.obj .vector .s true, .obj (.view1D .ten) .s true, .obj (.view1D .ten) .s false]),
  (.vml_min, [.obj (.view1D .vec) .s true, .obj .vector .s true, .obj .vector .s false]),
  (.vml_min, [.obj (.view1D .vec) .s true, .obj .vector .s true, .obj (.view1D .vec) .s false]),
  (.vml_min, [.obj (.view1D .vec) .s true, .obj .vector .s true, .obj (.view1D .mat) .s false]),
  (.vml_min, [.obj (.view1D .vec) .s true, .obj .vector .s true, .obj (.view1D .ten) .s false]),
  (.vml_min, [.obj (.view1D .vec) .s true, .obj (.view1D .vec) .s true, .obj .vector .s false]),
  (.vml_min, [.obj (.view1D .vec) .s true, .obj (.view1D .vec) .s true, .obj (.view1D .vec) .s false]),
  (.vml_min, [.obj (.view1D .vec) .s true, .obj (.view1D .vec) .s true, .obj (.view1D .mat) .s false]),
  (.vml_min, [.obj (.view1D .vec) .s true, .obj (.view1D .vec) .s true, .obj (.view1D .ten) .s false]),
  (.vml_min, [.obj (.view1D .vec) .s true, .obj (.view1D .mat) .s true, .obj .vector .s false]),
  (.vml_min, [.obj (.view1D .vec) .s true, .obj (.view1D .mat) .s true, .obj (.view1D .vec) .s false]),
  (.vml_min, [.obj (.view1D .vec) .s true, .obj (.view1D .mat) .s true, .obj (.view1D .mat) .s false]),
  (.vml_min, [.obj (.view1D .vec) .s true, .obj (.view1D .mat) .s true, .obj (.view1D .ten) .s false]),
  (.vml_min, [.obj (.view1D .vec) .s true, .obj (.view1D .ten) .s true, .obj .vector .s false]),
  (.vml_min, [.obj (.view1D .vec) .s true, .obj (.view1D .ten) .s true, .obj (.view1D .vec) .s false]),
  (.vml_min, [.obj (.view1D .vec) .s true, .obj (.view1D .ten) .s true, .obj (.view1D .mat) .s false]),
  (.vml_min, [.obj (.view1D .vec) .s true, .obj (.view1D .ten) .s true, .obj (.view1D .ten) .s false]),
  (.vml_min, [.obj (.view1D .mat) .s true, .obj .vector .s true, .obj .vector .s false]),
  (.vml_min, [.obj (.view1D .mat) .s true, .obj .vector .s true, .obj (.view1D .vec) .s false]),
  (.vml_min, [.obj (.view1D .mat) .s true, .obj .vector .s true, .obj (.view1D .mat) .s false]),
  (.vml_min, [.obj (.view1D .mat) .s true, .obj .vector .s true, .obj (.view1D .ten) .s false]),
  (.vml_min, [.obj (.view1D .mat) .s true, .obj (.view1D .vec) .s true, .obj .vector .s false]),
  (.vml_min, [.obj (.view1D .mat) .s true, .obj (.view1D .vec) .s true, .obj (.view1D .vec) .s false]),
  (.vml_min, [.obj (.view1D .mat) .s true, .obj (.view1D .vec) .s true, .obj (.view1D .mat) .s false]),
  (.vml_min, [.obj (.view1D .mat) .s true, .obj (.view1D .vec) .s true, .obj (.view1D .ten) .s false]),
  (.vml_min, [.obj (.view1D .mat) .s true, .obj (.view1D .mat) .s true, .obj .vector .s false]),
  (.vml_min, [.obj (.view1D .mat) .s true, .obj (.view1D .mat) .s true, .obj (.view1D .vec) .s false]),
  (.vml_min, [.obj (.view1D .mat) .s true, .obj (.view1D .mat) .s true, .obj (.view1D .mat) .s false]),
  (.vml_min, [.obj (.view1D .mat) .s true, .obj (.view1D .mat) .s true, .obj (.view1D .ten) .s false]),
  (.vml_min, [.obj (.view1D .mat) .s true, .obj (.view1D .ten) .s true, .obj .vector .s false]),
  (.vml_min, [.obj (.view1D .mat) .s true, .obj (.view1D .ten) .s true, .obj (.view1D .vec) .s false]),
  (.vml_min, [.obj (.view1D .mat) .s true, .obj (.view1D .ten) .s true, .obj (.view1D .mat) .s false]),
  (.vml_min, [.obj (.view1D .mat) .s true, .obj (.view1D .ten) .s true, .obj (.view1D .ten) .s false]),
  (.vml_min, [.obj (.view1D .ten) .s true, .obj .vector .s true, .obj .vector .s false]),
  (.vml_min, [.obj (.view1D .ten) .s true, .obj .vector .s true, .obj (.view1D .vec) .s false]),
  (.vml_min, [.obj (.view1D .ten) .s true, .obj .vector .s true, .obj (.view1D .mat) .s false]),
  (.vml_min, [.obj (.view1D .ten) .s true, .obj .vector .s true, .obj (.view1D .ten) .s false]),
  (.vml_min, [.obj (.view1D .ten) .s true, .obj (.view1D .vec) .s true, .obj .vector .s false]),
  (.vml_min, [.obj (.view1D .ten) .s true, .obj (.view1D .vec) .s true, .obj (.view1D .vec) .s false]),
  (.vml_min, [.obj (.view1D .ten) .s true, .obj (.view1D .vec) .s true, .obj (.view1D .mat) .s false]),
  (.vml_min, [.obj (.view1D .ten) .s true, .obj (.view1D .vec) .s true, .obj (.view1D .ten) .s false]),
  (.vml_min, [.obj (.view1D .ten) .s true, .obj (.view1D .mat) .s true, .obj .vector .s false]),
  (.vml_min, [.obj (.view1D .ten) .s true, .obj (.view1D .mat) .s true, .obj (.view1D .vec) .s false]),
  (.vml_min, [.obj (.view1D .ten) .s true, .obj (.view1D .mat) .s true, .obj (.view1D .mat) .s false]),
  (.vml_min, [.obj (.view1D .ten) .s true, .obj (.view1D .mat) .s true, .obj (.view1D .ten) .s false]),
  (.vml_min, [.obj (.view1D .ten) .s true, .obj (.view1D .ten) .s true, .obj .vector .s false]),
  (.vml_min, [.obj (.view1D .ten) .s true, .obj (.view1D .ten) .s true, .obj (.view1D .vec) .s false]),
  (.vml_min, [.obj (.view1D .ten) .s true, .obj (.view1D .ten) .s true, .obj (.view1D .mat) .s false]),
  (.vml_min, [.obj (.view1D .ten) .s true, .obj (.view1D .ten) .s true, .obj (.view1D .ten) .s false]),
  (.vml_max, [.obj .vector .d true, .scal .d, .obj .vector .d false]),
  (.vml_max, [.obj .vector .d true, .scal .d, .obj (.view1D .vec) .d false]),
  (.vml_max, [.obj .vector .d true, .scal .d, .obj (.view1D .mat) .d false]),
  (.vml_max, [.obj .vector .d true, .scal .d, .obj (.view1D .ten) .d false]),
  (.vml_max, [.obj (.view1D .vec) .d true, .scal .d, .obj .vector .d false]),
  (.vml_max, [.obj (.view1D .vec) .d true, .scal .d, .obj (.view1D .vec) .d false]),
  (.vml_max, [.obj (.view1D .vec) .d true, .scal .d, .obj (.view1D .mat) .d false]),
  (.vml_max, [.obj (.view1D .vec) .d true, .scal .d, .obj (.view1D .ten) .d false]),
  (.vml_max, [.obj (.view1D .mat) .d true, .scal .d, .obj .vector .d false]),
  (.vml_max, [.obj (.view1D .mat) .d true, .scal .d, .obj (.view1D .vec) .d false]),
  (.vml_max, [.obj (.view1D .mat) .d true, .scal .d, .obj (.view1D .mat) .d false]),
  (.vml_max, [.obj (.view1D .mat) .d true, .scal .d, .obj (.view1D .ten) .d false]),
  (.vml_max, [.obj (.view1D .ten) .d true, .scal .d, .obj .vector .d false]),
  (.vml_max, [.obj (.view1D .ten) .d true, .scal .d, .obj (.view1D .vec) .d false]),
  (.vml_max, [.obj (.view1D .ten) .d true, .scal .d, .obj (.view1D .mat) .d false]),
  (.vml_max, [.obj (.view1D .ten) .d true, .scal .d, .obj (.view1D .ten) .d false])]

/-- the overloads of `tVmlVec_19` that are declared -/
def hVmlVec_19 : List (Fn × List Par) := [
  (.vml_max, [.obj .vector .s true, .scal .s, .obj .vector .s false]),
  (.vml_max, [.obj .vector .s true, .scal .s, .obj (.view1D .vec) .s false]),
  (.vml_max, [.obj .vector .s true, .scal .s, .obj (.view1D .mat) .s false]),
  (.vml_max, [.obj .vector .s true, .scal .s, .obj (.view1D .ten) .s false]),
  (.vml_max, [.obj (.view1D .vec) .s true, .scal .s, .obj .vector .s false]),
  (.vml_max, [.obj (.view1D .vec) .s true, .scal .s, .obj (.view1D .vec) .s false]),
  (.vml_max, [.obj (.view1D .vec) .s true, .scal .s, .obj (.view1D .mat) .s false]),
  (.vml_max, [.obj (.view1D .vec) .s true, .scal .s, .obj (.view1D .ten) .s false]),
  (.vml_max, [.obj (.view1D .mat) .s true, .scal .s, .obj .vector .s false]),
  (.vml_max, [.obj (.view1D .mat) .s true, .scal .s, .obj (.view1D .vec) .s false]),
  (.vml_max, [.obj (.view1D .mat) .s true, .scal .s, .obj (.view1D .mat) .s false]),
  (.vml_max, [.obj (.view1D .mat) .s true, .scal .s, .obj (.view1D .ten) .s false]),
  (.vml_max, [.obj (.view1D .ten) .s true, .scal .s, .obj .vector .s false]),
  (.vml_max, [.obj (.view1D .ten) .s true, .scal .s, .obj (.view1D .vec) .s false]),
  (.vml_max, [.obj (.view1D .ten) .s true, .scal .s, .obj (.view1D .mat) .s false]),
  (.vml_max, [.obj (.view1D .ten) .s true, .scal .s, .obj (.view1D .ten) .s false]),
  (.vml_min, [.obj .vector .d true, .scal .d, .obj .vector .d false]),
  (.vml_min, [.obj .vector .d true, .scal .d, .obj (.view1D .vec) .d false]),
  (.vml_min, [.obj .vector .d true, .scal .d, .obj (.view1D .mat) .d false]),
  (.vml_min, [.obj .vector .d true, .scal .d, .obj (.view1D .ten) .d false]),
  (.vml_min, [.obj (.view1D .vec) .d true, .scal .d, .obj .vector .d false]),
  (.vml_min, [.obj (.view1D .vec) .d true, .scal .d, .obj (.view1D .vec) .d false]),
  (.vml_min, [.obj (.view1D .vec) .d true, .scal .d, .obj (.view1D .mat) .d false]),
  (.vml_min, [.obj (.view1D .vec) .d true, .scal .d, .obj (.view1D .ten) .d false]),
  (.vml_min, [.obj (.view1D .mat) .d true, .scal .d, .obj .vector .d false]),
  (.vml_min, [.obj (.view1D .mat) .d true, .scal .d, .obj (.view1D .vec) .d false]),
  (.vml_min, [.obj (.view1D .mat) .d true, .scal .d, .obj (.view1D .mat) .d false]),
  (.vml_min, [.obj (.view1D .mat) .d true, .scal .d, .obj (.view1D .ten) .d false]),
  (.vml_min, [.obj (.view1D .ten) .d true, .scal .d, .obj .vector .d false]),
  (.vml_min, [.obj (.view1D .ten) .d true, .scal .d, .obj (.view1D .vec) .d false]),
  (.vml_min, [.obj (.view1D .ten) .d true, .scal .d, .obj (.view1D .mat) .d false]),
  (.vml_min, [.obj (.view1D .ten) .d true, .scal .d, .obj (.view1D .ten) .d false]),
  (.vml_min, [.obj .vector .s true, .scal .s, .obj .vector .s false]),
  (.vml_min, [.obj .vector .s true, .scal .s, .obj (.view1D .vec) .s false]),
  (.vml_min, [.obj .vector .s true, .scal .s, .obj (.view1D .mat) .s false]),
  (.vml_min, [.obj .vector .s true, .scal .s, .obj (.view1D .ten) .s false]),
  (.vml_min, [.obj (.view1D .vec) .s true, .scal .s, .obj .vector .s false]),
  (.vml_min, [.obj (.view1D .vec) .s true, .scal .s, .obj (.view1D .vec) .s false]),
  (.vml_min, [.obj (.view1D .vec) .s true, .scal .s, .obj (.view1D .mat) .s false]),
  (.vml_min, [.obj (.view1D .vec) .s true, .scal .s, .obj (.view1D .ten) .s false]),
  (.vml_min, [.obj (.view1D .mat) .s true, .scal .s, .obj .vector .s false]),
  (.vml_min, [.obj (.view1D .mat) .s true, .scal .s, .obj (.view1D .vec) .s false]),
  (.vml_min, [.obj (.view1D .mat) .s true, .scal .s, .obj (.view1D .mat) .s false]),
  (.vml_min, [.obj (.view1D .mat) .s true, .scal .s, .obj (.view1D .ten) .s false]),
  (.vml_min, [.obj (.view1D .ten) .s true, .scal .s, .obj .vector .s false]),
  (.vml_min, [.obj (.view1D .ten) .s true, .scal .s, .obj (.view1D .vec) .s false]),
  (.vml_min, [.obj (.view1D .ten) .s true, .scal .s, .obj (.view1D .mat) .s false]),
  (.vml_min, [.obj (.view1D .ten) .s true, .scal .s, .obj (.view1D .ten) .s false]),
  (.vml_alo, [.obj .vector .d true, .scal .d, .scal .d, .obj .vector .d false]),
  (.vml_alo, [.obj .vector .d true, .scal .d, .scal .d, .obj (.view1D .vec) .d false]),
  (.vml_alo, [.obj .vector .d true, .scal .d, .scal .d, .obj (.view1D .mat) .d false]),
  (.vml_alo, [.obj .vector .d true, .scal .d, .scal .d, .obj (.view1D .ten) .d false]),
  (.vml_alo, [.obj (.view1D .vec) .d true, .scal .d, .scal .d, .obj .vector .d false]),
  (.vml_alo, [.obj (.view1D .vec) .d true, .scal .d, .scal .d, .obj (.view1D .vec) .d false]),
  (.vml_alo, [.obj (.view1D .vec) .d true, .scal .d, .scal .d, .obj (.view1D .mat) .d false]),
  (.vml_alo, [.obj (.view1D .vec) .d true, .scal .d, .scal .d, .obj (.view1D .ten) .d false]),
  (.vml_alo, [.obj (.view1D .mat) .d true, .scal .d, .scal .d, .obj .vector .d false]),
  (.vml_alo, [.obj (.view1D .mat) .d true, .scal .d, .scal .d, .obj (.view1D .vec) .d false]),
  (.vml_alo, [.obj (.view1D .mat) .d true, .scal .d, .scal .d, .obj (.view1D .mat) .d false]),
  (.vml_alo, [.obj (.view1D .mat) .d true, .scal .d, .scal .d, .obj (.view1D .ten) .d false]),
  (.vml_alo, [.obj (.view1D .ten) .d true, .scal .d, .scal .d, .obj .vector .d false]),
  (.vml_alo, [.obj (.view1D .ten) .d true, .scal .d, .scal .d, .obj (.view1D .vec) .d false]),
  (.vml_alo, [.obj (.view1D .ten) .d true, .scal .d, .scal .d, .obj (.view1D .mat) .d false]),
  (.vml_alo, [.obj (.view1D .ten) .d true, .scal .d, .scal .d, .obj (.view1D .ten) .d false]),
  (.vml_alo, [.obj .vector .s true, .scal .s, .scal .s, .obj .vector .s false]),
  (.vml_alo, [.obj .vector .s true, .scal .s, .scal .s, .obj (.view1D .vec) .s false]),
  (.vml_alo, [.obj .vector .s true, .scal .s, .scal .s, .obj (.view1D .mat) .s false]),
  (.vml_alo, [.obj .vector .s true, .scal .s, .scal .s, .obj (.view1D .ten) .s false]),
  (.vml_alo, [.obj (.view1D .vec) .s true, .scal .s, .scal .s, .obj .vector .s false]),
  (.vml_alo, [.obj (.view1D .vec) .s true, .scal .s, .scal .s, .obj (.view1D .vec) .s false]),
  (.vml_alo, [.obj (.view1D .vec) .s true, .scal .s, .scal .s, .obj (.view1D .mat) .s false]),
  (.vml_alo, [.obj (.view1D .vec) .s true, .scal .s, .scal .s, .obj (.view1D .ten) .s false]),
  (.vml_alo, [.obj (.view1D .mat) .s true, .scal .s, .scal .s, .obj .vector .s false]),
  (.vml_alo, [.obj (.view1D .mat) .s true, .scal .s, .scal .s, .obj (.view1D .vec) .s false]),
  (.vml_alo, [.obj (.view1D .mat) .s true, .scal .s, .scal .s, .obj (.view1D .mat) .s false]),
  (.vml_alo, [.obj (.view1D .mat) .s true, .scal .s, .scal .s, .obj (.view1D .ten) .s false]),
  (.vml_alo, [.obj (.view1D .ten) .s true, .scal .s, .scal .s, .obj .vector .s false]),
  (.vml_alo, [.obj (.view1D .ten) .s true, .scal .s, .scal .s, .obj (.view1D .vec) .s false]),
  (.vml_alo, [.obj (.view1D .ten) .s true, .scal .s, .scal .s, .obj (.view1D .mat) .s false]),
  (.vml_alo, [.obj (.view1D .ten) .s true, .scal .s, .scal .s, .obj (.view1D .ten) .s false])]

/-- declared without a definition -/
def hExtra : List (Fn × List Par) := []

/-- all declarations (1600), table by table -/
def declared : List (List (Fn × List Par)) :=
  [hVmlVec_0, hVmlVec_1, hVmlVec_2, hVmlVec_3, hVmlVec_4, hVmlVec_5, hVmlVec_6, hVmlVec_7, hVmlVec_8, hVmlVec_9, hVmlVec_10, hVmlVec_11, hVmlVec_12, hVmlVec_13, hVmlVec_14, hVmlVec_15, hVmlVec_16, hVmlVec_17, hVmlVec_18, hVmlVec_19, hExtra]

end Verif.Dispatch.HeaderVec
