import Verif.Model.DispatchSrcMat

/-!
Generated by tools/header_gen.py from /repo/include/monolish/{blas,vml}/*.hpp: declared element-wise functions of DispatchSrcMat. Do not edit.
-/

namespace Verif.Dispatch.HeaderMat

/-- the overloads of `tVmlMat_0` that are declared -/
def hVmlMat_0 : List (Fn × List Par) := [
  (.vml_add, [.obj .crs .d true, .obj .crs .d true, .obj .crs .d false]),
  (.vml_add, [.obj .dense .d true, .obj .dense .d true, .obj .dense .d false]),
  (.vml_add, [.obj .dense .d true, .obj .dense .d true, .obj (.viewDense .vec) .d false]),
  (.vml_add, [.obj .dense .d true, .obj .dense .d true, .obj (.viewDense .mat) .d false]),
  (.vml_add, [.obj .dense .d true, .obj .dense .d true, .obj (.viewDense .ten) .d false]),
  (.vml_add, [.obj .dense .d true, .obj (.viewDense .vec) .d true, .obj .dense .d false]),
  (.vml_add, [.obj .dense .d true, .obj (.viewDense .vec) .d true, .obj (.viewDense .vec) .d false]),
  (.vml_add, [.obj .dense .d true, .obj (.viewDense .vec) .d true, .obj (.viewDense .mat) .d false]),
  (.vml_add, [.obj .dense .d true, .obj (.viewDense .vec) .d true, .obj (.viewDense .ten) .d false]),
  (.vml_add, [.obj .dense .d true, .obj (.viewDense .mat) .d true, .obj .dense .d false]),
  (.vml_add, [.obj .dense .d true, .obj (.viewDense .mat) .d true, .obj (.viewDense .vec) .d false]),
  (.vml_add, [.obj .dense .d true, .obj (.viewDense .mat) .d true, .obj (.viewDense .mat) .d false]),
  (.vml_add, [.obj .dense .d true, .obj (.viewDense .mat) .d true, .obj (.viewDense .ten) .d false]),
  (.vml_add, [.obj .dense .d true, .obj (.viewDense .ten) .d true, .obj .dense .d false]),
  (.vml_add, [.obj .dense .d true, .obj (.viewDense .ten) .d true, .obj (.viewDense .vec) .d false]),
  (.vml_add, [.obj .dense .d true, .obj (.viewDense .ten) .d true, .obj (.viewDense .mat) .d false]),
  (.vml_add, [.obj .dense .d true, .obj (.viewDense .ten) .d true, .obj (.viewDense .ten) .d false]),
  (.vml_add, [.obj (.viewDense .vec) .d true, .obj .dense .d true, .obj .dense .d false]),
  (.vml_add, [.obj (.viewDense .vec) .d true, .obj .dense .d true, .obj (.viewDense .vec) .d false]),
  (.vml_add, [.obj (.viewDense .vec) .d true, .obj .dense .d true, .obj (.viewDense .mat) .d false]),
  (.vml_add, [.obj (.viewDense .vec) .d true, .obj .dense .d true, .obj (.viewDense .ten) .d false]),
  (.vml_add, [.obj (.viewDense .vec) .d true, .obj (.viewDense .vec) .d true, .obj .dense .d false]),
  (.vml_add, [.obj (.viewDense .vec) .d true, .obj (.viewDense .vec) .d true, .obj (.viewDense .vec) .d false]),
  (.vml_add, [.obj (.viewDense .vec) .d true, .obj (.viewDense .vec) .d true, .obj (.viewDense .mat) .d false]),
  (.vml_add, [.obj (.viewDense .vec) .d true, .obj (.viewDense .vec) .d true, .obj (.viewDense .ten) .d false]),
  (.vml_add, [.obj (.viewDense .vec) .d true, .obj (.viewDense .mat) .d true, .obj .dense .d false]),
  (.vml_add, [.obj (.viewDense .vec) .d true, .obj (.viewDense .mat) .d true, .obj (.viewDense .vec) .d false]),
  (.vml_add, [.obj (.viewDense .vec) .d true, .obj (.viewDense .mat) .d true, .obj (.viewDense .mat) .d false]),
  (.vml_add, [.obj (.viewDense .vec) .d true, .obj (.viewDense .mat) .d true, .obj (.viewDense .ten) .d false]),
  (.vml_add, [.obj (.viewDense .vec) .d true, .obj (.viewDense .ten) .d true, .obj .dense .d false]),
  (.vml_add, [.obj (.viewDense .vec) .d true, .obj (.viewDense .ten) .d true, .obj (.viewDense .vec) .d false]),
  (.vml_add, [.obj (.viewDense .vec) .d true, .obj (.viewDense .ten) .d true, .obj (.viewDense .mat) .d false]),
  (.vml_add, [.obj (.viewDense .vec) .d true, .obj (.viewDense .ten) .d true, .obj (.viewDense .ten) .d false]),
  (.vml_add, [.obj (.viewDense .mat) .d true, .obj .dense .d true, .obj .dense .d false]),
  (.vml_add, [.obj (.viewDense .mat) .d true, .obj .dense .d true, .obj (.viewDense .vec) .d false]),
  (.vml_add, [.obj (.viewDense .mat) .d true, .obj .dense .d true, .obj (.viewDense .mat) .d false]),
  (.vml_add, [.obj (.viewDense .mat) .d true, .obj .dense .d true, .obj (.viewDense .ten) .d false]),
  (.vml_add, [.obj (.viewDense .mat) .d true, .obj (.viewDense .vec) .d true, .obj .dense .d false]),
  (.vml_add, [.obj (.viewDense .mat) .d true, .obj (.viewDense .vec) .d true, .obj (.viewDense .vec) .d false]),
  (.vml_add, [.obj (.viewDense .mat) .d true, .obj (.viewDense .vec) .d true, .obj (.viewDense .mat) .d false]),
  (.vml_add, [.obj (.viewDense .mat) .d true, .obj (.viewDense .vec) .d true, .obj (.viewDense .ten) .d false]),
  (.vml_add, [.obj (.viewDense .mat) .d true, .obj (.viewDense .mat) .d true, .obj .dense .d false]),
  (.vml_add, [.obj (.viewDense .mat) .d true, .obj (.viewDense .mat) .d true, .obj (.viewDense .vec) .d false]),
  (.vml_add, [.obj (.viewDense .mat) .d true, .obj (.viewDense .mat) .d true, .obj (.viewDense .mat) .d false]),
  (.vml_add, [.obj (.viewDense .mat) .d true, .obj (.viewDense .mat) .d true, .obj (.viewDense .ten) .d false]),
  (.vml_add, [.obj (.viewDense .mat) .d true, .obj (.viewDense .ten) .d true, .obj .dense .d false]),
  (.vml_add, [.obj (.viewDense .mat) .d true, .obj (.viewDense .ten) .d true, .obj (.viewDense .vec) .d false]),
  (.vml_add, [.obj (.viewDense .mat) .d true, .obj (.viewDense .ten) .d true, .obj (.viewDense .mat) .d false]),
  (.vml_add, [.obj (.viewDense .mat) .d true, .obj (.viewDense .ten) .d true, .obj (.viewDense .ten) .d false]),
  (.vml_add, [.obj (.viewDense .ten) .d true, .obj .dense .d true, .obj .dense .d false]),
  (.vml_add, [.obj (.viewDense .ten) .d true, .obj .dense .d true, .obj (.viewDense .vec) .d false]),
  (.vml_add, [.obj (.viewDense .ten) .d true, .obj .dense .d true, .obj (.viewDense .mat) .d false]),
  (.vml_add, [.obj (.viewDense .ten) .d true, .obj .dense .d true, .obj (.viewDense .ten) .d false]),
  (.vml_add, [.obj (.viewDense .ten) .d true, .obj (.viewDense .vec) .d true, .obj .dense .d false]),
  (.vml_add, [.obj (.viewDense .ten) .d true, .obj (.viewDense .vec) .d true, .obj (.viewDense .vec) .d false]),
  (.vml_add, [.obj (.viewDense .ten) .d true, .obj (.viewDense .vec) .d true, .obj (.viewDense .mat) .d false]),
  (.vml_add, [.obj (.viewDense .ten) .d true, .obj (.viewDense .vec) .d true, .obj (.viewDense .ten) .d false]),
  (.vml_add, [.obj (.viewDense .ten) .d true, .obj (.viewDense .mat) .d true, .obj .dense .d false]),
  (.vml_add, [.obj (.viewDense .ten) .d true, .obj (.viewDense .mat) .d true, .obj (.viewDense .vec) .d false]),
  (.vml_add, [.obj (.viewDense .ten) .d true, .obj (.viewDense .mat) .d true, .obj (.viewDense .mat) .d false]),
  (.vml_add, [.obj (.viewDense .ten) .d true, .obj (.viewDense .mat) .d true, .obj (.viewDense .ten) .d false]),
  (.vml_add, [.obj (.viewDense .ten) .d true, .obj (.viewDense .ten) .d true, .obj .dense .d false]),
  (.vml_add, [.obj (.viewDense .ten) .d true, .obj (.viewDense .ten) .d true, .obj (.viewDense .vec) .d false]),
  (.vml_add, [.obj (.viewDense .ten) .d true, .obj (.viewDense .ten) .d true, .obj (.viewDense .mat) .d false]),
  (.vml_add, [.obj (.viewDense .ten) .d true, .obj (.viewDense .ten) .d true, .obj (.viewDense .ten) .d false]),
  (.vml_add, [.obj .crs .s true, .obj .crs .s true, .obj .crs .s false]),
  (.vml_add, [.obj .dense .s true, .obj .dense .s true, .obj .dense .s false]),
  (.vml_add, [.obj .dense .s true, .obj .dense .s true, .obj (.viewDense .vec) .s false]),
  (.vml_add, [.obj .dense .s true, .obj .dense .s true, .obj (.viewDense .mat) .s false]),
  (.vml_add, [.obj .dense .s true, .obj .dense .s true, .obj (.viewDense .ten) .s false]),
  (.vml_add, [.obj .dense .s true, .obj (.viewDense .vec) .s true, .obj .dense .s false]),
  (.vml_add, [.obj .dense .s true, .obj (.viewDense .vec) .s true, .obj (.viewDense .vec) .s false]),
  (.vml_add, [.obj .dense .s true, .obj (.viewDense .vec) .s true, .obj (.viewDense .mat) .s false]),
  (.vml_add, [.obj .dense .s true, .obj (.viewDense .vec) .s true, .obj (.viewDense .ten) .s false]),
  (.vml_add, [.obj .dense .s true, .obj (.viewDense .mat) .s true, .obj .dense .s false]),
  (.vml_add, [.obj .dense .s true, .obj (.viewDense .mat) .s true, .obj (.viewDense .vec) .s false]),
  (.vml_add, [.obj .dense .s true, .obj (.viewDense .mat) .s true, .obj (.viewDense .mat) .s false]),
  (.vml_add, [.obj .dense .s true, .obj (.viewDense .mat) .s true, .obj (.viewDense .ten) .s false]),
  (.vml_add, [.obj .dense .s true, .obj (.viewDense .ten) .s true, .obj .dense .s false]),
  (.vml_add, [.obj .dense .s true, .obj (.viewDense .ten) .s true, .obj (.viewDense .vec) .s false])]

/-- the overloads of `tVmlMat_1` that are declared -/
def hVmlMat_1 : List (Fn × List Par) := [
  (.vml_add, [.obj .dense .s true, .obj (.viewDense .ten) .s true, .obj (.viewDense .mat) .s false]),
  (.vml_add, [.obj .dense .s true, .obj (.viewDense .ten) .s true, .obj (.viewDense .ten) .s false]),
  (.vml_add, [.obj (.viewDense .vec) .s true, .obj .dense .s true, .obj .dense .s false]),
  (.vml_add, [.obj (.viewDense .vec) .s true, .obj .dense .s true, .obj (.viewDense .vec) .s false]),
  (.vml_add, [.obj (.viewDense .vec) .s true, .obj .dense .s true, .obj (.viewDense .mat) .s false]),
  (.vml_add, [.obj (.viewDense .vec) .s true, .obj .dense .s true, .obj (.viewDense .ten) .s false]),
  (.vml_add, [.obj (.viewDense .vec) .s true, .obj (.viewDense .vec) .s true, .obj .dense .s false]),
  (.vml_add, [.obj (.viewDense .vec) .s true, .obj (.viewDense .vec) .s true, .obj (.viewDense .vec) .s false]),
  (.vml_add, [.obj (.viewDense .vec) .s true, .obj (.viewDense .vec) .s true, .obj (.viewDense .mat) .s false]),
  (.vml_add, [.obj (.viewDense .vec) .s true, .obj (.viewDense .vec) .s true, .obj (.viewDense .ten) .s false]),
  (.vml_add, [.obj (.viewDense .vec) .s true, .obj (.viewDense .mat) .s true, .obj .dense .s false]),
  (.vml_add, [.obj (.viewDense .vec) .s true, .obj (.viewDense .mat) .s true, .obj (.viewDense .vec) .s false]),
  (.vml_add, [.obj (.viewDense .vec) .s true, .obj (.viewDense .mat) .s true, .obj (.viewDense .mat) .s false]),
  (.vml_add, [.obj (.viewDense .vec) .s true, .obj (.viewDense .mat) .s true, .obj (.viewDense .ten) .s false]),
  (.vml_add, [.obj (.viewDense .vec) .s true, .obj (.viewDense .ten) .s true, .obj .dense .s false]),
  (.vml_add, [.obj (.viewDense .vec) .s true, .obj (.viewDense .ten) .s true, .obj (.viewDense .vec) .s false]),
  (.vml_add, [.obj (.viewDense .vec) .s true, .obj (.viewDense .ten) .s true, .obj (.viewDense .mat) .s false]),
  (.vml_add, [.obj (.viewDense .vec) .s true, .obj (.viewDense .ten) .s true, .obj (.viewDense .ten) .s false]),
  (.vml_add, [.obj (.viewDense .mat) .s true, .obj .dense .s true, .obj .dense .s false]),
  (.vml_add, [.obj (.viewDense .mat) .s true, .obj .dense .s true, .obj (.viewDense .vec) .s false]),
  (.vml_add, [.obj (.viewDense .mat) .s true, .obj .dense .s true, .obj (.viewDense .mat) .s false]),
  (.vml_add, [.obj (.viewDense .mat) .s true, .obj .dense .s true, .obj (.viewDense .ten) .s false]),
  (.vml_add, [.obj (.viewDense .mat) .s true, .obj (.viewDense .vec) .s true, .obj .dense .s false]),
  (.vml_add, [.obj (.viewDense .mat) .s true, .obj (.viewDense .vec) .s true, .obj (.viewDense .vec) .s false]),
  (.vml_add, [.obj (.viewDense .mat) .s true, .obj (.viewDense .vec) .s true, .obj (.viewDense .mat) .s false]),
  (.vml_add, [.obj (.viewDense .mat) .s true, .obj (.viewDense .vec) .s true, .obj (.viewDense .ten) .s false]),
  (.vml_add, [.obj (.viewDense .mat) .s true, .obj (.viewDense .mat) .s true, .obj .dense .s false]),
  (.vml_add, [.obj (.viewDense .mat) .s true, .obj (.viewDense .mat) .s true, .obj (.viewDense .vec) .s false]),
  (.vml_add, [.obj (.viewDense .mat) .s true, .obj (.viewDense .mat) .s true, .obj (.viewDense .mat) .s false]),
  (.vml_add, [.obj (.viewDense .mat) .s true, .obj (.viewDense .mat) .s true, .obj (.viewDense .ten) .s false]),
  (.vml_add, [.obj (.viewDense .mat) .s true, .obj (.viewDense .ten) .s true, .obj .dense .s false]),
  (.vml_add, [.obj (.viewDense .mat) .s true, .obj (.viewDense .ten) .s true, .obj (.viewDense .vec) .s false]),
  (.vml_add, [.obj (.viewDense .mat) .s true, .obj (.viewDense .ten) .s true, .obj (.viewDense .mat) .s false]),
  (.vml_add, [.obj (.viewDense .mat) .s true, .obj (.viewDense .ten) .s true, .obj (.viewDense .ten) .s false]),
  (.vml_add, [.obj (.viewDense .ten) .s true, .obj .dense .s true, .obj .dense .s false]),
  (.vml_add, [.obj (.viewDense .ten) .s true, .obj .dense .s true, .obj (.viewDense .vec) .s false]),
  (.vml_add, [.obj (.viewDense .ten) .s true, .obj .dense .s true, .obj (.viewDense .mat) .s false]),
  (.vml_add, [.obj (.viewDense .ten) .s true, .obj .dense .s true, .obj (.viewDense .ten) .s false]),
  (.vml_add, [.obj (.viewDense .ten) .s true, .obj (.viewDense .vec) .s true, .obj .dense .s false]),
  (.vml_add, [.obj (.viewDense .ten) .s true, .obj (.viewDense .vec) .s true, .obj (.viewDense .vec) .s false]),
  (.vml_add, [.obj (.viewDense .ten) .s true, .obj (.viewDense .vec) .s true, .obj (.viewDense .mat) .s false]),
  (.vml_add, [.obj (.viewDense .ten) .s true, .obj (.viewDense .vec) .s true, .obj (.viewDense .ten) .s false]),
  (.vml_add, [.obj (.viewDense .ten) .s true, .obj (.viewDense .mat) .s true, .obj .dense .s false]),
  (.vml_add, [.obj (.viewDense .ten) .s true, .obj (.viewDense .mat) .s true, .obj (.viewDense .vec) .s false]),
  (.vml_add, [.obj (.viewDense .ten) .s true, .obj (.viewDense .mat) .s true, .obj (.viewDense .mat) .s false]),
  (.vml_add, [.obj (.viewDense .ten) .s true, .obj (.viewDense .mat) .s true, .obj (.viewDense .ten) .s false]),
  (.vml_add, [.obj (.viewDense .ten) .s true, .obj (.viewDense .ten) .s true, .obj .dense .s false]),
  (.vml_add, [.obj (.viewDense .ten) .s true, .obj (.viewDense .ten) .s true, .obj (.viewDense .vec) .s false]),
  (.vml_add, [.obj (.viewDense .ten) .s true, .obj (.viewDense .ten) .s true, .obj (.viewDense .mat) .s false]),
  (.vml_add, [.obj (.viewDense .ten) .s true, .obj (.viewDense .ten) .s true, .obj (.viewDense .ten) .s false]),
  (.vml_sub, [.obj .crs .d true, .obj .crs .d true, .obj .crs .d false]),
  (.vml_sub, [.obj .dense .d true, .obj .dense .d true, .obj .dense .d false]),
  (.vml_sub, [.obj .dense .d true, .obj .dense .d true, .obj (.viewDense .vec) .d false]),
  (.vml_sub, [.obj .dense .d true, .obj .dense .d true, .obj (.viewDense .mat) .d false]),
  (.vml_sub, [.obj .dense .d true, .obj .dense .d true, .obj (.viewDense .ten) .d false]),
  (.vml_sub, [.obj .dense .d true, .obj (.viewDense .vec) .d true, .obj .dense .d false]),
  (.vml_sub, [.obj .dense .d true, .obj (.viewDense .vec) .d true, .obj (.viewDense .vec) .d false]),
  (.vml_sub, [.obj .dense .d true, .obj (.viewDense .vec) .d true, .obj (.viewDense .mat) .d false]),
  (.vml_sub, [.obj .dense .d true, .obj (.viewDense .vec) .d true, .obj (.viewDense .ten) .d false]),
  (.vml_sub, [.obj .dense .d true, .obj (.viewDense .mat) .d true, .obj .dense .d false]),
  (.vml_sub, [.obj .dense .d true, .obj (.viewDense .mat) .d true, .obj (.viewDense .vec) .d false]),
  (.vml_sub, [.obj .dense .d true, .obj (.viewDense .mat) .d true, .obj (.viewDense .mat) .d false]),
  (.vml_sub, [.obj .dense .d true, .obj (.viewDense .mat) .d true, .obj (.viewDense .ten) .d false]),
  (.vml_sub, [.obj .dense .d true, .obj (.viewDense .ten) .d true, .obj .dense .d false]),
  (.vml_sub, [.obj .dense .d true, .obj (.viewDense .ten) .d true, .obj (.viewDense .vec) .d false]),
  (.vml_sub, [.obj .dense .d true, .obj (.viewDense .ten) .d true, .obj (.viewDense .mat) .d false]),
  (.vml_sub, [.obj .dense .d true, .obj (.viewDense .ten) .d true, .obj (.viewDense .ten) .d false]),
  (.vml_sub, [.obj (.viewDense .vec) .d true, .obj .dense .d true, .obj .dense .d false]),
  (.vml_sub, [.obj (.viewDense .vec) .d true, .obj .dense .d true, .obj (.viewDense .vec) .d false]),
  (.vml_sub, [.obj (.viewDense .vec) .d true, .obj .dense .d true, .obj (.viewDense .mat) .d false]),
  (.vml_sub, [.obj (.viewDense .vec) .d true, .obj .dense .d true, .obj (.viewDense .ten) .d false]),
  (.vml_sub, [.obj (.viewDense .vec) .d true, .obj (.viewDense .vec) .d true, .obj .dense .d false]),
  (.vml_sub, [.obj (.viewDense .vec) .d true, .obj (.viewDense .vec) .d true, .obj (.viewDense .vec) .d false]),
  (.vml_sub, [.obj (.viewDense .vec) .d true, .obj (.viewDense .vec) .d true, .obj (.viewDense .mat) .d false]),
  (.vml_sub, [.obj (.viewDense .vec) .d true, .obj (.viewDense .vec) .d true, .obj (.viewDense .ten) .d false]),
  (.vml_sub, [.obj (.viewDense .vec) .d true, .obj (.viewDense .mat) .d true, .obj .dense .d false]),
  (.vml_sub, [.obj (.viewDense .vec) .d true, .obj (.viewDense .mat) .d true, .obj (.viewDense .vec) .d false]),
  (.vml_sub, [.obj (.viewDense .vec) .d true, .obj (.viewDense .mat) .d true, .obj (.viewDense .mat) .d false]),
  (.vml_sub, [.obj (.viewDense .vec) .d true, .obj (.viewDense .mat) .d true, .obj (.viewDense .ten) .d false]),
  (.vml_sub, [.obj (.viewDense .vec) .d true, .obj (.viewDense .ten) .d true, .obj .dense .d false])]

/-- the overloads of `tVmlMat_2` that are declared -/
def hVmlMat_2 : List (Fn × List Par) := [
  (.vml_sub, [.obj (.viewDense .vec) .d true, .obj (.viewDense .ten) .d true, .obj (.viewDense .vec) .d false]),
  (.vml_sub, [.obj (.viewDense .vec) .d true, .obj (.viewDense .ten) .d true, .obj (.viewDense .mat) .d false]),
  (.vml_sub, [.obj (.viewDense .vec) .d true, .obj (.viewDense .ten) .d true, .obj (.viewDense .ten) .d false]),
  (.vml_sub, [.obj (.viewDense .mat) .d true, .obj .dense .d true, .obj .dense .d false]),
  (.vml_sub, [.obj (.viewDense .mat) .d true, .obj .dense .d true, .obj (.viewDense .vec) .d false]),
  (.vml_sub, [.obj (.viewDense .mat) .d true, .obj .dense .d true, .obj (.viewDense .mat) .d false]),
  (.vml_sub, [.obj (.viewDense .mat) .d true, .obj .dense .d true, .obj (.viewDense .ten) .d false]),
  (.vml_sub, [.obj (.viewDense .mat) .d true, .obj (.viewDense .vec) .d true, .obj .dense .d false]),
  (.vml_sub, [.obj (.viewDense .mat) .d true, .obj (.viewDense .vec) .d true, .obj (.viewDense .vec) .d false]),
  (.vml_sub, [.obj (.viewDense .mat) .d true, .obj (.viewDense .vec) .d true, .obj (.viewDense .mat) .d false]),
  (.vml_sub, [.obj (.viewDense .mat) .d true, .obj (.viewDense .vec) .d true, .obj (.viewDense .ten) .d false]),
  (.vml_sub, [.obj (.viewDense .mat) .d true, .obj (.viewDense .mat) .d true, .obj .dense .d false]),
  (.vml_sub, [.obj (.viewDense .mat) .d true, .obj (.viewDense .mat) .d true, .obj (.viewDense .vec) .d false]),
  (.vml_sub, [.obj (.viewDense .mat) .d true, .obj (.viewDense .mat) .d true, .obj (.viewDense .mat) .d false]),
  (.vml_sub, [.obj (.viewDense .mat) .d true, .obj (.viewDense .mat) .d true, .obj (.viewDense .ten) .d false]),
  (.vml_sub, [.obj (.viewDense .mat) .d true, .obj (.viewDense .ten) .d true, .obj .dense .d false]),
  (.vml_sub, [.obj (.viewDense .mat) .d true, .obj (.viewDense .ten) .d true, .obj (.viewDense .vec) .d false]),
  (.vml_sub, [.obj (.viewDense .mat) .d true, .obj (.viewDense .ten) .d true, .obj (.viewDense .mat) .d false]),
  (.vml_sub, [.obj (.viewDense .mat) .d true, .obj (.viewDense .ten) .d true, .obj (.viewDense .ten) .d false]),
  (.vml_sub, [.obj (.viewDense .ten) .d true, .obj .dense .d true, .obj .dense .d false]),
  (.vml_sub, [.obj (.viewDense .ten) .d true, .obj .dense .d true, .obj (.viewDense .vec) .d false]),
  (.vml_sub, [.obj (.viewDense .ten) .d true, .obj .dense .d true, .obj (.viewDense .mat) .d false]),
  (.vml_sub, [.obj (.viewDense .ten) .d true, .obj .dense .d true, .obj (.viewDense .ten) .d false]),
  (.vml_sub, [.obj (.viewDense .ten) .d true, .obj (.viewDense .vec) .d true, .obj .dense .d false]),
  (.vml_sub, [.obj (.viewDense .ten) .d true, .obj (.viewDense .vec) .d true, .obj (.viewDense .vec) .d false]),
  (.vml_sub, [.obj (.viewDense .ten) .d true, .obj (.viewDense .vec) .d true, .obj (.viewDense .mat) .d false]),
  (.vml_sub, [.obj (.viewDense .ten) .d true, .obj (.viewDense .vec) .d true, .obj (.viewDense .ten) .d false]),
  (.vml_sub, [.obj (.viewDense .ten) .d true, .obj (.viewDense .mat) .d true, .obj .dense .d false]),
  (.vml_sub, [.obj (.viewDense .ten) .d true, .obj (.viewDense .mat) .d true, .obj (.viewDense .vec) .d false]),
  (.vml_sub, [.obj (.viewDense .ten) .d true, .obj (.viewDense .mat) .d true, .obj (.viewDense .mat) .d false]),
  (.vml_sub, [.obj (.viewDense .ten) .d true, .obj (.viewDense .mat) .d true, .obj (.viewDense .ten) .d false]),
  (.vml_sub, [.obj (.viewDense .ten) .d true, .obj (.viewDense .ten) .d true, .obj .dense .d false]),
  (.vml_sub, [.obj (.viewDense .ten) .d true, .obj (.viewDense .ten) .d true, .obj (.viewDense .vec) .d false]),
  (.vml_sub, [.obj (.viewDense .ten) .d true, .obj (.viewDense .ten) .d true, .obj (.viewDense .mat) .d false]),
  (.vml_sub, [.obj (.viewDense .ten) .d true, .obj (.viewDense .ten) .d true, .obj (.viewDense .ten) .d false]),
  (.vml_sub, [.obj .crs .s true, .obj .crs .s true, .obj .crs .s false]),
  (.vml_sub, [.obj .dense .s true, .obj .dense .s true, .obj .dense .s false]),
  (.vml_sub, [.obj .dense .s true, .obj .dense .s true, .obj (.viewDense .vec) .s false]),
  (.vml_sub, [.obj .dense .s true, .obj .dense .s true, .obj (.viewDense .mat) .s false]),
  (.vml_sub, [.obj .dense .s true, .obj .dense .s true, .obj (.viewDense .ten) .s false]),
  (.vml_sub, [.obj .dense .s true, .obj (.viewDense .vec) .s true, .obj .dense .s false]),
  (.vml_sub, [.obj .dense .s true, .obj (.viewDense .vec) .s true, .obj (.viewDense .vec) .s false]),
  (.vml_sub, [.obj .dense .s true, .obj (.viewDense .vec) .s true, .obj (.viewDense .mat) .s false]),
  (.vml_sub, [.obj .dense .s true, .obj (.viewDense .vec) .s true, .obj (.viewDense .ten) .s false]),
  (.vml_sub, [.obj .dense .s true, .obj (.viewDense .mat) .s true, .obj .dense .s false]),
  (.vml_sub, [.obj .dense .s true, .obj (.viewDense .mat) .s true, .obj (.viewDense .vec) .s false]),
  (.vml_sub, [.obj .dense .s true, .obj (.viewDense .mat) .s true, .obj (.viewDense .mat) .s false]),
  (.vml_sub, [.obj .dense .s true, .obj (.viewDense .mat) .s true, .obj (.viewDense .ten) .s false]),
  (.vml_sub, [.obj .dense .s true, .obj (.viewDense .ten) .s true, .obj .dense .s false]),
  (.vml_sub, [.obj .dense .s true, .obj (.viewDense .ten) .s true, .obj (.viewDense .vec) .s false]),
  (.vml_sub, [.obj .dense .s true, .obj (.viewDense .ten) .s true, .obj (.viewDense .mat) .s false]),
  (.vml_sub, [.obj .dense .s true, .obj (.viewDense .ten) .s true, .obj (.viewDense .ten) .s false]),
  (.vml_sub, [.obj (.viewDense .vec) .s true, .obj .dense .s true, .obj .dense .s false]),
  (.vml_sub, [.obj (.viewDense .vec) .s true, .obj .dense .s true, .obj (.viewDense .vec) .s false]),
  (.vml_sub, [.obj (.viewDense .vec) .s true, .obj .dense .s true, .obj (.viewDense .mat) .s false]),
  (.vml_sub, [.obj (.viewDense .vec) .s true, .obj .dense .s true, .obj (.viewDense .ten) .s false]),
  (.vml_sub, [.obj (.viewDense .vec) .s true, .obj (.viewDense .vec) .s true, .obj .dense .s false]),
  (.vml_sub, [.obj (.viewDense .vec) .s true, .obj (.viewDense .vec) .s true, .obj (.viewDense .vec) .s false]),
  (.vml_sub, [.obj (.viewDense .vec) .s true, .obj (.viewDense .vec) .s true, .obj (.viewDense .mat) .s false]),
  (.vml_sub, [.obj (.viewDense .vec) .s true, .obj (.viewDense .vec) .s true, .obj (.viewDense .ten) .s false]),
  (.vml_sub, [.obj (.viewDense .vec) .s true, .obj (.viewDense .mat) .s true, .obj .dense .s false]),
  (.vml_sub, [.obj (.viewDense .vec) .s true, .obj (.viewDense .mat) .s true, .obj (.viewDense .vec) .s false]),
  (.vml_sub, [.obj (.viewDense .vec) .s true, .obj (.viewDense .mat) .s true, .obj (.viewDense .mat) .s false]),
  (.vml_sub, [.obj (.viewDense .vec) .s true, .obj (.viewDense .mat) .s true, .obj (.viewDense .ten) .s false]),
  (.vml_sub, [.obj (.viewDense .vec) .s true, .obj (.viewDense .ten) .s true, .obj .dense .s false]),
  (.vml_sub, [.obj (.viewDense .vec) .s true, .obj (.viewDense .ten) .s true, .obj (.viewDense .vec) .s false]),
  (.vml_sub, [.obj (.viewDense .vec) .s true, .obj (.viewDense .ten) .s true, .obj (.viewDense .mat) .s false]),
  (.vml_sub, [.obj (.viewDense .vec) .s true, .obj (.viewDense .ten) .s true, .obj (.viewDense .ten) .s false]),
  (.vml_sub, [.obj (.viewDense .mat) .s true, .obj .dense .s true, .obj .dense .s false]),
  (.vml_sub, [.obj (.viewDense .mat) .s true, .obj .dense .s true, .obj (.viewDense .vec) .s false]),
  (.vml_sub, [.obj (.viewDense .mat) .s true, .obj .dense .s true, .obj (.viewDense .mat) .s false]),
  (.vml_sub, [.obj (.viewDense .mat) .s true, .obj .dense .s true, .obj (.viewDense .ten) .s false]),
  (.vml_sub, [.obj (.viewDense .mat) .s true, .obj (.viewDense .vec) .s true, .obj .dense .s false]),
  (.vml_sub, [.obj (.viewDense .mat) .s true, .obj (.viewDense .vec) .s true, .obj (.viewDense .vec) .s false]),
  (.vml_sub, [.obj (.viewDense .mat) .s true, .obj (.viewDense .vec) .s true, .obj (.viewDense .mat) .s false]),
  (.vml_sub, [.obj (.viewDense .mat) .s true, .obj (.viewDense .vec) .s true, .obj (.viewDense .ten) .s false]),
  (.vml_sub, [.obj (.viewDense .mat) .s true, .obj (.viewDense .mat) .s true, .obj .dense .s false]),
  (.vml_sub, [.obj (.viewDense .mat) .s true, .obj (.viewDense .mat) .s true, .obj (.viewDense .vec) .s false]),
  (.vml_sub, [.obj (.viewDense .mat) .s true, .obj (.viewDense .mat) .s true, .obj (.viewDense .mat) .s false]),
  (.vml_sub, [.obj (.viewDense .mat) .s true, .obj (.viewDense .mat) .s true, .obj (.viewDense .ten) .s false])]

/-- the overloads of `tVmlMat_3` that are declared -/
def hVmlMat_3 : List (Fn × List Par) := [
  (.vml_sub, [.obj (.viewDense .mat) .s true, .obj (.viewDense .ten) .s true, .obj .dense .s false]),
  (.vml_sub, [.obj (.viewDense .mat) .s true, .obj (.viewDense .ten) .s true, .obj (.viewDense .vec) .s false]),
  (.vml_sub, [.obj (.viewDense .mat) .s true, .obj (.viewDense .ten) .s true, .obj (.viewDense .mat) .s false]),
  (.vml_sub, [.obj (.viewDense .mat) .s true, .obj (.viewDense .ten) .s true, .obj (.viewDense .ten) .s false]),
  (.vml_sub, [.obj (.viewDense .ten) .s true, .obj .dense .s true, .obj .dense .s false]),
  (.vml_sub, [.obj (.viewDense .ten) .s true, .obj .dense .s true, .obj (.viewDense .vec) .s false]),
  (.vml_sub, [.obj (.viewDense .ten) .s true, .obj .dense .s true, .obj (.viewDense .mat) .s false]),
  (.vml_sub, [.obj (.viewDense .ten) .s true, .obj .dense .s true, .obj (.viewDense .ten) .s false]),
  (.vml_sub, [.obj (.viewDense .ten) .s true, .obj (.viewDense .vec) .s true, .obj .dense .s false]),
  (.vml_sub, [.obj (.viewDense .ten) .s true, .obj (.viewDense .vec) .s true, .obj (.viewDense .vec) .s false]),
  (.vml_sub, [.obj (.viewDense .ten) .s true, .obj (.viewDense .vec) .s true, .obj (.viewDense .mat) .s false]),
  (.vml_sub, [.obj (.viewDense .ten) .s true, .obj (.viewDense .vec) .s true, .obj (.viewDense .ten) .s false]),
  (.vml_sub, [.obj (.viewDense .ten) .s true, .obj (.viewDense .mat) .s true, .obj .dense .s false]),
  (.vml_sub, [.obj (.viewDense .ten) .s true, .obj (.viewDense .mat) .s true, .obj (.viewDense .vec) .s false]),
  (.vml_sub, [.obj (.viewDense .ten) .s true, .obj (.viewDense .mat) .s true, .obj (.viewDense .mat) .s false]),
  (.vml_sub, [.obj (.viewDense .ten) .s true, .obj (.viewDense .mat) .s true, .obj (.viewDense .ten) .s false]),
  (.vml_sub, [.obj (.viewDense .ten) .s true, .obj (.viewDense .ten) .s true, .obj .dense .s false]),
  (.vml_sub, [.obj (.viewDense .ten) .s true, .obj (.viewDense .ten) .s true, .obj (.viewDense .vec) .s false]),
  (.vml_sub, [.obj (.viewDense .ten) .s true, .obj (.viewDense .ten) .s true, .obj (.viewDense .mat) .s false]),
  (.vml_sub, [.obj (.viewDense .ten) .s true, .obj (.viewDense .ten) .s true, .obj (.viewDense .ten) .s false]),
  (.vml_mul, [.obj .crs .d true, .obj .crs .d true, .obj .crs .d false]),
  (.vml_mul, [.obj .dense .d true, .obj .dense .d true, .obj .dense .d false]),
  (.vml_mul, [.obj .dense .d true, .obj .dense .d true, .obj (.viewDense .vec) .d false]),
  (.vml_mul, [.obj .dense .d true, .obj .dense .d true, .obj (.viewDense .mat) .d false]),
  (.vml_mul, [.obj .dense .d true, .obj .dense .d true, .obj (.viewDense .ten) .d false]),
  (.vml_mul, [.obj .dense .d true, .obj (.viewDense .vec) .d true, .obj .dense .d false]),
  (.vml_mul, [.obj .dense .d true, .obj (.viewDense .vec) .d true, .obj (.viewDense .vec) .d false]),
  (.vml_mul, [.obj .dense .d true, .obj (.viewDense .vec) .d true, .obj (.viewDense .mat) .d false]),
  (.vml_mul, [.obj .dense .d true, .obj (.viewDense .vec) .d true, .obj (.viewDense .ten) .d false]),
  (.vml_mul, [.obj .dense .d true, .obj (.viewDense .mat) .d true, .obj .dense .d false]),
  (.vml_mul, [.obj .dense .d true, .obj (.viewDense .mat) .d true, .obj (.viewDense .vec) .d false]),
  (.vml_mul, [.obj .dense .d true, .obj (.viewDense .mat) .d true, .obj (.viewDense .mat) .d false]),
  (.vml_mul, [.obj .dense .d true, .obj (.viewDense .mat) .d true, .obj (.viewDense .ten) .d false]),
  (.vml_mul, [.obj .dense .d true, .obj (.viewDense .ten) .d true, .obj .dense .d false]),
  (.vml_mul, [.obj .dense .d true, .obj (.viewDense .ten) .d true, .obj (.viewDense .vec) .d false]),
  (.vml_mul, [.obj .dense .d true, .obj (.viewDense .ten) .d true, .obj (.viewDense .mat) .d false]),
  (.vml_mul, [.obj .dense .d true, .obj (.viewDense .ten) .d true, .obj (.viewDense .ten) .d false]),
  (.vml_mul, [.obj (.viewDense .vec) .d true, .obj .dense .d true, .obj .dense .d false]),
  (.vml_mul, [.obj (.viewDense .vec) .d true, .obj .dense .d true, .obj (.viewDense .vec) .d false]),
  (.vml_mul, [.obj (.viewDense .vec) .d true, .obj .dense .d true, .obj (.viewDense .mat) .d false]),
  (.vml_mul, [.obj (.viewDense .vec) .d true, .obj .dense .d true, .obj (.viewDense .ten) .d false]),
  (.vml_mul, [.obj (.viewDense .vec) .d true, .obj (.viewDense .vec) .d true, .obj .dense .d false]),
  (.vml_mul, [.obj (.viewDense .vec) .d true, .obj (.viewDense .vec) .d true, .obj (.viewDense .vec) .d false]),
  (.vml_mul, [.obj (.viewDense .vec) .d true, .obj (.viewDense .vec) .d true, .obj (.viewDense .mat) .d false]),
  (.vml_mul, [.obj (.viewDense .vec) .d true, .obj (.viewDense .vec) .d true, .obj (.viewDense .ten) .d false]),
  (.vml_mul, [.obj (.viewDense .vec) .d true, .obj (.viewDense .mat) .d true, .obj .dense .d false]),
  (.vml_mul, [.obj (.viewDense .vec) .d true, .obj (.viewDense .mat) .d true, .obj (.viewDense .vec) .d false]),
  (.vml_mul, [.obj (.viewDense .vec) .d true, .obj (.viewDense .mat) .d true, .obj (.viewDense .mat) .d false]),
  (.vml_mul, [.obj (.viewDense .vec) .d true, .obj (.viewDense .mat) .d true, .obj (.viewDense .ten) .d false]),
  (.vml_mul, [.obj (.viewDense .vec) .d true, .obj (.viewDense .ten) .d true, .obj .dense .d false]),
  (.vml_mul, [.obj (.viewDense .vec) .d true, .obj (.viewDense .ten) .d true, .obj (.viewDense .vec) .d false]),
  (.vml_mul, [.obj (.viewDense .vec) .d true, .obj (.viewDense .ten) .d true, .obj (.viewDense .mat) .d false]),
  (.vml_mul, [.obj (.viewDense .vec) .d true, .obj (.viewDense .ten) .d true, .obj (.viewDense .ten) .d false]),
  (.vml_mul, [.obj (.viewDense .mat) .d true, .obj .dense .d true, .obj .dense .d false]),
  (.vml_mul, [.obj (.viewDense .mat) .d true, .obj .dense .d true, .obj (.viewDense .vec) .d false]),
  (.vml_mul, [.obj (.viewDense .mat) .d true, .obj .dense .d true, .obj (.viewDense .mat) .d false]),
  (.vml_mul, [.obj (.viewDense .mat) .d true, .obj .dense .d true, .obj (.viewDense .ten) .d false]),
  (.vml_mul, [.obj (.viewDense .mat) .d true, .obj (.viewDense .vec) .d true, .obj .dense .d false]),
  (.vml_mul, [.obj (.viewDense .mat) .d true, .obj (.viewDense .vec) .d true, .obj (.viewDense .vec) .d false]),
  (.vml_mul, [.obj (.viewDense .mat) .d true, .obj (.viewDense .vec) .d true, .obj (.viewDense .mat) .d false]),
  (.vml_mul, [.obj (.viewDense .mat) .d true, .obj (.viewDense .vec) .d true, .obj (.viewDense .ten) .d false]),
  (.vml_mul, [.obj (.viewDense .mat) .d true, .obj (.viewDense .mat) .d true, .obj .dense .d false]),
  (.vml_mul, [.obj (.viewDense .mat) .d true, .obj (.viewDense .mat) .d true, .obj (.viewDense .vec) .d false]),
  (.vml_mul, [.obj (.viewDense .mat) .d true, .obj (.viewDense .mat) .d true, .obj (.viewDense .mat) .d false]),
  (.vml_mul, [.obj (.viewDense .mat) .d true, .obj (.viewDense .mat) .d true, .obj (.viewDense .ten) .d false]),
  (.vml_mul, [.obj (.viewDense .mat) .d true, .obj (.viewDense .ten) .d true, .obj .dense .d false]),
  (.vml_mul, [.obj (.viewDense .mat) .d true, .obj (.viewDense .ten) .d true, .obj (.viewDense .vec) .d false]),
  (.vml_mul, [.obj (.viewDense .mat) .d true, .obj (.viewDense .ten) .d true, .obj (.viewDense .mat) .d false]),
  (.vml_mul, [.obj (.viewDense .mat) .d true, .obj (.viewDense .ten) .d true, .obj (.viewDense .ten) .d false]),
  (.vml_mul, [.obj (.viewDense .ten) .d true, .obj .dense .d true, .obj .dense .d false]),
  (.vml_mul, [.obj (.viewDense .ten) .d true, .obj .dense .d true, .obj (.viewDense .vec) .d false]),
  (.vml_mul, [.obj (.viewDense .ten) .d true, .obj .dense .d true, .obj (.viewDense .mat) .d false]),
  (.vml_mul, [.obj (.viewDense .ten) .d true, .obj .dense .d true, .obj (.viewDense .ten) .d false]),
  (.vml_mul, [.obj (.viewDense .ten) .d true, .obj (.viewDense .vec) .d true, .obj .dense .d false]),
  (.vml_mul, [.obj (.viewDense .ten) .d true, .obj (.viewDense .vec) .d true, .obj (.viewDense .vec) .d false]),
  (.vml_mul, [.obj (.viewDense .ten) .d true, .obj (.viewDense .vec) .d true, .obj (.viewDense .mat) .d false]),
  (.vml_mul, [.obj (.viewDense .ten) .d true, .obj (.viewDense .vec) .d true, .obj (.viewDense .ten) .d false]),
  (.vml_mul, [.obj (.viewDense .ten) .d true, .obj (.viewDense .mat) .d true, .obj .dense .d false]),
  (.vml_mul, [.obj (.viewDense .ten) .d true, .obj (.viewDense .mat) .d true, .obj (.viewDense .vec) .d false]),
  (.vml_mul, [.obj (.viewDense .ten) .d true, .obj (.viewDense .mat) .d true, .obj (.viewDense .mat) .d false])]

/-- the overloads of `tVmlMat_4` that are declared -/
def hVmlMat_4 : List (Fn × List Par) := [
  (.vml_mul, [.obj (.viewDense .ten) .d true, .obj (.viewDense .mat) .d true, .obj (.viewDense .ten) .d false]),
  (.vml_mul, [.obj (.viewDense .ten) .d true, .obj (.viewDense .ten) .d true, .obj .dense .d false]),
  (.vml_mul, [.obj (.viewDense .ten) .d true, .obj (.viewDense .ten) .d true, .obj (.viewDense .vec) .d false]),
  (.vml_mul, [.obj (.viewDense .ten) .d true, .obj (.viewDense .ten) .d true, .obj (.viewDense .mat) .d false]),
  (.vml_mul, [.obj (.viewDense .ten) .d true, .obj (.viewDense .ten) .d true, .obj (.viewDense .ten) .d false]),
  (.vml_mul, [.obj .crs .s true, .obj .crs .s true, .obj .crs .s false]),
  (.vml_mul, [.obj .dense .s true, .obj .dense .s true, .obj .dense .s false]),
  (.vml_mul, [.obj .dense .s true, .obj .dense .s true, .obj (.viewDense .vec) .s false]),
  (.vml_mul, [.obj .dense .s true, .obj .dense .s true, .obj (.viewDense .mat) .s false]),
  (.vml_mul, [.obj .dense .s true, .obj .dense .s true, .obj (.viewDense .ten) .s false]),
  (.vml_mul, [.obj .dense .s true, .obj (.viewDense .vec) .s true, .obj .dense .s false]),
  (.vml_mul, [.obj .dense .s true, .obj (.viewDense .vec) .s true, .obj (.viewDense .vec) .s false]),
  (.vml_mul, [.obj .dense .s true, .obj (.viewDense .vec) .s true, .obj (.viewDense .mat) .s false]),
  (.vml_mul, [.obj .dense .s true, .obj (.viewDense .vec) .s true, .obj (.viewDense .ten) .s false]),
  (.vml_mul, [.obj .dense .s true, .obj (.viewDense .mat) .s true, .obj .dense .s false]),
  (.vml_mul, [.obj .dense .s true, .obj (.viewDense .mat) .s true, .obj (.viewDense .vec) .s false]),
  (.vml_mul, [.obj .dense .s true, .obj (.viewDense .mat) .s true, .obj (.viewDense .mat) .s false]),
  (.vml_mul, [.obj .dense .s true, .obj (.viewDense .mat) .s true, .obj (.viewDense .ten) .s false]),
  (.vml_mul, [.obj .dense .s true, .obj (.viewDense .ten) .s true, .obj .dense .s false]),
  (.vml_mul, [.obj .dense .s true, .obj (.viewDense .ten) .s true, .obj (.viewDense .vec) .s false]),
  (.vml_mul, [.obj .dense .s true, .obj (.viewDense .ten) .s true, .obj (.viewDense .mat) .s false]),
  (.vml_mul, [.obj .dense .s true, .obj (.viewDense .ten) .s true, .obj (.viewDense .ten) .s false]),
  (.vml_mul, [.obj (.viewDense .vec) .s true, .obj .dense .s true, .obj .dense .s false]),
  (.vml_mul, [.obj (.viewDense .vec) .s true, .obj .dense .s true, .obj (.viewDense .vec) .s false]),
  (.vml_mul, [.obj (.viewDense .vec) .s true, .obj .dense .s true, .obj (.viewDense .mat) .s false]),
  (.vml_mul, [.obj (.viewDense .vec) .s true, .obj .dense .s true, .obj (.viewDense .ten) .s false]),
  (.vml_mul, [.obj (.viewDense .vec) .s true, .obj (.viewDense .vec) .s true, .obj .dense .s false]),
  (.vml_mul, [.obj (.viewDense .vec) .s true, .obj (.viewDense .vec) .s true, .obj (.viewDense .vec) .s false]),
  (.vml_mul, [.obj (.viewDense .vec) .s true, .obj (.viewDense .vec) .s true, .obj (.viewDense .mat) .s false]),
  (.vml_mul, [.obj (.viewDense .vec) .s true, .obj (.viewDense .vec) .s true, .obj (.viewDense .ten) .s false]),
  (.vml_mul, [.obj (.viewDense .vec) .s true, .obj (.viewDense .mat) .s true, .obj .dense .s false]),
  (.vml_mul, [.obj (.viewDense .vec) .s true, .obj (.viewDense .mat) .s true, .obj (.viewDense .vec) .s false]),
  (.vml_mul, [.obj (.viewDense .vec) .s true, .obj (.viewDense .mat) .s true, .obj (.viewDense .mat) .s false]),
  (.vml_mul, [.obj (.viewDense .vec) .s true, .obj (.viewDense .mat) .s true, .obj (.viewDense .ten) .s false]),
  (.vml_mul, [.obj (.viewDense .vec) .s true, .obj (.viewDense .ten) .s true, .obj .dense .s false]),
  (.vml_mul, [.obj (.viewDense .vec) .s true, .obj (.viewDense .ten) .s true, .obj (.viewDense .vec) .s false]),
  (.vml_mul, [.obj (.viewDense .vec) .s true, .obj (.viewDense .ten) .s true, .obj (.viewDense .mat) .s false]),
  (.vml_mul, [.obj (.viewDense .vec) .s true, .obj (.viewDense .ten) .s true, .obj (.viewDense .ten) .s false]),
  (.vml_mul, [.obj (.viewDense .mat) .s true, .obj .dense .s true, .obj .dense .s false]),
  (.vml_mul, [.obj (.viewDense .mat) .s true, .obj .dense .s true, .obj (.viewDense .vec) .s false]),
  (.vml_mul, [.obj (.viewDense .mat) .s true, .obj .dense .s true, .obj (.viewDense .mat) .s false]),
  (.vml_mul, [.obj (.viewDense .mat) .s true, .obj .dense .s true, .obj (.viewDense .ten) .s false]),
  (.vml_mul, [.obj (.viewDense .mat) .s true, .obj (.viewDense .vec) .s true, .obj .dense .s false]),
  (.vml_mul, [.obj (.viewDense .mat) .s true, .obj (.viewDense .vec) .s true, .obj (.viewDense .vec) .s false]),
  (.vml_mul, [.obj (.viewDense .mat) .s true, .obj (.viewDense .vec) .s true, .obj (.viewDense .mat) .s false]),
  (.vml_mul, [.obj (.viewDense .mat) .s true, .obj (.viewDense .vec) .s true, .obj (.viewDense .ten) .s false]),
  (.vml_mul, [.obj (.viewDense .mat) .s true, .obj (.viewDense .mat) .s true, .obj .dense .s false]),
  (.vml_mul, [.obj (.viewDense .mat) .s true, .obj (.viewDense .mat) .s true, .obj (.viewDense .vec) .s false]),
  (.vml_mul, [.obj (.viewDense .mat) .s true, .obj (.viewDense .mat) .s true, .obj (.viewDense .mat) .s false]),
  (.vml_mul, [.obj (.viewDense .mat) .s true, .obj (.viewDense .mat) .s true, .obj (.viewDense .ten) .s false]),
  (.vml_mul, [.obj (.viewDense .mat) .s true, .obj (.viewDense .ten) .s true, .obj .dense .s false]),
  (.vml_mul, [.obj (.viewDense .mat) .s true, .obj (.viewDense .ten) .s true, .obj (.viewDense .vec) .s false]),
  (.vml_mul, [.obj (.viewDense .mat) .s true, .obj (.viewDense .ten) .s true, .obj (.viewDense .mat) .s false]),
  (.vml_mul, [.obj (.viewDense .mat) .s true, .obj (.viewDense .ten) .s true, .obj (.viewDense .ten) .s false]),
  (.vml_mul, [.obj (.viewDense .ten) .s true, .obj .dense .s true, .obj .dense .s false]),
  (.vml_mul, [.obj (.viewDense .ten) .s true, .obj .dense .s true, .obj (.viewDense .vec) .s false]),
  (.vml_mul, [.obj (.viewDense .ten) .s true, .obj .dense .s true, .obj (.viewDense .mat) .s false]),
  (.vml_mul, [.obj (.viewDense .ten) .s true, .obj .dense .s true, .obj (.viewDense .ten) .s false]),
  (.vml_mul, [.obj (.viewDense .ten) .s true, .obj (.viewDense .vec) .s true, .obj .dense .s false]),
  (.vml_mul, [.obj (.viewDense .ten) .s true, .obj (.viewDense .vec) .s true, .obj (.viewDense .vec) .s false]),
  (.vml_mul, [.obj (.viewDense .ten) .s true, .obj (.viewDense .vec) .s true, .obj (.viewDense .mat) .s false]),
  (.vml_mul, [.obj (.viewDense .ten) .s true, .obj (.viewDense .vec) .s true, .obj (.viewDense .ten) .s false]),
  (.vml_mul, [.obj (.viewDense .ten) .s true, .obj (.viewDense .mat) .s true, .obj .dense .s false]),
  (.vml_mul, [.obj (.viewDense .ten) .s true, .obj (.viewDense .mat) .s true, .obj (.viewDense .vec) .s false]),
  (.vml_mul, [.obj (.viewDense .ten) .s true, .obj (.viewDense .mat) .s true, .obj (.viewDense .mat) .s false]),
  (.vml_mul, [.obj (.viewDense .ten) .s true, .obj (.viewDense .mat) .s true, .obj (.viewDense .ten) .s false]),
  (.vml_mul, [.obj (.viewDense .ten) .s true, .obj (.viewDense .ten) .s true, .obj .dense .s false]),
  (.vml_mul, [.obj (.viewDense .ten) .s true, .obj (.viewDense .ten) .s true, .obj (.viewDense .vec) .s false]),
  (.vml_mul, [.obj (.viewDense .ten) .s true, .obj (.viewDense .ten) .s true, .obj (.viewDense .mat) .s false]),
  (.vml_mul, [.obj (.viewDense .ten) .s true, .obj (.viewDense .ten) .s true, .obj (.viewDense .ten) .s false]),
  (.vml_div, [.obj .crs .d true, .obj .crs .d true, .obj .crs .d false]),
  (.vml_div, [.obj .dense .d true, .obj .dense .d true, .obj .dense .d false]),
  (.vml_div, [.obj .dense .d true, .obj .dense .d true, .obj (.viewDense .vec) .d false]),
  (.vml_div, [.obj .dense .d true, .obj .dense .d true, .obj (.viewDense .mat) .d false]),
  (.vml_div, [.obj .dense .d true, .obj .dense .d true, .obj (.viewDense .ten) .d false]),
  (.vml_div, [.obj .dense .d true, .obj (.viewDense .vec) .d true, .obj .dense .d false]),
  (.vml_div, [.obj .dense .d true, .obj (.viewDense .vec) .d true, .obj (.viewDense .vec) .d false]),
  (.vml_div, [.obj .dense .d true, .obj (.viewDense .vec) .d true, .obj (.viewDense .mat) .d false]),
  (.vml_div, [.obj .dense .d true, .obj (.viewDense .vec) .d true, .obj (.viewDense .ten) .d false]),
  (.vml_div, [.obj .dense .d true, .obj (.viewDense .mat) .d true, .obj .dense .d false])]

/-- the overloads of `tVmlMat_5` that are declared -/
def hVmlMat_5 : List (Fn × List Par) := [
  (.vml_div, [.obj .dense .d true, .obj (.viewDense .mat) .d true, .obj (.viewDense .vec) .d false]),
  (.vml_div, [.obj .dense .d true, .obj (.viewDense .mat) .d true, .obj (.viewDense .mat) .d false]),
  (.vml_div, [.obj .dense .d true, .obj (.viewDense .mat) .d true, .obj (.viewDense .ten) .d false]),
  (.vml_div, [.obj .dense .d true, .obj (.viewDense .ten) .d true, .obj .dense .d false]),
  (.vml_div, [.obj .dense .d true, .obj (.viewDense .ten) .d true, .obj (.viewDense .vec) .d false]),
  (.vml_div, [.obj .dense .d true, .obj (.viewDense .ten) .d true, .obj (.viewDense .mat) .d false]),
  (.vml_div, [.obj .dense .d true, .obj (.viewDense .ten) .d true, .obj (.viewDense .ten) .d false]),
  (.vml_div, [.obj (.viewDense .vec) .d true, .obj .dense .d true, .obj .dense .d false]),
  (.vml_div, [.obj (.viewDense .vec) .d true, .obj .dense .d true, .obj (.viewDense .vec) .d false]),
  (.vml_div, [.obj (.viewDense .vec) .d true, .obj .dense .d true, .obj (.viewDense .mat) .d false]),
  (.vml_div, [.obj (.viewDense .vec) .d true, .obj .dense .d true, .obj (.viewDense .ten) .d false]),
  (.vml_div, [.obj (.viewDense .vec) .d true, .obj (.viewDense .vec) .d true, .obj .dense .d false]),
  (.vml_div, [.obj (.viewDense .vec) .d true, .obj (.viewDense .vec) .d true, .obj (.viewDense .vec) .d false]),
  (.vml_div, [.obj (.viewDense .vec) .d true, .obj (.viewDense .vec) .d true, .obj (.viewDense .mat) .d false]),
  (.vml_div, [.obj (.viewDense .vec) .d true, .obj (.viewDense .vec) .d true, .obj (.viewDense .ten) .d false]),
  (.vml_div, [.obj (.viewDense .vec) .d true, .obj (.viewDense .mat) .d true, .obj .dense .d false]),
  (.vml_div, [.obj (.viewDense .vec) .d true, .obj (.viewDense .mat) .d true, .obj (.viewDense .vec) .d false]),
  (.vml_div, [.obj (.viewDense .vec) .d true, .obj (.viewDense .mat) .d true, .obj (.viewDense .mat) .d false]),
  (.vml_div, [.obj (.viewDense .vec) .d true, .obj (.viewDense .mat) .d true, .obj (.viewDense .ten) .d false]),
  (.vml_div, [.obj (.viewDense .vec) .d true, .obj (.viewDense .ten) .d true, .obj .dense .d false]),
  (.vml_div, [.obj (.viewDense .vec) .d true, .obj (.viewDense .ten) .d true, .obj (.viewDense .vec) .d false]),
  (.vml_div, [.obj (.viewDense .vec) .d true, .obj (.viewDense .ten) .d true, .obj (.viewDense .mat) .d false]),
  (.vml_div, [.obj (.viewDense .vec) .d true, .obj (.viewDense .ten) .d true, .obj (.viewDense .ten) .d false]),
  (.vml_div, [.obj (.viewDense .mat) .d true, .obj .dense .d true, .obj .dense .d false]),
  (.vml_div, [.obj (.viewDense .mat) .d true, .obj .dense .d true, .obj (.viewDense .vec) .d false]),
  (.vml_div, [.obj (.viewDense .mat) .d true, .obj .dense .d true, .obj (.viewDense .mat) .d false]),
  (.vml_div, [.obj (.viewDense .mat) .d true, .obj .dense .d true, .obj (.viewDense .ten) .d false]),
  (.vml_div, [.obj (.viewDense .mat) .d true, .obj (.viewDense .vec) .d true, .obj .dense .d false]),
  (.vml_div, [.obj (.viewDense .mat) .d true, .obj (.viewDense .vec) .d true, .obj (.viewDense .vec) .d false]),
  (.vml_div, [.obj (.viewDense .mat) .d true, .obj (.viewDense .vec) .d true, .obj (.viewDense .mat) .d false]),
  (.vml_div, [.obj (.viewDense .mat) .d true, .obj (.viewDense .vec) .d true, .obj (.viewDense .ten) .d false]),
  (.vml_div, [.obj (.viewDense .mat) .d true, .obj (.viewDense .mat) .d true, .obj .dense .d false]),
  (.vml_div, [.obj (.viewDense .mat) .d true, .obj (.viewDense .mat) .d true, .obj (.viewDense .vec) .d false]),
  (.vml_div, [.obj (.viewDense .mat) .d true, .obj (.viewDense .mat) .d true, .obj (.viewDense .mat) .d false]),
  (.vml_div, [.obj (.viewDense .mat) .d true, .obj (.viewDense .mat) .d true, .obj (.viewDense .ten) .d false]),
  (.vml_div, [.obj (.viewDense .mat) .d true, .obj (.viewDense .ten) .d true, .obj .dense .d false]),
  (.vml_div, [.obj (.viewDense .mat) .d true, .obj (.viewDense .ten) .d true, .obj (.viewDense .vec) .d false]),
  (.vml_div, [.obj (.viewDense .mat) .d true, .obj (.viewDense .ten) .d true, .obj (.viewDense .mat) .d false]),
  (.vml_div, [.obj (.viewDense .mat) .d true, .obj (.viewDense .ten) .d true, .obj (.viewDense .ten) .d false]),
  (.vml_div, [.obj (.viewDense .ten) .d true, .obj .dense .d true, .obj .dense .d false]),
  (.vml_div, [.obj (.viewDense .ten) .d true, .obj .dense .d true, .obj (.viewDense .vec) .d false]),
  (.vml_div, [.obj (.viewDense .ten) .d true, .obj .dense .d true, .obj (.viewDense .mat) .d false]),
  (.vml_div, [.obj (.viewDense .ten) .d true, .obj .dense .d true, .obj (.viewDense .ten) .d false]),
  (.vml_div, [.obj (.viewDense .ten) .d true, .obj (.viewDense .vec) .d true, .obj .dense .d false]),
  (.vml_div, [.obj (.viewDense .ten) .d true, .obj (.viewDense .vec) .d true, .obj (.viewDense .vec) .d false]),
  (.vml_div, [.obj (.viewDense .ten) .d true, .obj (.viewDense .vec) .d true, .obj (.viewDense .mat) .d false]),
  (.vml_div, [.obj (.viewDense .ten) .d true, .obj (.viewDense .vec) .d true, .obj (.viewDense .ten) .d false]),
  (.vml_div, [.obj (.viewDense .ten) .d true, .obj (.viewDense .mat) .d true, .obj .dense .d false]),
  (.vml_div, [.obj (.viewDense .ten) .d true, .obj (.viewDense .mat) .d true, .obj (.viewDense .vec) .d false]),
  (.vml_div, [.obj (.viewDense .ten) .d true, .obj (.viewDense .mat) .d true, .obj (.viewDense .mat) .d false]),
  (.vml_div, [.obj (.viewDense .ten) .d true, .obj (.viewDense .mat) .d true, .obj (.viewDense .ten) .d false]),
  (.vml_div, [.obj (.viewDense .ten) .d true, .obj (.viewDense .ten) .d true, .obj .dense .d false]),
  (.vml_div, [.obj (.viewDense .ten) .d true, .obj (.viewDense .ten) .d true, .obj (.viewDense .vec) .d false]),
  (.vml_div, [.obj (.viewDense .ten) .d true, .obj (.viewDense .ten) .d true, .obj (.viewDense .mat) .d false]),
  (.vml_div, [.obj (.viewDense .ten) .d true, .obj (.viewDense .ten) .d true, .obj (.viewDense .ten) .d false]),
  (.vml_div, [.obj .crs .s true, .obj .crs .s true, .obj .crs .s false]),
  (.vml_div, [.obj .dense .s true, .obj .dense .s true, .obj .dense .s false]),
  (.vml_div, [.obj .dense .s true, .obj .dense .s true, .obj (.viewDense .vec) .s false]),
  (.vml_div, [.obj .dense .s true, .obj .dense .s true, .obj (.viewDense .mat) .s false]),
  (.vml_div, [.obj .dense .s true, .obj .dense .s true, .obj (.viewDense .ten) .s false]),
  (.vml_div, [.obj .dense .s true, .obj (.viewDense .vec) .s true, .obj .dense .s false]),
  (.vml_div, [.obj .dense .s true, .obj (.viewDense .vec) .s true, .obj (.viewDense .vec) .s false]),
  (.vml_div, [.obj .dense .s true, .obj (.viewDense .vec) .s true, .obj (.viewDense .mat) .s false]),
  (.vml_div, [.obj .dense .s true, .obj (.viewDense .vec) .s true, .obj (.viewDense .ten) .s false]),
  (.vml_div, [.obj .dense .s true, .obj (.viewDense .mat) .s true, .obj .dense .s false]),
  (.vml_div, [.obj .dense .s true, .obj (.viewDense .mat) .s true, .obj (.viewDense .vec) .s false]),
  (.vml_div, [.obj .dense .s true, .obj (.viewDense .mat) .s true, .obj (.viewDense .mat) .s false]),
  (.vml_div, [.obj .dense .s true, .obj (.viewDense .mat) .s true, .obj (.viewDense .ten) .s false]),
  (.vml_div, [.obj .dense .s true, .obj (.viewDense .ten) .s true, .obj .dense .s false]),
  (.vml_div, [.obj .dense .s true, .obj (.viewDense .ten) .s true, .obj (.viewDense .vec) .s false]),
  (.vml_div, [.obj .dense .s true, .obj (.viewDense .ten) .s true, .obj (.viewDense .mat) .s false]),
  (.vml_div, [.obj .dense .s true, .obj (.viewDense .ten) .s true, .obj (.viewDense .ten) .s false]),
  (.vml_div, [.obj (.viewDense .vec) .s true, .obj .dense .s true, .obj .dense .s false]),
  (.vml_div, [.obj (.viewDense .vec) .s true, .obj .dense .s true, .obj (.viewDense .vec) .s false]),
  (.vml_div, [.obj (.viewDense .vec) .s true, .obj .dense .s true, .obj (.viewDense .mat) .s false]),
  (.vml_div, [.obj (.viewDense .vec) .s true, .obj .dense .s true, .obj (.viewDense .ten) .s false]),
  (.vml_div, [.obj (.viewDense .vec) .s true, .obj (.viewDense .vec) .s true, .obj .dense .s false]),
  (.vml_div, [.obj (.viewDense .vec) .s true, .obj (.viewDense .vec) .s true, .obj (.viewDense .vec) .s false]),
  (.vml_div, [.obj (.viewDense .vec) .s true, .obj (.viewDense .vec) .s true, .obj (.viewDense .mat) .s false]),
  (.vml_div, [.obj (.viewDense .vec) .s true, .obj (.viewDense .vec) .s true, .obj (.viewDense .ten) .s false])]

/-- the overloads of `tVmlMat_6` that are declared -/
def hVmlMat_6 : List (Fn × List Par) := [
  (.vml_div, [.obj (.viewDense .vec) .s true, .obj (.viewDense .mat) .s true, .obj .dense .s false]),
  (.vml_div, [.obj (.viewDense .vec) .s true, .obj (.viewDense .mat) .s true, .obj (.viewDense .vec) .s false]),
  (.vml_div, [.obj (.viewDense .vec) .s true, .obj (.viewDense .mat) .s true, .obj (.viewDense .mat) .s false]),
  (.vml_div, [.obj (.viewDense .vec) .s true, .obj (.viewDense .mat) .s true, .obj (.viewDense .ten) .s false]),
  (.vml_div, [.obj (.viewDense .vec) .s true, .obj (.viewDense .ten) .s true, .obj .dense .s false]),
  (.vml_div, [.obj (.viewDense .vec) .s true, .obj (.viewDense .ten) .s true, .obj (.viewDense .vec) .s false]),
  (.vml_div, [.obj (.viewDense .vec) .s true, .obj (.viewDense .ten) .s true, .obj (.viewDense .mat) .s false]),
  (.vml_div, [.obj (.viewDense .vec) .s true, .obj (.viewDense .ten) .s true, .obj (.viewDense .ten) .s false]),
  (.vml_div, [.obj (.viewDense .mat) .s true, .obj .dense .s true, .obj .dense .s false]),
  (.vml_div, [.obj (.viewDense .mat) .s true, .obj .dense .s true, .obj (.viewDense .vec) .s false]),
  (.vml_div, [.obj (.viewDense .mat) .s true, .obj .dense .s true, .obj (.viewDense .mat) .s false]),
  (.vml_div, [.obj (.viewDense .mat) .s true, .obj .dense .s true, .obj (.viewDense .ten) .s false]),
  (.vml_div, [.obj (.viewDense .mat) .s true, .obj (.viewDense .vec) .s true, .obj .dense .s false]),
  (.vml_div, [.obj (.viewDense .mat) .s true, .obj (.viewDense .vec) .s true, .obj (.viewDense .vec) .s false]),
  (.vml_div, [.obj (.viewDense .mat) .s true, .obj (.viewDense .vec) .s true, .obj (.viewDense .mat) .s false]),
  (.vml_div, [.obj (.viewDense .mat) .s true, .obj (.viewDense .vec) .s true, .obj (.viewDense .ten) .s false]),
  (.vml_div, [.obj (.viewDense .mat) .s true, .obj (.viewDense .mat) .s true, .obj .dense .s false]),
  (.vml_div, [.obj (.viewDense .mat) .s true, .obj (.viewDense .mat) .s true, .obj (.viewDense .vec) .s false]),
  (.vml_div, [.obj (.viewDense .mat) .s true, .obj (.viewDense .mat) .s true, .obj (.viewDense .mat) .s false]),
  (.vml_div, [.obj (.viewDense .mat) .s true, .obj (.viewDense .mat) .s true, .obj (.viewDense .ten) .s false]),
  (.vml_div, [.obj (.viewDense .mat) .s true, .obj (.viewDense .ten) .s true, .obj .dense .s false]),
  (.vml_div, [.obj (.viewDense .mat) .s true, .obj (.viewDense .ten) .s true, .obj (.viewDense .vec) .s false]),
  (.vml_div, [.obj (.viewDense .mat) .s true, .obj (.viewDense .ten) .s true, .obj (.viewDense .mat) .s false]),
  (.vml_div, [.obj (.viewDense .mat) .s true, .obj (.viewDense .ten) .s true, .obj (.viewDense .ten) .s false]),
  (.vml_div, [.obj (.viewDense .ten) .s true, .obj .dense .s true, .obj .dense .s false]),
  (.vml_div, [.obj (.viewDense .ten) .s true, .obj .dense .s true, .obj (.viewDense .vec) .s false]),
  (.vml_div, [.obj (.viewDense .ten) .s true, .obj .dense .s true, .obj (.viewDense .mat) .s false]),
  (.vml_div, [.obj (.viewDense .ten) .s true, .obj .dense .s true, .obj (.viewDense .ten) .s false]),
  (.vml_div, [.obj (.viewDense .ten) .s true, .obj (.viewDense .vec) .s true, .obj .dense .s false]),
  (.vml_div, [.obj (.viewDense .ten) .s true, .obj (.viewDense .vec) .s true, .obj (.viewDense .vec) .s false]),
  (.vml_div, [.obj (.viewDense .ten) .s true, .obj (.viewDense .vec) .s true, .obj (.viewDense .mat) .s false]),
  (.vml_div, [.obj (.viewDense .ten) .s true, .obj (.viewDense .vec) .s true, .obj (.viewDense .ten) .s false]),
  (.vml_div, [.obj (.viewDense .ten) .s true, .obj (.viewDense .mat) .s true, .obj .dense .s false]),
  (.vml_div, [.obj (.viewDense .ten) .s true, .obj (.viewDense .mat) .s true, .obj (.viewDense .vec) .s false]),
  (.vml_div, [.obj (.viewDense .ten) .s true, .obj (.viewDense .mat) .s true, .obj (.viewDense .mat) .s false]),
  (.vml_div, [.obj (.viewDense .ten) .s true, .obj (.viewDense .mat) .s true, .obj (.viewDense .ten) .s false]),
  (.vml_div, [.obj (.viewDense .ten) .s true, .obj (.viewDense .ten) .s true, .obj .dense .s false]),
  (.vml_div, [.obj (.viewDense .ten) .s true, .obj (.viewDense .ten) .s true, .obj (.viewDense .vec) .s false]),
  (.vml_div, [.obj (.viewDense .ten) .s true, .obj (.viewDense .ten) .s true, .obj (.viewDense .mat) .s false]),
  (.vml_div, [.obj (.viewDense .ten) .s true, .obj (.viewDense .ten) .s true, .obj (.viewDense .ten) .s false]),
  (.vml_add, [.obj .crs .d true, .scal .d, .obj .crs .d false]),
  (.vml_add, [.obj .dense .d true, .scal .d, .obj .dense .d false]),
  (.vml_add, [.obj .dense .d true, .scal .d, .obj (.viewDense .vec) .d false]),
  (.vml_add, [.obj .dense .d true, .scal .d, .obj (.viewDense .mat) .d false]),
  (.vml_add, [.obj .dense .d true, .scal .d, .obj (.viewDense .ten) .d false]),
  (.vml_add, [.obj (.viewDense .vec) .d true, .scal .d, .obj .dense .d false]),
  (.vml_add, [.obj (.viewDense .vec) .d true, .scal .d, .obj (.viewDense .vec) .d false]),
  (.vml_add, [.obj (.viewDense .vec) .d true, .scal .d, .obj (.viewDense .mat) .d false]),
  (.vml_add, [.obj (.viewDense .vec) .d true, .scal .d, .obj (.viewDense .ten) .d false]),
  (.vml_add, [.obj (.viewDense .mat) .d true, .scal .d, .obj .dense .d false]),
  (.vml_add, [.obj (.viewDense .mat) .d true, .scal .d, .obj (.viewDense .vec) .d false]),
  (.vml_add, [.obj (.viewDense .mat) .d true, .scal .d, .obj (.viewDense .mat) .d false]),
  (.vml_add, [.obj (.viewDense .mat) .d true, .scal .d, .obj (.viewDense .ten) .d false]),
  (.vml_add, [.obj (.viewDense .ten) .d true, .scal .d, .obj .dense .d false]),
  (.vml_add, [.obj (.viewDense .ten) .d true, .scal .d, .obj (.viewDense .vec) .d false]),
  (.vml_add, [.obj (.viewDense .ten) .d true, .scal .d, .obj (.viewDense .mat) .d false]),
  (.vml_add, [.obj (.viewDense .ten) .d true, .scal .d, .obj (.viewDense .ten) .d false]),
  (.vml_add, [.obj .crs .s true, .scal .s, .obj .crs .s false]),
  (.vml_add, [.obj .dense .s true, .scal .s, .obj .dense .s false]),
  (.vml_add, [.obj .dense .s true, .scal .s, .obj (.viewDense .vec) .s false]),
  (.vml_add, [.obj .dense .s true, .scal .s, .obj (.viewDense .mat) .s false]),
  (.vml_add, [.obj .dense .s true, .scal .s, .obj (.viewDense .ten) .s false]),
  (.vml_add, [.obj (.viewDense .vec) .s true, .scal .s, .obj .dense .s false]),
  (.vml_add, [.obj (.viewDense .vec) .s true, .scal .s, .obj (.viewDense .vec) .s false]),
  (.vml_add, [.obj (.viewDense .vec) .s true, .scal .s, .obj (.viewDense .mat) .s false]),
  (.vml_add, [.obj (.viewDense .vec) .s true, .scal .s, .obj (.viewDense .ten) .s false]),
  (.vml_add, [.obj (.viewDense .mat) .s true, .scal .s, .obj .dense .s false]),
  (.vml_add, [.obj (.viewDense .mat) .s true, .scal .s, .obj (.viewDense .vec) .s false]),
  (.vml_add, [.obj (.viewDense .mat) .s true, .scal .s, .obj (.viewDense .mat) .s false]),
  (.vml_add, [.obj (.viewDense .mat) .s true, .scal .s, .obj (.viewDense .ten) .s false]),
  (.vml_add, [.obj (.viewDense .ten) .s true, .scal .s, .obj .dense .s false]),
  (.vml_add, [.obj (.viewDense .ten) .s true, .scal .s, .obj (.viewDense .vec) .s false]),
  (.vml_add, [.obj (.viewDense .ten) .s true, .scal .s, .obj (.viewDense .mat) .s false]),
  (.vml_add, [.obj (.viewDense .ten) .s true, .scal .s, .obj (.viewDense .ten) .s false]),
  (.vml_sub, [.obj .crs .d true, .scal .d, .obj .crs .d false]),
  (.vml_sub, [.obj .dense .d true, .scal .d, .obj .dense .d false]),
  (.vml_sub, [.obj .dense .d true, .scal .d, .obj (.viewDense .vec) .d false]),
  (.vml_sub, [.obj .dense .d true, .scal .d, .obj (.viewDense .mat) .d false]),
  (.vml_sub, [.obj .dense .d true, .scal .d, .obj (.viewDense .ten) .d false]),
  (.vml_sub, [.obj (.viewDense .vec) .d true, .scal .d, .obj .dense .d false])]

/-- the overloads of `tVmlMat_7` that are declared -/
def hVmlMat_7 : List (Fn × List Par) := [
  (.vml_sub, [.obj (.viewDense .vec) .d true, .scal .d, .obj (.viewDense .vec) .d false]),
  (.vml_sub, [.obj (.viewDense .vec) .d true, .scal .d, .obj (.viewDense .mat) .d false]),
  (.vml_sub, [.obj (.viewDense .vec) .d true, .scal .d, .obj (.viewDense .ten) .d false]),
  (.vml_sub, [.obj (.viewDense .mat) .d true, .scal .d, .obj .dense .d false]),
  (.vml_sub, [.obj (.viewDense .mat) .d true, .scal .d, .obj (.viewDense .vec) .d false]),
  (.vml_sub, [.obj (.viewDense .mat) .d true, .scal .d, .obj (.viewDense .mat) .d false]),
  (.vml_sub, [.obj (.viewDense .mat) .d true, .scal .d, .obj (.viewDense .ten) .d false]),
  (.vml_sub, [.obj (.viewDense .ten) .d true, .scal .d, .obj .dense .d false]),
  (.vml_sub, [.obj (.viewDense .ten) .d true, .scal .d, .obj (.viewDense .vec) .d false]),
  (.vml_sub, [.obj (.viewDense .ten) .d true, .scal .d, .obj (.viewDense .mat) .d false]),
  (.vml_sub, [.obj (.viewDense .ten) .d true, .scal .d, .obj (.viewDense .ten) .d false]),
  (.vml_sub, [.obj .crs .s true, .scal .s, .obj .crs .s false]),
  (.vml_sub, [.obj .dense .s true, .scal .s, .obj .dense .s false]),
  (.vml_sub, [.obj .dense .s true, .scal .s, .obj (.viewDense .vec) .s false]),
  (.vml_sub, [.obj .dense .s true, .scal .s, .obj (.viewDense .mat) .s false]),
  (.vml_sub, [.obj .dense .s true, .scal .s, .obj (.viewDense .ten) .s false]),
  (.vml_sub, [.obj (.viewDense .vec) .s true, .scal .s, .obj .dense .s false]),
  (.vml_sub, [.obj (.viewDense .vec) .s true, .scal .s, .obj (.viewDense .vec) .s false]),
  (.vml_sub, [.obj (.viewDense .vec) .s true, .scal .s, .obj (.viewDense .mat) .s false]),
  (.vml_sub, [.obj (.viewDense .vec) .s true, .scal .s, .obj (.viewDense .ten) .s false]),
  (.vml_sub, [.obj (.viewDense .mat) .s true, .scal .s, .obj .dense .s false]),
  (.vml_sub, [.obj (.viewDense .mat) .s true, .scal .s, .obj (.viewDense .vec) .s false]),
  (.vml_sub, [.obj (.viewDense .mat) .s true, .scal .s, .obj (.viewDense .mat) .s false]),
  (.vml_sub, [.obj (.viewDense .mat) .s true, .scal .s, .obj (.viewDense .ten) .s false]),
  (.vml_sub, [.obj (.viewDense .ten) .s true, .scal .s, .obj .dense .s false]),
  (.vml_sub, [.obj (.viewDense .ten) .s true, .scal .s, .obj (.viewDense .vec) .s false]),
  (.vml_sub, [.obj (.viewDense .ten) .s true, .scal .s, .obj (.viewDense .mat) .s false]),
  (.vml_sub, [.obj (.viewDense .ten) .s true, .scal .s, .obj (.viewDense .ten) .s false]),
  (.vml_mul, [.obj .crs .d true, .scal .d, .obj .crs .d false]),
  (.vml_mul, [.obj .dense .d true, .scal .d, .obj .dense .d false]),
  (.vml_mul, [.obj .dense .d true, .scal .d, .obj (.viewDense .vec) .d false]),
  (.vml_mul, [.obj .dense .d true, .scal .d, .obj (.viewDense .mat) .d false]),
  (.vml_mul, [.obj .dense .d true, .scal .d, .obj (.viewDense .ten) .d false]),
  (.vml_mul, [.obj (.viewDense .vec) .d true, .scal .d, .obj .dense .d false]),
  (.vml_mul, [.obj (.viewDense .vec) .d true, .scal .d, .obj (.viewDense .vec) .d false]),
  (.vml_mul, [.obj (.viewDense .vec) .d true, .scal .d, .obj (.viewDense .mat) .d false]),
  (.vml_mul, [.obj (.viewDense .vec) .d true, .scal .d, .obj (.viewDense .ten) .d false]),
  (.vml_mul, [.obj (.viewDense .mat) .d true, .scal .d, .obj .dense .d false]),
  (.vml_mul, [.obj (.viewDense .mat) .d true, .scal .d, .obj (.viewDense .vec) .d false]),
  (.vml_mul, [.obj (.viewDense .mat) .d true, .scal .d, .obj (.viewDense .mat) .d false]),
  (.vml_mul, [.obj (.viewDense .mat) .d true, .scal .d, .obj (.viewDense .ten) .d false]),
  (.vml_mul, [.obj (.viewDense .ten) .d true, .scal .d, .obj .dense .d false]),
  (.vml_mul, [.obj (.viewDense .ten) .d true, .scal .d, .obj (.viewDense .vec) .d false]),
  (.vml_mul, [.obj (.viewDense .ten) .d true, .scal .d, .obj (.viewDense .mat) .d false]),
  (.vml_mul, [.obj (.viewDense .ten) .d true, .scal .d, .obj (.viewDense .ten) .d false]),
  (.vml_mul, [.obj .crs .s true, .scal .s, .obj .crs .s false]),
  (.vml_mul, [.obj .dense .s true, .scal .s, .obj .dense .s false]),
  (.vml_mul, [.obj .dense .s true, .scal .s, .obj (.viewDense .vec) .s false]),
  (.vml_mul, [.obj .dense .s true, .scal .s, .obj (.viewDense .mat) .s false]),
  (.vml_mul, [.obj .dense .s true, .scal .s, .obj (.viewDense .ten) .s false]),
  (.vml_mul, [.obj (.viewDense .vec) .s true, .scal .s, .obj .dense .s false]),
  (.vml_mul, [.obj (.viewDense .vec) .s true, .scal .s, .obj (.viewDense .vec) .s false]),
  (.vml_mul, [.obj (.viewDense .vec) .s true, .scal .s, .obj (.viewDense .mat) .s false]),
  (.vml_mul, [.obj (.viewDense .vec) .s true, .scal .s, .obj (.viewDense .ten) .s false]),
  (.vml_mul, [.obj (.viewDense .mat) .s true, .scal .s, .obj .dense .s false]),
  (.vml_mul, [.obj (.viewDense .mat) .s true, .scal .s, .obj (.viewDense .vec) .s false]),
  (.vml_mul, [.obj (.viewDense .mat) .s true, .scal .s, .obj (.viewDense .mat) .s false]),
  (.vml_mul, [.obj (.viewDense .mat) .s true, .scal .s, .obj (.viewDense .ten) .s false]),
  (.vml_mul, [.obj (.viewDense .ten) .s true, .scal .s, .obj .dense .s false]),
  (.vml_mul, [.obj (.viewDense .ten) .s true, .scal .s, .obj (.viewDense .vec) .s false]),
  (.vml_mul, [.obj (.viewDense .ten) .s true, .scal .s, .obj (.viewDense .mat) .s false]),
  (.vml_mul, [.obj (.viewDense .ten) .s true, .scal .s, .obj (.viewDense .ten) .s false]),
  (.vml_div, [.obj .crs .d true, .scal .d, .obj .crs .d false]),
  (.vml_div, [.obj .dense .d true, .scal .d, .obj .dense .d false]),
  (.vml_div, [.obj .dense .d true, .scal .d, .obj (.viewDense .vec) .d false]),
  (.vml_div, [.obj .dense .d true, .scal .d, .obj (.viewDense .mat) .d false]),
  (.vml_div, [.obj .dense .d true, .scal .d, .obj (.viewDense .ten) .d false]),
  (.vml_div, [.obj (.viewDense .vec) .d true, .scal .d, .obj .dense .d false]),
  (.vml_div, [.obj (.viewDense .vec) .d true, .scal .d, .obj (.viewDense .vec) .d false]),
  (.vml_div, [.obj (.viewDense .vec) .d true, .scal .d, .obj (.viewDense .mat) .d false]),
  (.vml_div, [.obj (.viewDense .vec) .d true, .scal .d, .obj (.viewDense .ten) .d false]),
  (.vml_div, [.obj (.viewDense .mat) .d true, .scal .d, .obj .dense .d false]),
  (.vml_div, [.obj (.viewDense .mat) .d true, .scal .d, .obj (.viewDense .vec) .d false]),
  (.vml_div, [.obj (.viewDense .mat) .d true, .scal .d, .obj (.viewDense .mat) .d false]),
  (.vml_div, [.obj (.viewDense .mat) .d true, .scal .d, .obj (.viewDense .ten) .d false]),
  (.vml_div, [.obj (.viewDense .ten) .d true, .scal .d, .obj .dense .d false]),
  (.vml_div, [.obj (.viewDense .ten) .d true, .scal .d, .obj (.viewDense .vec) .d false]),
  (.vml_div, [.obj (.viewDense .ten) .d true, .scal .d, .obj (.viewDense .mat) .d false]),
  (.vml_div, [.obj (.viewDense .ten) .d true, .scal .d, .obj (.viewDense .ten) .d false]),
  (.vml_div, [.obj .crs .s true, .scal .s, .obj .crs .s false])]

/-- the overloads of `tVmlMat_8` that are declared -/
def hVmlMat_8 : List (Fn × List Par) := [
  (.vml_div, [.obj .dense .s true, .scal .s, .obj .dense .s false]),
  (.vml_div, [.obj .dense .s true, .scal .s, .obj (.viewDense .vec) .s false]),
  (.vml_div, [.obj .dense .s true, .scal .s, .obj (.viewDense .mat) .s false]),
  (.vml_div, [.obj .dense .s true, .scal .s, .obj (.viewDense .ten) .s false]),
  (.vml_div, [.obj (.viewDense .vec) .s true, .scal .s, .obj .dense .s false]),
  (.vml_div, [.obj (.viewDense .vec) .s true, .scal .s, .obj (.viewDense .vec) .s false]),
  (.vml_div, [.obj (.viewDense .vec) .s true, .scal .s, .obj (.viewDense .mat) .s false]),
  (.vml_div, [.obj (.viewDense .vec) .s true, .scal .s, .obj (.viewDense .ten) .s false]),
  (.vml_div, [.obj (.viewDense .mat) .s true, .scal .s, .obj .dense .s false]),
  (.vml_div, [.obj (.viewDense .mat) .s true, .scal .s, .obj (.viewDense .vec) .s false]),
  (.vml_div, [.obj (.viewDense .mat) .s true, .scal .s, .obj (.viewDense .mat) .s false]),
  (.vml_div, [.obj (.viewDense .mat) .s true, .scal .s, .obj (.viewDense .ten) .s false]),
  (.vml_div, [.obj (.viewDense .ten) .s true, .scal .s, .obj .dense .s false]),
  (.vml_div, [.obj (.viewDense .ten) .s true, .scal .s, .obj (.viewDense .vec) .s false]),
  (.vml_div, [.obj (.viewDense .ten) .s true, .scal .s, .obj (.viewDense .mat) .s false]),
  (.vml_div, [.obj (.viewDense .ten) .s true, .scal .s, .obj (.viewDense .ten) .s false]),
  (.vml_pow, [.obj .crs .d true, .obj .crs .d true, .obj .crs .d false]),
  (.vml_pow, [.obj .dense .d true, .obj .dense .d true, .obj .dense .d false]),
  (.vml_pow, [.obj .dense .d true, .obj .dense .d true, .obj (.viewDense .vec) .d false]),
  (.vml_pow, [.obj .dense .d true, .obj .dense .d true, .obj (.viewDense .mat) .d false]),
  (.vml_pow, [.obj .dense .d true, .obj .dense .d true, .obj (.viewDense .ten) .d false]),
  (.vml_pow, [.obj .dense .d true, .obj (.viewDense .vec) .d true, .obj .dense .d false]),
  (.vml_pow, [.obj .dense .d true, .obj (.viewDense .vec) .d true, .obj (.viewDense .vec) .d false]),
  (.vml_pow, [.obj .dense .d true, .obj (.viewDense .vec) .d true, .obj (.viewDense .mat) .d false]),
  (.vml_pow, [.obj .dense .d true, .obj (.viewDense .vec) .d true, .obj (.viewDense .ten) .d false]),
  (.vml_pow, [.obj .dense .d true, .obj (.viewDense .mat) .d true, .obj .dense .d false]),
  (.vml_pow, [.obj .dense .d true, .obj (.viewDense .mat) .d true, .obj (.viewDense .vec) .d false]),
  (.vml_pow, [.obj .dense .d true, .obj (.viewDense .mat) .d true, .obj (.viewDense .mat) .d false]),
  (.vml_pow, [.obj .dense .d true, .obj (.viewDense .mat) .d true, .obj (.viewDense .ten) .d false]),
  (.vml_pow, [.obj .dense .d true, .obj (.viewDense .ten) .d true, .obj .dense .d false]),
  (.vml_pow, [.obj .dense .d true, .obj (.viewDense .ten) .d true, .obj (.viewDense .vec) .d false]),
  (.vml_pow, [.obj .dense .d true, .obj (.viewDense .ten) .d true, .obj (.viewDense .mat) .d false]),
  (.vml_pow, [.obj .dense .d true, .obj (.viewDense .ten) .d true, .obj (.viewDense .ten) .d false]),
  (.vml_pow, [.obj (.viewDense .vec) .d true, .obj .dense .d true, .obj .dense .d false]),
  (.vml_pow, [.obj (.viewDense .vec) .d true, .obj .dense .d true, .obj (.viewDense .vec) .d false]),
  (.vml_pow, [.obj (.viewDense .vec) .d true, .obj .dense .d true, .obj (.viewDense .mat) .d false]),
  (.vml_pow, [.obj (.viewDense .vec) .d true, .obj .dense .d true, .obj (.viewDense .ten) .d false]),
  (.vml_pow, [.obj (.viewDense .vec) .d true, .obj (.viewDense .vec) .d true, .obj .dense .d false]),
  (.vml_pow, [.obj (.viewDense .vec) .d true, .obj (.viewDense .vec) .d true, .obj (.viewDense .vec) .d false]),
  (.vml_pow, [.obj (.viewDense .vec) .d true, .obj (.viewDense .vec) .d true, .obj (.viewDense .mat) .d false]),
  (.vml_pow, [.obj (.viewDense .vec) .d true, .obj (.viewDense .vec) .d true, .obj (.viewDense .ten) .d false]),
  (.vml_pow, [.obj (.viewDense .vec) .d true, .obj (.viewDense .mat) .d true, .obj .dense .d false]),
  (.vml_pow, [.obj (.viewDense .vec) .d true, .obj (.viewDense .mat) .d true, .obj (.viewDense .vec) .d false]),
  (.vml_pow, [.obj (.viewDense .vec) .d true, .obj (.viewDense .mat) .d true, .obj (.viewDense .mat) .d false]),
  (.vml_pow, [.obj (.viewDense .vec) .d true, .obj (.viewDense .mat) .d true, .obj (.viewDense .ten) .d false]),
  (.vml_pow, [.obj (.viewDense .vec) .d true, .obj (.viewDense .ten) .d true, .obj .dense .d false]),
  (.vml_pow, [.obj (.viewDense .vec) .d true, .obj (.viewDense .ten) .d true, .obj (.viewDense .vec) .d false]),
  (.vml_pow, [.obj (.viewDense .vec) .d true, .obj (.viewDense .ten) .d true, .obj (.viewDense .mat) .d false]),
  (.vml_pow, [.obj (.viewDense .vec) .d true, .obj (.viewDense .ten) .d true, .obj (.viewDense .ten) .d false]),
  (.vml_pow, [.obj (.viewDense .mat) .d true, .obj .dense .d true, .obj .dense .d false]),
  (.vml_pow, [.obj (.viewDense .mat) .d true, .obj .dense .d true, .obj (.viewDense .vec) .d false]),
  (.vml_pow, [.obj (.viewDense .mat) .d true, .obj .dense .d true, .obj (.viewDense .mat) .d false]),
  (.vml_pow, [.obj (.viewDense .mat) .d true, .obj .dense .d true, .obj (.viewDense .ten) .d false]),
  (.vml_pow, [.obj (.viewDense .mat) .d true, .obj (.viewDense .vec) .d true, .obj .dense .d false]),
  (.vml_pow, [.obj (.viewDense .mat) .d true, .obj (.viewDense .vec) .d true, .obj (.viewDense .vec) .d false]),
  (.vml_pow, [.obj (.viewDense .mat) .d true, .obj (.viewDense .vec) .d true, .obj (.viewDense .mat) .d false]),
  (.vml_pow, [.obj (.viewDense .mat) .d true, .obj (.viewDense .vec) .d true, .obj (.viewDense .ten) .d false]),
  (.vml_pow, [.obj (.viewDense .mat) .d true, .obj (.viewDense .mat) .d true, .obj .dense .d false]),
  (.vml_pow, [.obj (.viewDense .mat) .d true, .obj (.viewDense .mat) .d true, .obj (.viewDense .vec) .d false]),
  (.vml_pow, [.obj (.viewDense .mat) .d true, .obj (.viewDense .mat) .d true, .obj (.viewDense .mat) .d false]),
  (.vml_pow, [.obj (.viewDense .mat) .d true, .obj (.viewDense .mat) .d true, .obj (.viewDense .ten) .d false]),
  (.vml_pow, [.obj (.viewDense .mat) .d true, .obj (.viewDense .ten) .d true, .obj .dense .d false]),
  (.vml_pow, [.obj (.viewDense .mat) .d true, .obj (.viewDense .ten) .d true, .obj (.viewDense .vec) .d false]),
  (.vml_pow, [.obj (.viewDense .mat) .d true, .obj (.viewDense .ten) .d true, .obj (.viewDense .mat) .d false]),
  (.vml_pow, [.obj (.viewDense .mat) .d true, .obj (.viewDense .ten) .d true, .obj (.viewDense .ten) .d false]),
  (.vml_pow, [.obj (.viewDense .ten) .d true, .obj .dense .d true, .obj .dense .d false]),
  (.vml_pow, [.obj (.viewDense .ten) .d true, .obj .dense .d true, .obj (.viewDense .vec) .d false]),
  (.vml_pow, [.obj (.viewDense .ten) .d true, .obj .dense .d true, .obj (.viewDense .mat) .d false]),
  (.vml_pow, [.obj (.viewDense .ten) .d true, .obj .dense .d true, .obj (.viewDense .ten) .d false]),
  (.vml_pow, [.obj (.viewDense .ten) .d true, .obj (.viewDense .vec) .d true, .obj .dense .d false]),
  (.vml_pow, [.obj (.viewDense .ten) .d true, .obj (.viewDense .vec) .d true, .obj (.viewDense .vec) .d false]),
  (.vml_pow, [.obj (.viewDense .ten) .d true, .obj (.viewDense .vec) .d true, .obj (.viewDense .mat) .d false]),
  (.vml_pow, [.obj (.viewDense .ten) .d true, .obj (.viewDense .vec) .d true, .obj (.viewDense .ten) .d false]),
  (.vml_pow, [.obj (.viewDense .ten) .d true, .obj (.viewDense .mat) .d true, .obj .dense .d false]),
  (.vml_pow, [.obj (.viewDense .ten) .d true, .obj (.viewDense .mat) .d true, .obj (.viewDense .vec) .d false]),
  (.vml_pow, [.obj (.viewDense .ten) .d true, .obj (.viewDense .mat) .d true, .obj (.viewDense .mat) .d false]),
  (.vml_pow, [.obj (.viewDense .ten) .d true, .obj (.viewDense .mat) .d true, .obj (.viewDense .ten) .d false]),
  (.vml_pow, [.obj (.viewDense .ten) .d true, .obj (.viewDense .ten) .d true, .obj .dense .d false]),
  (.vml_pow, [.obj (.viewDense .ten) .d true, .obj (.viewDense .ten) .d true, .obj (.viewDense .vec) .d false]),
  (.vml_pow, [.obj (.viewDense .ten) .d true, .obj (.viewDense .ten) .d true, .obj (.viewDense .mat) .d false])]

/-- the overloads of `tVmlMat_9` that are declared -/
def hVmlMat_9 : List (Fn × List Par) := [
  (.vml_pow, [.obj (.viewDense .ten) .d true, .obj (.viewDense .ten) .d true, .obj (.viewDense .ten) .d false]),
  (.vml_pow, [.obj .crs .s true, .obj .crs .s true, .obj .crs .s false]),
  (.vml_pow, [.obj .dense .s true, .obj .dense .s true, .obj .dense .s false]),
  (.vml_pow, [.obj .dense .s true, .obj .dense .s true, .obj (.viewDense .vec) .s false]),
  (.vml_pow, [.obj .dense .s true, .obj .dense .s true, .obj (.viewDense .mat) .s false]),
  (.vml_pow, [.obj .dense .s true, .obj .dense .s true, .obj (.viewDense .ten) .s false]),
  (.vml_pow, [.obj .dense .s true, .obj (.viewDense .vec) .s true, .obj .dense .s false]),
  (.vml_pow, [.obj .dense .s true, .obj (.viewDense .vec) .s true, .obj (.viewDense .vec) .s false]),
  (.vml_pow, [.obj .dense .s true, .obj (.viewDense .vec) .s true, .obj (.viewDense .mat) .s false]),
  (.vml_pow, [.obj .dense .s true, .obj (.viewDense .vec) .s true, .obj (.viewDense .ten) .s false]),
  (.vml_pow, [.obj .dense .s true, .obj (.viewDense .mat) .s true, .obj .dense .s false]),
  (.vml_pow, [.obj .dense .s true, .obj (.viewDense .mat) .s true, .obj (.viewDense .vec) .s false]),
  (.vml_pow, [.obj .dense .s true, .obj (.viewDense .mat) .s true, .obj (.viewDense .mat) .s false]),
  (.vml_pow, [.obj .dense .s true, .obj (.viewDense .mat) .s true, .obj (.viewDense .ten) .s false]),
  (.vml_pow, [.obj .dense .s true, .obj (.viewDense .ten) .s true, .obj .dense .s false]),
  (.vml_pow, [.obj .dense .s true, .obj (.viewDense .ten) .s true, .obj (.viewDense .vec) .s false]),
  (.vml_pow, [.obj .dense .s true, .obj (.viewDense .ten) .s true, .obj (.viewDense .mat) .s false]),
  (.vml_pow, [.obj .dense .s true, .obj (.viewDense .ten) .s true, .obj (.viewDense .ten) .s false]),
  (.vml_pow, [.obj (.viewDense .vec) .s true, .obj .dense .s true, .obj .dense .s false]),
  (.vml_pow, [.obj (.viewDense .vec) .s true, .obj .dense .s true, .obj (.viewDense .vec) .s false]),
  (.vml_pow, [.obj (.viewDense .vec) .s true, .obj .dense .s true, .obj (.viewDense .mat) .s false]),
  (.vml_pow, [.obj (.viewDense .vec) .s true, .obj .dense .s true, .obj (.viewDense .ten) .s false]),
  (.vml_pow, [.obj (.viewDense .vec) .s true, .obj (.viewDense .vec) .s true, .obj .dense .s false]),
  (.vml_pow, [.obj (.viewDense .vec) .s true, .obj (.viewDense .vec) .s true, .obj (.viewDense .vec) .s false]),
  (.vml_pow, [.obj (.viewDense .vec) .s true, .obj (.viewDense .vec) .s true, .obj (.viewDense .mat) .s false]),
  (.vml_pow, [.obj (.viewDense .vec) .s true, .obj (.viewDense .vec) .s true, .obj (.viewDense .ten) .s false]),
  (.vml_pow, [.obj (.viewDense .vec) .s true, .obj (.viewDense .mat) .s true, .obj .dense .s false]),
  (.vml_pow, [.obj (.viewDense .vec) .s true, .obj (.viewDense .mat) .s true, .obj (.viewDense .vec) .s false]),
  (.vml_pow, [.obj (.viewDense .vec) .s true, .obj (.viewDense .mat) .s true, .obj (.viewDense .mat) .s false]),
  (.vml_pow, [.obj (.viewDense .vec) .s true, .obj (.viewDense .mat) .s true, .obj (.viewDense .ten) .s false]),
  (.vml_pow, [.obj (.viewDense .vec) .s true, .obj (.viewDense .ten) .s true, .obj .dense .s false]),
  (.vml_pow, [.obj (.viewDense .vec) .s true, .obj (.viewDense .ten) .s true, .obj (.viewDense .vec) .s false]),
  (.vml_pow, [.obj (.viewDense .vec) .s true, .obj (.viewDense .ten) .s true, .obj (.viewDense .mat) .s false]),
  (.vml_pow, [.obj (.viewDense .vec) .s true, .obj (.viewDense .ten) .s true, .obj (.viewDense .ten) .s false]),
  (.vml_pow, [.obj (.viewDense .mat) .s true, .obj .dense .s true, .obj .dense .s false]),
  (.vml_pow, [.obj (.viewDense .mat) .s true, .obj .dense .s true, .obj (.viewDense .vec) .s false]),
  (.vml_pow, [.obj (.viewDense .mat) .s true, .obj .dense .s true, .obj (.viewDense .mat) .s false]),
  (.vml_pow, [.obj (.viewDense .mat) .s true, .obj .dense .s true, .obj (.viewDense .ten) .s false]),
  (.vml_pow, [.obj (.viewDense .mat) .s true, .obj (.viewDense .vec) .s true, .obj .dense .s false]),
  (.vml_pow, [.obj (.viewDense .mat) .s true, .obj (.viewDense .vec) .s true, .obj (.viewDense .vec) .s false]),
  (.vml_pow, [.obj (.viewDense .mat) .s true, .obj (.viewDense .vec) .s true, .obj (.viewDense .mat) .s false]),
  (.vml_pow, [.obj (.viewDense .mat) .s true, .obj (.viewDense .vec) .s true, .obj (.viewDense .ten) .s false]),
  (.vml_pow, [.obj (.viewDense .mat) .s true, .obj (.viewDense .mat) .s true, .obj .dense .s false]),
  (.vml_pow, [.obj (.viewDense .mat) .s true, .obj (.viewDense .mat) .s true, .obj (.viewDense .vec) .s false]),
  (.vml_pow, [.obj (.viewDense .mat) .s true, .obj (.viewDense .mat) .s true, .obj (.viewDense .mat) .s false]),
  (.vml_pow, [.obj (.viewDense .mat) .s true, .obj (.viewDense .mat) .s true, .obj (.viewDense .ten) .s false]),
  (.vml_pow, [.obj (.viewDense .mat) .s true, .obj (.viewDense .ten) .s true, .obj .dense .s false]),
  (.vml_pow, [.obj (.viewDense .mat) .s true, .obj (.viewDense .ten) .s true, .obj (.viewDense .vec) .s false]),
  (.vml_pow, [.obj (.viewDense .mat) .s true, .obj (.viewDense .ten) .s true, .obj (.viewDense .mat) .s false]),
  (.vml_pow, [.obj (.viewDense .mat) .s true, .obj (.viewDense .ten) .s true, .obj (.viewDense .ten) .s false]),
  (.vml_pow, [.obj (.viewDense .ten) .s true, .obj .dense .s true, .obj .dense .s false]),
  (.vml_pow, [.obj (.viewDense .ten) .s true, .obj .dense .s true, .obj (.viewDense .vec) .s false]),
  (.vml_pow, [.obj (.viewDense .ten) .s true, .obj .dense .s true, .obj (.viewDense .mat) .s false]),
  (.vml_pow, [.obj (.viewDense .ten) .s true, .obj .dense .s true, .obj (.viewDense .ten) .s false]),
  (.vml_pow, [.obj (.viewDense .ten) .s true, .obj (.viewDense .vec) .s true, .obj .dense .s false]),
  (.vml_pow, [.obj (.viewDense .ten) .s true, .obj (.viewDense .vec) .s true, .obj (.viewDense .vec) .s false]),
  (.vml_pow, [.obj (.viewDense .ten) .s true, .obj (.viewDense .vec) .s true, .obj (.viewDense .mat) .s false]),
  (.vml_pow, [.obj (.viewDense .ten) .s true, .obj (.viewDense .vec) .s true, .obj (.viewDense .ten) .s false]),
  (.vml_pow, [.obj (.viewDense .ten) .s true, .obj (.viewDense .mat) .s true, .obj .dense .s false]),
  (.vml_pow, [.obj (.viewDense .ten) .s true, .obj (.viewDense .mat) .s true, .obj (.viewDense .vec) .s false]),
  (.vml_pow, [.obj (.viewDense .ten) .s true, .obj (.viewDense .mat) .s true, .obj (.viewDense .mat) .s false]),
  (.vml_pow, [.obj (.viewDense .ten) .s true, .obj (.viewDense .mat) .s true, .obj (.viewDense .ten) .s false]),
  (.vml_pow, [.obj (.viewDense .ten) .s true, .obj (.viewDense .ten) .s true, .obj .dense .s false]),
  (.vml_pow, [.obj (.viewDense .ten) .s true, .obj (.viewDense .ten) .s true, .obj (.viewDense .vec) .s false]),
  (.vml_pow, [.obj (.viewDense .ten) .s true, .obj (.viewDense .ten) .s true, .obj (.viewDense .mat) .s false]),
  (.vml_pow, [.obj (.viewDense .ten) .s true, .obj (.viewDense .ten) .s true, .obj (.viewDense .ten) .s false]),
  (.vml_pow, [.obj .crs .d true, .scal .d, .obj .crs .d false]),
  (.vml_pow, [.obj .dense .d true, .scal .d, .obj .dense .d false]),
  (.vml_pow, [.obj .dense .d true, .scal .d, .obj (.viewDense .vec) .d false]),
  (.vml_pow, [.obj .dense .d true, .scal .d, .obj (.viewDense .mat) .d false]),
  (.vml_pow, [.obj .dense .d true, .scal .d, .obj (.viewDense .ten) .d false]),
  (.vml_pow, [.obj (.viewDense .vec) .d true, .scal .d, .obj .dense .d false]),
  (.vml_pow, [.obj (.viewDense .vec) .d true, .scal .d, .obj (.viewDense .vec) .d false]),
  (.vml_pow, [.obj (.viewDense .vec) .d true, .scal .d, .obj (.viewDense .mat) .d false]),
  (.vml_pow, [.obj (.viewDense .vec) .d true, .scal .d, .obj (.viewDense .ten) .d false]),
  (.vml_pow, [.obj (.viewDense .mat) .d true, .scal .d, .obj .dense .d false]),
  (.vml_pow, [.obj (.viewDense .mat) .d true, .scal .d, .obj (.viewDense .vec) .d false]),
  (.vml_pow, [.obj (.viewDense .mat) .d true, .scal .d, .obj (.viewDense .mat) .d false]),
  (.vml_pow, [.obj (.viewDense .mat) .d true, .scal .d, .obj (.viewDense .ten) .d false]),
  (.vml_pow, [.obj (.viewDense .ten) .d true, .scal .d, .obj .dense .d false])]

/-- the overloads of `tVmlMat_10` that are declared -/
def hVmlMat_10 : List (Fn × List Par) := [
  (.vml_pow, [.obj (.viewDense .ten) .d true, .scal .d, .obj (.viewDense .vec) .d false]),
  (.vml_pow, [.obj (.viewDense .ten) .d true, .scal .d, .obj (.viewDense .mat) .d false]),
  (.vml_pow, [.obj (.viewDense .ten) .d true, .scal .d, .obj (.viewDense .ten) .d false]),
  (.vml_pow, [.obj .crs .s true, .scal .s, .obj .crs .s false]),
  (.vml_pow, [.obj .dense .s true, .scal .s, .obj .dense .s false]),
  (.vml_pow, [.obj .dense .s true, .scal .s, .obj (.viewDense .vec) .s false]),
  (.vml_pow, [.obj .dense .s true, .scal .s, .obj (.viewDense .mat) .s false]),
  (.vml_pow, [.obj .dense .s true, .scal .s, .obj (.viewDense .ten) .s false]),
  (.vml_pow, [.obj (.viewDense .vec) .s true, .scal .s, .obj .dense .s false]),
  (.vml_pow, [.obj (.viewDense .vec) .s true, .scal .s, .obj (.viewDense .vec) .s false]),
  (.vml_pow, [.obj (.viewDense .vec) .s true, .scal .s, .obj (.viewDense .mat) .s false]),
  (.vml_pow, [.obj (.viewDense .vec) .s true, .scal .s, .obj (.viewDense .ten) .s false]),
  (.vml_pow, [.obj (.viewDense .mat) .s true, .scal .s, .obj .dense .s false]),
  (.vml_pow, [.obj (.viewDense .mat) .s true, .scal .s, .obj (.viewDense .vec) .s false]),
  (.vml_pow, [.obj (.viewDense .mat) .s true, .scal .s, .obj (.viewDense .mat) .s false]),
  (.vml_pow, [.obj (.viewDense .mat) .s true, .scal .s, .obj (.viewDense .ten) .s false]),
  (.vml_pow, [.obj (.viewDense .ten) .s true, .scal .s, .obj .dense .s false]),
  (.vml_pow, [.obj (.viewDense .ten) .s true, .scal .s, .obj (.viewDense .vec) .s false]),
  (.vml_pow, [.obj (.viewDense .ten) .s true, .scal .s, .obj (.viewDense .mat) .s false]),
  (.vml_pow, [.obj (.viewDense .ten) .s true, .scal .s, .obj (.viewDense .ten) .s false]),
  (.vml_alo, [.obj .crs .d true, .scal .d, .scal .d, .obj .crs .d false]),
  (.vml_alo, [.obj .dense .d true, .scal .d, .scal .d, .obj .dense .d false]),
  (.vml_alo, [.obj .dense .d true, .scal .d, .scal .d, .obj (.viewDense .vec) .d false]),
  (.vml_alo, [.obj .dense .d true, .scal .d, .scal .d, .obj (.viewDense .mat) .d false]),
  (.vml_alo, [.obj .dense .d true, .scal .d, .scal .d, .obj (.viewDense .ten) .d false]),
  (.vml_alo, [.obj (.viewDense .vec) .d true, .scal .d, .scal .d, .obj .dense .d false]),
  (.vml_alo, [.obj (.viewDense .vec) .d true, .scal .d, .scal .d, .obj (.viewDense .vec) .d false]),
  (.vml_alo, [.obj (.viewDense .vec) .d true, .scal .d, .scal .d, .obj (.viewDense .mat) .d false]),
  (.vml_alo, [.obj (.viewDense .vec) .d true, .scal .d, .scal .d, .obj (.viewDense .ten) .d false]),
  (.vml_alo, [.obj (.viewDense .mat) .d true, .scal .d, .scal .d, .obj .dense .d false]),
  (.vml_alo, [.obj (.viewDense .mat) .d true, .scal .d, .scal .d, .obj (.viewDense .vec) .d false]),
  (.vml_alo, [.obj (.viewDense .mat) .d true, .scal .d, .scal .d, .obj (.viewDense .mat) .d false]),
  (.vml_alo, [.obj (.viewDense .mat) .d true, .scal .d, .scal .d, .obj (.viewDense .ten) .d false]),
  (.vml_alo, [.obj (.viewDense .ten) .d true, .scal .d, .scal .d, .obj .dense .d false]),
  (.vml_alo, [.obj (.viewDense .ten) .d true, .scal .d, .scal .d, .obj (.viewDense .vec) .d false]),
  (.vml_alo, [.obj (.viewDense .ten) .d true, .scal .d, .scal .d, .obj (.viewDense .mat) .d false]),
  (.vml_alo, [.obj (.viewDense .ten) .d true, .scal .d, .scal .d, .obj (.viewDense .ten) .d false]),
  (.vml_alo, [.obj .crs .s true, .scal .s, .scal .s, .obj .crs .s false]),
  (.vml_alo, [.obj .dense .s true, .scal .s, .scal .s, .obj .dense .s false]),
  (.vml_alo, [.obj .dense .s true, .scal .s, .scal .s, .obj (.viewDense .vec) .s false]),
  (.vml_alo, [.obj .dense .s true, .scal .s, .scal .s, .obj (.viewDense .mat) .s false]),
  (.vml_alo, [.obj .dense .s true, .scal .s, .scal .s, .obj (.viewDense .ten) .s false]),
  (.vml_alo, [.obj (.viewDense .vec) .s true, .scal .s, .scal .s, .obj .dense .s false]),
  (.vml_alo, [.obj (.viewDense .vec) .s true, .scal .s, .scal .s, .obj (.viewDense .vec) .s false]),
  (.vml_alo, [.obj (.viewDense .vec) .s true, .scal .s, .scal .s, .obj (.viewDense .mat) .s false]),
  (.vml_alo, [.obj (.viewDense .vec) .s true, .scal .s, .scal .s, .obj (.viewDense .ten) .s false]),
  (.vml_alo, [.obj (.viewDense .mat) .s true, .scal .s, .scal .s, .obj .dense .s false]),
  (.vml_alo, [.obj (.viewDense .mat) .s true, .scal .s, .scal .s, .obj (.viewDense .vec) .s false]),
  (.vml_alo, [.obj (.viewDense .mat) .s true, .scal .s, .scal .s, .obj (.viewDense .mat) .s false]),
  (.vml_alo, [.obj (.viewDense .mat) .s true, .scal .s, .scal .s, .obj (.viewDense .ten) .s false]),
  (.vml_alo, [.obj (.viewDense .ten) .s true, .scal .s, .scal .s, .obj .dense .s false]),
  (.vml_alo, [.obj (.viewDense .ten) .s true, .scal .s, .scal .s, .obj (.viewDense .vec) .s false]),
  (.vml_alo, [.obj (.viewDense .ten) .s true, .scal .s, .scal .s, .obj (.viewDense .mat) .s false]),
  (.vml_alo, [.obj (.viewDense .ten) .s true, .scal .s, .scal .s, .obj (.viewDense .ten) .s false]),
  (.vml_sin, [.obj .crs .d true, .obj .crs .d false]),
  (.vml_sin, [.obj .dense .d true, .obj .dense .d false]),
  (.vml_sin, [.obj .dense .d true, .obj (.viewDense .vec) .d false]),
  (.vml_sin, [.obj .dense .d true, .obj (.viewDense .mat) .d false]),
  (.vml_sin, [.obj .dense .d true, .obj (.viewDense .ten) .d false]),
  (.vml_sin, [.obj (.viewDense .vec) .d true, .obj .dense .d false]),
  (.vml_sin, [.obj (.viewDense .vec) .d true, .obj (.viewDense .vec) .d false]),
  (.vml_sin, [.obj (.viewDense .vec) .d true, .obj (.viewDense .mat) .d false]),
  (.vml_sin, [.obj (.viewDense .vec) .d true, .obj (.viewDense .ten) .d false]),
  (.vml_sin, [.obj (.viewDense .mat) .d true, .obj .dense .d false]),
  (.vml_sin, [.obj (.viewDense .mat) .d true, .obj (.viewDense .vec) .d false]),
  (.vml_sin, [.obj (.viewDense .mat) .d true, .obj (.viewDense .mat) .d false]),
  (.vml_sin, [.obj (.viewDense .mat) .d true, .obj (.viewDense .ten) .d false]),
  (.vml_sin, [.obj (.viewDense .ten) .d true, .obj .dense .d false]),
  (.vml_sin, [.obj (.viewDense .ten) .d true, .obj (.viewDense .vec) .d false]),
  (.vml_sin, [.obj (.viewDense .ten) .d true, .obj (.viewDense .mat) .d false]),
  (.vml_sin, [.obj (.viewDense .ten) .d true, .obj (.viewDense .ten) .d false]),
  (.vml_sin, [.obj .crs .s true, .obj .crs .s false]),
  (.vml_sin, [.obj .dense .s true, .obj .dense .s false]),
  (.vml_sin, [.obj .dense .s true, .obj (.viewDense .vec) .s false]),
  (.vml_sin, [.obj .dense .s true, .obj (.viewDense .mat) .s false]),
  (.vml_sin, [.obj .dense .s true, .obj (.viewDense .ten) .s false]),
  (.vml_sin, [.obj (.viewDense .vec) .s true, .obj .dense .s false]),
  (.vml_sin, [.obj (.viewDense .vec) .s true, .obj (.viewDense .vec) .s false]),
  (.vml_sin, [.obj (.viewDense .vec) .s true, .obj (.viewDense .mat) .s false]),
  (.vml_sin, [.obj (.viewDense .vec) .s true, .obj (.viewDense .ten) .s false])]

/-- the overloads of `tVmlMat_11` that are declared -/
def hVmlMat_11 : List (Fn × List Par) := [
  (.vml_sin, [.obj (.viewDense .mat) .s true, .obj .dense .s false]),
  (.vml_sin, [.obj (.viewDense .mat) .s true, .obj (.viewDense .vec) .s false]),
  (.vml_sin, [.obj (.viewDense .mat) .s true, .obj (.viewDense .mat) .s false]),
  (.vml_sin, [.obj (.viewDense .mat) .s true, .obj (.viewDense .ten) .s false]),
  (.vml_sin, [.obj (.viewDense .ten) .s true, .obj .dense .s false]),
  (.vml_sin, [.obj (.viewDense .ten) .s true, .obj (.viewDense .vec) .s false]),
  (.vml_sin, [.obj (.viewDense .ten) .s true, .obj (.viewDense .mat) .s false]),
  (.vml_sin, [.obj (.viewDense .ten) .s true, .obj (.viewDense .ten) .s false]),
  (.vml_sqrt, [.obj .crs .d true, .obj .crs .d false]),
  (.vml_sqrt, [.obj .dense .d true, .obj .dense .d false]),
  (.vml_sqrt, [.obj .dense .d true, .obj (.viewDense .vec) .d false]),
  (.vml_sqrt, [.obj .dense .d true, .obj (.viewDense .mat) .d false]),
  (.vml_sqrt, [.obj .dense .d true, .obj (.viewDense .ten) .d false]),
  (.vml_sqrt, [.obj (.viewDense .vec) .d true, .obj .dense .d false]),
  (.vml_sqrt, [.obj (.viewDense .vec) .d true, .obj (.viewDense .vec) .d false]),
  (.vml_sqrt, [.obj (.viewDense .vec) .d true, .obj (.viewDense .mat) .d false]),
  (.vml_sqrt, [.obj (.viewDense .vec) .d true, .obj (.viewDense .ten) .d false]),
  (.vml_sqrt, [.obj (.viewDense .mat) .d true, .obj .dense .d false]),
  (.vml_sqrt, [.obj (.viewDense .mat) .d true, .obj (.viewDense .vec) .d false]),
  (.vml_sqrt, [.obj (.viewDense .mat) .d true, .obj (.viewDense .mat) .d false]),
  (.vml_sqrt, [.obj (.viewDense .mat) .d true, .obj (.viewDense .ten) .d false]),
  (.vml_sqrt, [.obj (.viewDense .ten) .d true, .obj .dense .d false]),
  (.vml_sqrt, [.obj (.viewDense .ten) .d true, .obj (.viewDense .vec) .d false]),
  (.vml_sqrt, [.obj (.viewDense .ten) .d true, .obj (.viewDense .mat) .d false]),
  (.vml_sqrt, [.obj (.viewDense .ten) .d true, .obj (.viewDense .ten) .d false]),
  (.vml_sqrt, [.obj .crs .s true, .obj .crs .s false]),
  (.vml_sqrt, [.obj .dense .s true, .obj .dense .s false]),
  (.vml_sqrt, [.obj .dense .s true, .obj (.viewDense .vec) .s false]),
  (.vml_sqrt, [.obj .dense .s true, .obj (.viewDense .mat) .s false]),
  (.vml_sqrt, [.obj .dense .s true, .obj (.viewDense .ten) .s false]),
  (.vml_sqrt, [.obj (.viewDense .vec) .s true, .obj .dense .s false]),
  (.vml_sqrt, [.obj (.viewDense .vec) .s true, .obj (.viewDense .vec) .s false]),
  (.vml_sqrt, [.obj (.viewDense .vec) .s true, .obj (.viewDense .mat) .s false]),
  (.vml_sqrt, [.obj (.viewDense .vec) .s true, .obj (.viewDense .ten) .s false]),
  (.vml_sqrt, [.obj (.viewDense .mat) .s true, .obj .dense .s false]),
  (.vml_sqrt, [.obj (.viewDense .mat) .s true, .obj (.viewDense .vec) .s false]),
  (.vml_sqrt, [.obj (.viewDense .mat) .s true, .obj (.viewDense .mat) .s false]),
  (.vml_sqrt, [.obj (.viewDense .mat) .s true, .obj (.viewDense .ten) .s false]),
  (.vml_sqrt, [.obj (.viewDense .ten) .s true, .obj .dense .s false]),
  (.vml_sqrt, [.obj (.viewDense .ten) .s true, .obj (.viewDense .vec) .s false]),
  (.vml_sqrt, [.obj (.viewDense .ten) .s true, .obj (.viewDense .mat) .s false]),
  (.vml_sqrt, [.obj (.viewDense .ten) .s true, .obj (.viewDense .ten) .s false]),
  (.vml_sinh, [.obj .crs .d true, .obj .crs .d false]),
  (.vml_sinh, [.obj .dense .d true, .obj .dense .d false]),
  (.vml_sinh, [.obj .dense .d true, .obj (.viewDense .vec) .d false]),
  (.vml_sinh, [.obj .dense .d true, .obj (.viewDense .mat) .d false]),
  (.vml_sinh, [.obj .dense .d true, .obj (.viewDense .ten) .d false]),
  (.vml_sinh, [.obj (.viewDense .vec) .d true, .obj .dense .d false]),
  (.vml_sinh, [.obj (.viewDense .vec) .d true, .obj (.viewDense .vec) .d false]),
  (.vml_sinh, [.obj (.viewDense .vec) .d true, .obj (.viewDense .mat) .d false]),
  (.vml_sinh, [.obj (.viewDense .vec) .d true, .obj (.viewDense .ten) .d false]),
  (.vml_sinh, [.obj (.viewDense .mat) .d true, .obj .dense .d false]),
  (.vml_sinh, [.obj (.viewDense .mat) .d true, .obj (.viewDense .vec) .d false]),
  (.vml_sinh, [.obj (.viewDense .mat) .d true, .obj (.viewDense .mat) .d false]),
  (.vml_sinh, [.obj (.viewDense .mat) .d true, .obj (.viewDense .ten) .d false]),
  (.vml_sinh, [.obj (.viewDense .ten) .d true, .obj .dense .d false]),
  (.vml_sinh, [.obj (.viewDense .ten) .d true, .obj (.viewDense .vec) .d false]),
  (.vml_sinh, [.obj (.viewDense .ten) .d true, .obj (.viewDense .mat) .d false]),
  (.vml_sinh, [.obj (.viewDense .ten) .d true, .obj (.viewDense .ten) .d false]),
  (.vml_sinh, [.obj .crs .s true, .obj .crs .s false]),
  (.vml_sinh, [.obj .dense .s true, .obj .dense .s false]),
  (.vml_sinh, [.obj .dense .s true, .obj (.viewDense .vec) .s false]),
  (.vml_sinh, [.obj .dense .s true, .obj (.viewDense .mat) .s false]),
  (.vml_sinh, [.obj .dense .s true, .obj (.viewDense .ten) .s false]),
  (.vml_sinh, [.obj (.viewDense .vec) .s true, .obj .dense .s false]),
  (.vml_sinh, [.obj (.viewDense .vec) .s true, .obj (.viewDense .vec) .s false]),
  (.vml_sinh, [.obj (.viewDense .vec) .s true, .obj (.viewDense .mat) .s false]),
  (.vml_sinh, [.obj (.viewDense .vec) .s true, .obj (.viewDense .ten) .s false]),
  (.vml_sinh, [.obj (.viewDense .mat) .s true, .obj .dense .s false]),
  (.vml_sinh, [.obj (.viewDense .mat) .s true, .obj (.viewDense .vec) .s false]),
  (.vml_sinh, [.obj (.viewDense .mat) .s true, .obj (.viewDense .mat) .s false]),
  (.vml_sinh, [.obj (.viewDense .mat) .s true, .obj (.viewDense .ten) .s false]),
  (.vml_sinh, [.obj (.viewDense .ten) .s true, .obj .dense .s false]),
  (.vml_sinh, [.obj (.viewDense .ten) .s true, .obj (.viewDense .vec) .s false]),
  (.vml_sinh, [.obj (.viewDense .ten) .s true, .obj (.viewDense .mat) .s false]),
  (.vml_sinh, [.obj (.viewDense .ten) .s true, .obj (.viewDense .ten) .s false]),
  (.vml_asin, [.obj .crs .d true, .obj .crs .d false]),
  (.vml_asin, [.obj .dense .d true, .obj .dense .d false]),
  (.vml_asin, [.obj .dense .d true, .obj (.viewDense .vec) .d false]),
  (.vml_asin, [.obj .dense .d true, .obj (.viewDense .mat) .d false])]

/-- the overloads of `tVmlMat_12` that are declared -/
def hVmlMat_12 : List (Fn × List Par) := [
  (.vml_asin, [.obj .dense .d true, .obj (.viewDense .ten) .d false]),
  (.vml_asin, [.obj (.viewDense .vec) .d true, .obj .dense .d false]),
  (.vml_asin, [.obj (.viewDense .vec) .d true, .obj (.viewDense .vec) .d false]),
  (.vml_asin, [.obj (.viewDense .vec) .d true, .obj (.viewDense .mat) .d false]),
  (.vml_asin, [.obj (.viewDense .vec) .d true, .obj (.viewDense .ten) .d false]),
  (.vml_asin, [.obj (.viewDense .mat) .d true, .obj .dense .d false]),
  (.vml_asin, [.obj (.viewDense .mat) .d true, .obj (.viewDense .vec) .d false]),
  (.vml_asin, [.obj (.viewDense .mat) .d true, .obj (.viewDense .mat) .d false]),
  (.vml_asin, [.obj (.viewDense .mat) .d true, .obj (.viewDense .ten) .d false]),
  (.vml_asin, [.obj (.viewDense .ten) .d true, .obj .dense .d false]),
  (.vml_asin, [.obj (.viewDense .ten) .d true, .obj (.viewDense .vec) .d false]),
  (.vml_asin, [.obj (.viewDense .ten) .d true, .obj (.viewDense .mat) .d false]),
  (.vml_asin, [.obj (.viewDense .ten) .d true, .obj (.viewDense .ten) .d false]),
  (.vml_asin, [.obj .crs .s true, .obj .crs .s false]),
  (.vml_asin, [.obj .dense .s true, .obj .dense .s false]),
  (.vml_asin, [.obj .dense .s true, .obj (.viewDense .vec) .s false]),
  (.vml_asin, [.obj .dense .s true, .obj (.viewDense .mat) .s false]),
  (.vml_asin, [.obj .dense .s true, .obj (.viewDense .ten) .s false]),
  (.vml_asin, [.obj (.viewDense .vec) .s true, .obj .dense .s false]),
  (.vml_asin, [.obj (.viewDense .vec) .s true, .obj (.viewDense .vec) .s false]),
  (.vml_asin, [.obj (.viewDense .vec) .s true, .obj (.viewDense .mat) .s false]),
  (.vml_asin, [.obj (.viewDense .vec) .s true, .obj (.viewDense .ten) .s false]),
  (.vml_asin, [.obj (.viewDense .mat) .s true, .obj .dense .s false]),
  (.vml_asin, [.obj (.viewDense .mat) .s true, .obj (.viewDense .vec) .s false]),
  (.vml_asin, [.obj (.viewDense .mat) .s true, .obj (.viewDense .mat) .s false]),
  (.vml_asin, [.obj (.viewDense .mat) .s true, .obj (.viewDense .ten) .s false]),
  (.vml_asin, [.obj (.viewDense .ten) .s true, .obj .dense .s false]),
  (.vml_asin, [.obj (.viewDense .ten) .s true, .obj (.viewDense .vec) .s false]),
  (.vml_asin, [.obj (.viewDense .ten) .s true, .obj (.viewDense .mat) .s false]),
  (.vml_asin, [.obj (.viewDense .ten) .s true, .obj (.viewDense .ten) .s false]),
  (.vml_asinh, [.obj .crs .d true, .obj .crs .d false]),
  (.vml_asinh, [.obj .dense .d true, .obj .dense .d false]),
  (.vml_asinh, [.obj .dense .d true, .obj (.viewDense .vec) .d false]),
  (.vml_asinh, [.obj .dense .d true, .obj (.viewDense .mat) .d false]),
  (.vml_asinh, [.obj .dense .d true, .obj (.viewDense .ten) .d false]),
  (.vml_asinh, [.obj (.viewDense .vec) .d true, .obj .dense .d false]),
  (.vml_asinh, [.obj (.viewDense .vec) .d true, .obj (.viewDense .vec) .d false]),
  (.vml_asinh, [.obj (.viewDense .vec) .d true, .obj (.viewDense .mat) .d false]),
  (.vml_asinh, [.obj (.viewDense .vec) .d true, .obj (.viewDense .ten) .d false]),
  (.vml_asinh, [.obj (.viewDense .mat) .d true, .obj .dense .d false]),
  (.vml_asinh, [.obj (.viewDense .mat) .d true, .obj (.viewDense .vec) .d false]),
  (.vml_asinh, [.obj (.viewDense .mat) .d true, .obj (.viewDense .mat) .d false]),
  (.vml_asinh, [.obj (.viewDense .mat) .d true, .obj (.viewDense .ten) .d false]),
  (.vml_asinh, [.obj (.viewDense .ten) .d true, .obj .dense .d false]),
  (.vml_asinh, [.obj (.viewDense .ten) .d true, .obj (.viewDense .vec) .d false]),
  (.vml_asinh, [.obj (.viewDense .ten) .d true, .obj (.viewDense .mat) .d false]),
  (.vml_asinh, [.obj (.viewDense .ten) .d true, .obj (.viewDense .ten) .d false]),
  (.vml_asinh, [.obj .crs .s true, .obj .crs .s false]),
  (.vml_asinh, [.obj .dense .s true, .obj .dense .s false]),
  (.vml_asinh, [.obj .dense .s true, .obj (.viewDense .vec) .s false]),
  (.vml_asinh, [.obj .dense .s true, .obj (.viewDense .mat) .s false]),
  (.vml_asinh, [.obj .dense .s true, .obj (.viewDense .ten) .s false]),
  (.vml_asinh, [.obj (.viewDense .vec) .s true, .obj .dense .s false]),
  (.vml_asinh, [.obj (.viewDense .vec) .s true, .obj (.viewDense .vec) .s false]),
  (.vml_asinh, [.obj (.viewDense .vec) .s true, .obj (.viewDense .mat) .s false]),
  (.vml_asinh, [.obj (.viewDense .vec) .s true, .obj (.viewDense .ten) .s false]),
  (.vml_asinh, [.obj (.viewDense .mat) .s true, .obj .dense .s false]),
  (.vml_asinh, [.obj (.viewDense .mat) .s true, .obj (.viewDense .vec) .s false]),
  (.vml_asinh, [.obj (.viewDense .mat) .s true, .obj (.viewDense .mat) .s false]),
  (.vml_asinh, [.obj (.viewDense .mat) .s true, .obj (.viewDense .ten) .s false]),
  (.vml_asinh, [.obj (.viewDense .ten) .s true, .obj .dense .s false]),
  (.vml_asinh, [.obj (.viewDense .ten) .s true, .obj (.viewDense .vec) .s false]),
  (.vml_asinh, [.obj (.viewDense .ten) .s true, .obj (.viewDense .mat) .s false]),
  (.vml_asinh, [.obj (.viewDense .ten) .s true, .obj (.viewDense .ten) .s false]),
  (.vml_tan, [.obj .crs .d true, .obj .crs .d false]),
  (.vml_tan, [.obj .dense .d true, .obj .dense .d false]),
  (.vml_tan, [.obj .dense .d true, .obj (.viewDense .vec) .d false]),
  (.vml_tan, [.obj .dense .d true, .obj (.viewDense .mat) .d false]),
  (.vml_tan, [.obj .dense .d true, .obj (.viewDense .ten) .d false]),
  (.vml_tan, [.obj (.viewDense .vec) .d true, .obj .dense .d false]),
  (.vml_tan, [.obj (.viewDense .vec) .d true, .obj (.viewDense .vec) .d false]),
  (.vml_tan, [.obj (.viewDense .vec) .d true, .obj (.viewDense .mat) .d false]),
  (.vml_tan, [.obj (.viewDense .vec) .d true, .obj (.viewDense .ten) .d false]),
  (.vml_tan, [.obj (.viewDense .mat) .d true, .obj .dense .d false]),
  (.vml_tan, [.obj (.viewDense .mat) .d true, .obj (.viewDense .vec) .d false]),
  (.vml_tan, [.obj (.viewDense .mat) .d true, .obj (.viewDense .mat) .d false]),
  (.vml_tan, [.obj (.viewDense .mat) .d true, .obj (.viewDense .ten) .d false]),
  (.vml_tan, [.obj (.viewDense .ten) .d true, .obj .dense .d false]),
  (.vml_tan, [.obj (.viewDense .ten) .d true, .obj (.viewDense .vec) .d false]),
  (.vml_tan, [.obj (.viewDense .ten) .d true, .obj (.viewDense .mat) .d false])]

/-- the overloads of `tVmlMat_13` that are declared -/
def hVmlMat_13 : List (Fn × List Par) := [
  (.vml_tan, [.obj (.viewDense .ten) .d true, .obj (.viewDense .ten) .d false]),
  (.vml_tan, [.obj .crs .s true, .obj .crs .s false]),
  (.vml_tan, [.obj .dense .s true, .obj .dense .s false]),
  (.vml_tan, [.obj .dense .s true, .obj (.viewDense .vec) .s false]),
  (.vml_tan, [.obj .dense .s true, .obj (.viewDense .mat) .s false]),
  (.vml_tan, [.obj .dense .s true, .obj (.viewDense .ten) .s false]),
  (.vml_tan, [.obj (.viewDense .vec) .s true, .obj .dense .s false]),
  (.vml_tan, [.obj (.viewDense .vec) .s true, .obj (.viewDense .vec) .s false]),
  (.vml_tan, [.obj (.viewDense .vec) .s true, .obj (.viewDense .mat) .s false]),
  (.vml_tan, [.obj (.viewDense .vec) .s true, .obj (.viewDense .ten) .s false]),
  (.vml_tan, [.obj (.viewDense .mat) .s true, .obj .dense .s false]),
  (.vml_tan, [.obj (.viewDense .mat) .s true, .obj (.viewDense .vec) .s false]),
  (.vml_tan, [.obj (.viewDense .mat) .s true, .obj (.viewDense .mat) .s false]),
  (.vml_tan, [.obj (.viewDense .mat) .s true, .obj (.viewDense .ten) .s false]),
  (.vml_tan, [.obj (.viewDense .ten) .s true, .obj .dense .s false]),
  (.vml_tan, [.obj (.viewDense .ten) .s true, .obj (.viewDense .vec) .s false]),
  (.vml_tan, [.obj (.viewDense .ten) .s true, .obj (.viewDense .mat) .s false]),
  (.vml_tan, [.obj (.viewDense .ten) .s true, .obj (.viewDense .ten) .s false]),
  (.vml_tanh, [.obj .crs .d true, .obj .crs .d false]),
  (.vml_tanh, [.obj .dense .d true, .obj .dense .d false]),
  (.vml_tanh, [.obj .dense .d true, .obj (.viewDense .vec) .d false]),
  (.vml_tanh, [.obj .dense .d true, .obj (.viewDense .mat) .d false]),
  (.vml_tanh, [.obj .dense .d true, .obj (.viewDense .ten) .d false]),
  (.vml_tanh, [.obj (.viewDense .vec) .d true, .obj .dense .d false]),
  (.vml_tanh, [.obj (.viewDense .vec) .d true, .obj (.viewDense .vec) .d false]),
  (.vml_tanh, [.obj (.viewDense .vec) .d true, .obj (.viewDense .mat) .d false]),
  (.vml_tanh, [.obj (.viewDense .vec) .d true, .obj (.viewDense .ten) .d false]),
  (.vml_tanh, [.obj (.viewDense .mat) .d true, .obj .dense .d false]),
  (.vml_tanh, [.obj (.viewDense .mat) .d true, .obj (.viewDense .vec) .d false]),
  (.vml_tanh, [.obj (.viewDense .mat) .d true, .obj (.viewDense .mat) .d false]),
  (.vml_tanh, [.obj (.viewDense .mat) .d true, .obj (.viewDense .ten) .d false]),
  (.vml_tanh, [.obj (.viewDense .ten) .d true, .obj .dense .d false]),
  (.vml_tanh, [.obj (.viewDense .ten) .d true, .obj (.viewDense .vec) .d false]),
  (.vml_tanh, [.obj (.viewDense .ten) .d true, .obj (.viewDense .mat) .d false]),
  (.vml_tanh, [.obj (.viewDense .ten) .d true, .obj (.viewDense .ten) .d false]),
  (.vml_tanh, [.obj .crs .s true, .obj .crs .s false]),
  (.vml_tanh, [.obj .dense .s true, .obj .dense .s false]),
  (.vml_tanh, [.obj .dense .s true, .obj (.viewDense .vec) .s false]),
  (.vml_tanh, [.obj .dense .s true, .obj (.viewDense .mat) .s false]),
  (.vml_tanh, [.obj .dense .s true, .obj (.viewDense .ten) .s false]),
  (.vml_tanh, [.obj (.viewDense .vec) .s true, .obj .dense .s false]),
  (.vml_tanh, [.obj (.viewDense .vec) .s true, .obj (.viewDense .vec) .s false]),
  (.vml_tanh, [.obj (.viewDense .vec) .s true, .obj (.viewDense .mat) .s false]),
  (.vml_tanh, [.obj (.viewDense .vec) .s true, .obj (.viewDense .ten) .s false]),
  (.vml_tanh, [.obj (.viewDense .mat) .s true, .obj .dense .s false]),
  (.vml_tanh, [.obj (.viewDense .mat) .s true, .obj (.viewDense .vec) .s false]),
  (.vml_tanh, [.obj (.viewDense .mat) .s true, .obj (.viewDense .mat) .s false]),
  (.vml_tanh, [.obj (.viewDense .mat) .s true, .obj (.viewDense .ten) .s false]),
  (.vml_tanh, [.obj (.viewDense .ten) .s true, .obj .dense .s false]),
  (.vml_tanh, [.obj (.viewDense .ten) .s true, .obj (.viewDense .vec) .s false]),
  (.vml_tanh, [.obj (.viewDense .ten) .s true, .obj (.viewDense .mat) .s false]),
  (.vml_tanh, [.obj (.viewDense .ten) .s true, .obj (.viewDense .ten) .s false]),
  (.vml_atan, [.obj .crs .d true, .obj .crs .d false]),
  (.vml_atan, [.obj .dense .d true, .obj .dense .d false]),
  (.vml_atan, [.obj .dense .d true, .obj (.viewDense .vec) .d false]),
  (.vml_atan, [.obj .dense .d true, .obj (.viewDense .mat) .d false]),
  (.vml_atan, [.obj .dense .d true, .obj (.viewDense .ten) .d false]),
  (.vml_atan, [.obj (.viewDense .vec) .d true, .obj .dense .d false]),
  (.vml_atan, [.obj (.viewDense .vec) .d true, .obj (.viewDense .vec) .d false]),
  (.vml_atan, [.obj (.viewDense .vec) .d true, .obj (.viewDense .mat) .d false]),
  (.vml_atan, [.obj (.viewDense .vec) .d true, .obj (.viewDense .ten) .d false]),
  (.vml_atan, [.obj (.viewDense .mat) .d true, .obj .dense .d false]),
  (.vml_atan, [.obj (.viewDense .mat) .d true, .obj (.viewDense .vec) .d false]),
  (.vml_atan, [.obj (.viewDense .mat) .d true, .obj (.viewDense .mat) .d false]),
  (.vml_atan, [.obj (.viewDense .mat) .d true, .obj (.viewDense .ten) .d false]),
  (.vml_atan, [.obj (.viewDense .ten) .d true, .obj .dense .d false]),
  (.vml_atan, [.obj (.viewDense .ten) .d true, .obj (.viewDense .vec) .d false]),
  (.vml_atan, [.obj (.viewDense .ten) .d true, .obj (.viewDense .mat) .d false]),
  (.vml_atan, [.obj (.viewDense .ten) .d true, .obj (.viewDense .ten) .d false]),
  (.vml_atan, [.obj .crs .s true, .obj .crs .s false]),
  (.vml_atan, [.obj .dense .s true, .obj .dense .s false]),
  (.vml_atan, [.obj .dense .s true, .obj (.viewDense .vec) .s false]),
  (.vml_atan, [.obj .dense .s true, .obj (.viewDense .mat) .s false]),
  (.vml_atan, [.obj .dense .s true, .obj (.viewDense .ten) .s false]),
  (.vml_atan, [.obj (.viewDense .vec) .s true, .obj .dense .s false]),
  (.vml_atan, [.obj (.viewDense .vec) .s true, .obj (.viewDense .vec) .s false]),
  (.vml_atan, [.obj (.viewDense .vec) .s true, .obj (.viewDense .mat) .s false]),
  (.vml_atan, [.obj (.viewDense .vec) .s true, .obj (.viewDense .ten) .s false]),
  (.vml_atan, [.obj (.viewDense .mat) .s true, .obj .dense .s false]),
  (.vml_atan, [.obj (.viewDense .mat) .s true, .obj (.viewDense .vec) .s false])]

/-- the overloads of `tVmlMat_14` that are declared -/
def hVmlMat_14 : List (Fn × List Par) := [
  (.vml_atan, [.obj (.viewDense .mat) .s true, .obj (.viewDense .mat) .s false]),
  (.vml_atan, [.obj (.viewDense .mat) .s true, .obj (.viewDense .ten) .s false]),
  (.vml_atan, [.obj (.viewDense .ten) .s true, .obj .dense .s false]),
  (.vml_atan, [.obj (.viewDense .ten) .s true, .obj (.viewDense .vec) .s false]),
  (.vml_atan, [.obj (.viewDense .ten) .s true, .obj (.viewDense .mat) .s false]),
  (.vml_atan, [.obj (.viewDense .ten) .s true, .obj (.viewDense .ten) .s false]),
  (.vml_atanh, [.obj .crs .d true, .obj .crs .d false]),
  (.vml_atanh, [.obj .dense .d true, .obj .dense .d false]),
  (.vml_atanh, [.obj .dense .d true, .obj (.viewDense .vec) .d false]),
  (.vml_atanh, [.obj .dense .d true, .obj (.viewDense .mat) .d false]),
  (.vml_atanh, [.obj .dense .d true, .obj (.viewDense .ten) .d false]),
  (.vml_atanh, [.obj (.viewDense .vec) .d true, .obj .dense .d false]),
  (.vml_atanh, [.obj (.viewDense .vec) .d true, .obj (.viewDense .vec) .d false]),
  (.vml_atanh, [.obj (.viewDense .vec) .d true, .obj (.viewDense .mat) .d false]),
  (.vml_atanh, [.obj (.viewDense .vec) .d true, .obj (.viewDense .ten) .d false]),
  (.vml_atanh, [.obj (.viewDense .mat) .d true, .obj .dense .d false]),
  (.vml_atanh, [.obj (.viewDense .mat) .d true, .obj (.viewDense .vec) .d false]),
  (.vml_atanh, [.obj (.viewDense .mat) .d true, .obj (.viewDense .mat) .d false]),
  (.vml_atanh, [.obj (.viewDense .mat) .d true, .obj (.viewDense .ten) .d false]),
  (.vml_atanh, [.obj (.viewDense .ten) .d true, .obj .dense .d false]),
  (.vml_atanh, [.obj (.viewDense .ten) .d true, .obj (.viewDense .vec) .d false]),
  (.vml_atanh, [.obj (.viewDense .ten) .d true, .obj (.viewDense .mat) .d false]),
  (.vml_atanh, [.obj (.viewDense .ten) .d true, .obj (.viewDense .ten) .d false]),
  (.vml_atanh, [.obj .crs .s true, .obj .crs .s false]),
  (.vml_atanh, [.obj .dense .s true, .obj .dense .s false]),
  (.vml_atanh, [.obj .dense .s true, .obj (.viewDense .vec) .s false]),
  (.vml_atanh, [.obj .dense .s true, .obj (.viewDense .mat) .s false]),
  (.vml_atanh, [.obj .dense .s true, .obj (.viewDense .ten) .s false]),
  (.vml_atanh, [.obj (.viewDense .vec) .s true, .obj .dense .s false]),
  (.vml_atanh, [.obj (.viewDense .vec) .s true, .obj (.viewDense .vec) .s false]),
  (.vml_atanh, [.obj (.viewDense .vec) .s true, .obj (.viewDense .mat) .s false]),
  (.vml_atanh, [.obj (.viewDense .vec) .s true, .obj (.viewDense .ten) .s false]),
  (.vml_atanh, [.obj (.viewDense .mat) .s true, .obj .dense .s false]),
  (.vml_atanh, [.obj (.viewDense .mat) .s true, .obj (.viewDense .vec) .s false]),
  (.vml_atanh, [.obj (.viewDense .mat) .s true, .obj (.viewDense .mat) .s false]),
  (.vml_atanh, [.obj (.viewDense .mat) .s true, .obj (.viewDense .ten) .s false]),
  (.vml_atanh, [.obj (.viewDense .ten) .s true, .obj .dense .s false]),
  (.vml_atanh, [.obj (.viewDense .ten) .s true, .obj (.viewDense .vec) .s false]),
  (.vml_atanh, [.obj (.viewDense .ten) .s true, .obj (.viewDense .mat) .s false]),
  (.vml_atanh, [.obj (.viewDense .ten) .s true, .obj (.viewDense .ten) .s false]),
  (.vml_ceil, [.obj .crs .d true, .obj .crs .d false]),
  (.vml_ceil, [.obj .dense .d true, .obj .dense .d false]),
  (.vml_ceil, [.obj .dense .d true, .obj (.viewDense .vec) .d false]),
  (.vml_ceil, [.obj .dense .d true, .obj (.viewDense .mat) .d false]),
  (.vml_ceil, [.obj .dense .d true, .obj (.viewDense .ten) .d false]),
  (.vml_ceil, [.obj (.viewDense .vec) .d true, .obj .dense .d false]),
  (.vml_ceil, [.obj (.viewDense .vec) .d true, .obj (.viewDense .vec) .d false]),
  (.vml_ceil, [.obj (.viewDense .vec) .d true, .obj (.viewDense .mat) .d false]),
  (.vml_ceil, [.obj (.viewDense .vec) .d true, .obj (.viewDense .ten) .d false]),
  (.vml_ceil, [.obj (.viewDense .mat) .d true, .obj .dense .d false]),
  (.vml_ceil, [.obj (.viewDense .mat) .d true, .obj (.viewDense .vec) .d false]),
  (.vml_ceil, [.obj (.viewDense .mat) .d true, .obj (.viewDense .mat) .d false]),
  (.vml_ceil, [.obj (.viewDense .mat) .d true, .obj (.viewDense .ten) .d false]),
  (.vml_ceil, [.obj (.viewDense .ten) .d true, .obj .dense .d false]),
  (.vml_ceil, [.obj (.viewDense .ten) .d true, .obj (.viewDense .vec) .d false]),
  (.vml_ceil, [.obj (.viewDense .ten) .d true, .obj (.viewDense .mat) .d false]),
  (.vml_ceil, [.obj (.viewDense .ten) .d true, .obj (.viewDense .ten) .d false]),
  (.vml_ceil, [.obj .crs .s true, .obj .crs .s false]),
  (.vml_ceil, [.obj .dense .s true, .obj .dense .s false]),
  (.vml_ceil, [.obj .dense .s true, .obj (.viewDense .vec) .s false]),
  (.vml_ceil, [.obj .dense .s true, .obj (.viewDense .mat) .s false]),
  (.vml_ceil, [.obj .dense .s true, .obj (.viewDense .ten) .s false]),
  (.vml_ceil, [.obj (.viewDense .vec) .s true, .obj .dense .s false]),
  (.vml_ceil, [.obj (.viewDense .vec) .s true, .obj (.viewDense .vec) .s false]),
  (.vml_ceil, [.obj (.viewDense .vec) .s true, .obj (.viewDense .mat) .s false]),
  (.vml_ceil, [.obj (.viewDense .vec) .s true, .obj (.viewDense .ten) .s false]),
  (.vml_ceil, [.obj (.viewDense .mat) .s true, .obj .dense .s false]),
  (.vml_ceil, [.obj (.viewDense .mat) .s true, .obj (.viewDense .vec) .s false]),
  (.vml_ceil, [.obj (.viewDense .mat) .s true, .obj (.viewDense .mat) .s false]),
  (.vml_ceil, [.obj (.viewDense .mat) .s true, .obj (.viewDense .ten) .s false]),
  (.vml_ceil, [.obj (.viewDense .ten) .s true, .obj .dense .s false]),
  (.vml_ceil, [.obj (.viewDense .ten) .s true, .obj (.viewDense .vec) .s false]),
  (.vml_ceil, [.obj (.viewDense .ten) .s true, .obj (.viewDense .mat) .s false]),
  (.vml_ceil, [.obj (.viewDense .ten) .s true, .obj (.viewDense .ten) .s false]),
  (.vml_floor, [.obj .crs .d true, .obj .crs .d false]),
  (.vml_floor, [.obj .dense .d true, .obj .dense .d false]),
  (.vml_floor, [.obj .dense .d true, .obj (.viewDense .vec) .d false]),
  (.vml_floor, [.obj .dense .d true, .obj (.viewDense .mat) .d false]),
  (.vml_floor, [.obj .dense .d true, .obj (.viewDense .ten) .d false]),
  (.vml_floor, [.obj (.viewDense .vec) .d true, .obj .dense .d false])]

/-- the overloads of `tVmlMat_15` that are declared -/
def hVmlMat_15 : List (Fn × List Par) := [
  (.vml_floor, [.obj (.viewDense .vec) .d true, .obj (.viewDense .vec) .d false]),
  (.vml_floor, [.obj (.viewDense .vec) .d true, .obj (.viewDense .mat) .d false]),
  (.vml_floor, [.obj (.viewDense .vec) .d true, .obj (.viewDense .ten) .d false]),
  (.vml_floor, [.obj (.viewDense .mat) .d true, .obj .dense .d false]),
  (.vml_floor, [.obj (.viewDense .mat) .d true, .obj (.viewDense .vec) .d false]),
  (.vml_floor, [.obj (.viewDense .mat) .d true, .obj (.viewDense .mat) .d false]),
  (.vml_floor, [.obj (.viewDense .mat) .d true, .obj (.viewDense .ten) .d false]),
  (.vml_floor, [.obj (.viewDense .ten) .d true, .obj .dense .d false]),
  (.vml_floor, [.obj (.viewDense .ten) .d true, .obj (.viewDense .vec) .d false]),
  (.vml_floor, [.obj (.viewDense .ten) .d true, .obj (.viewDense .mat) .d false]),
  (.vml_floor, [.obj (.viewDense .ten) .d true, .obj (.viewDense .ten) .d false]),
  (.vml_floor, [.obj .crs .s true, .obj .crs .s false]),
  (.vml_floor, [.obj .dense .s true, .obj .dense .s false]),
  (.vml_floor, [.obj .dense .s true, .obj (.viewDense .vec) .s false]),
  (.vml_floor, [.obj .dense .s true, .obj (.viewDense .mat) .s false]),
  (.vml_floor, [.obj .dense .s true, .obj (.viewDense .ten) .s false]),
  (.vml_floor, [.obj (.viewDense .vec) .s true, .obj .dense .s false]),
  (.vml_floor, [.obj (.viewDense .vec) .s true, .obj (.viewDense .vec) .s false]),
  (.vml_floor, [.obj (.viewDense .vec) .s true, .obj (.viewDense .mat) .s false]),
  (.vml_floor, [.obj (.viewDense .vec) .s true, .obj (.viewDense .ten) .s false]),
  (.vml_floor, [.obj (.viewDense .mat) .s true, .obj .dense .s false]),
  (.vml_floor, [.obj (.viewDense .mat) .s true, .obj (.viewDense .vec) .s false]),
  (.vml_floor, [.obj (.viewDense .mat) .s true, .obj (.viewDense .mat) .s false]),
  (.vml_floor, [.obj (.viewDense .mat) .s true, .obj (.viewDense .ten) .s false]),
  (.vml_floor, [.obj (.viewDense .ten) .s true, .obj .dense .s false]),
  (.vml_floor, [.obj (.viewDense .ten) .s true, .obj (.viewDense .vec) .s false]),
  (.vml_floor, [.obj (.viewDense .ten) .s true, .obj (.viewDense .mat) .s false]),
  (.vml_floor, [.obj (.viewDense .ten) .s true, .obj (.viewDense .ten) .s false]),
  (.vml_sign, [.obj .crs .d true, .obj .crs .d false]),
  (.vml_sign, [.obj .dense .d true, .obj .dense .d false]),
  (.vml_sign, [.obj .dense .d true, .obj (.viewDense .vec) .d false]),
  (.vml_sign, [.obj .dense .d true, .obj (.viewDense .mat) .d false]),
  (.vml_sign, [.obj .dense .d true, .obj (.viewDense .ten) .d false]),
  (.vml_sign, [.obj (.viewDense .vec) .d true, .obj .dense .d false]),
  (.vml_sign, [.obj (.viewDense .vec) .d true, .obj (.viewDense .vec) .d false]),
  (.vml_sign, [.obj (.viewDense .vec) .d true, .obj (.viewDense .mat) .d false]),
  (.vml_sign, [.obj (.viewDense .vec) .d true, .obj (.viewDense .ten) .d false]),
  (.vml_sign, [.obj (.viewDense .mat) .d true, .obj .dense .d false]),
  (.vml_sign, [.obj (.viewDense .mat) .d true, .obj (.viewDense .vec) .d false]),
  (.vml_sign, [.obj (.viewDense .mat) .d true, .obj (.viewDense .mat) .d false]),
  (.vml_sign, [.obj (.viewDense .mat) .d true, .obj (.viewDense .ten) .d false]),
  (.vml_sign, [.obj (.viewDense .ten) .d true, .obj .dense .d false]),
  (.vml_sign, [.obj (.viewDense .ten) .d true, .obj (.viewDense .vec) .d false]),
  (.vml_sign, [.obj (.viewDense .ten) .d true, .obj (.viewDense .mat) .d false]),
  (.vml_sign, [.obj (.viewDense .ten) .d true, .obj (.viewDense .ten) .d false]),
  (.vml_sign, [.obj .crs .s true, .obj .crs .s false]),
  (.vml_sign, [.obj .dense .s true, .obj .dense .s false]),
  (.vml_sign, [.obj .dense .s true, .obj (.viewDense .vec) .s false]),
  (.vml_sign, [.obj .dense .s true, .obj (.viewDense .mat) .s false]),
  (.vml_sign, [.obj .dense .s true, .obj (.viewDense .ten) .s false]),
  (.vml_sign, [.obj (.viewDense .vec) .s true, .obj .dense .s false]),
  (.vml_sign, [.obj (.viewDense .vec) .s true, .obj (.viewDense .vec) .s false]),
  (.vml_sign, [.obj (.viewDense .vec) .s true, .obj (.viewDense .mat) .s false]),
  (.vml_sign, [.obj (.viewDense .vec) .s true, .obj (.viewDense .ten) .s false]),
  (.vml_sign, [.obj (.viewDense .mat) .s true, .obj .dense .s false]),
  (.vml_sign, [.obj (.viewDense .mat) .s true, .obj (.viewDense .vec) .s false]),
  (.vml_sign, [.obj (.viewDense .mat) .s true, .obj (.viewDense .mat) .s false]),
  (.vml_sign, [.obj (.viewDense .mat) .s true, .obj (.viewDense .ten) .s false]),
  (.vml_sign, [.obj (.viewDense .ten) .s true, .obj .dense .s false]),
  (.vml_sign, [.obj (.viewDense .ten) .s true, .obj (.viewDense .vec) .s false]),
  (.vml_sign, [.obj (.viewDense .ten) .s true, .obj (.viewDense .mat) .s false]),
  (.vml_sign, [.obj (.viewDense .ten) .s true, .obj (.viewDense .ten) .s false]),
  (.vml_reciprocal, [.obj .crs .d true, .obj .crs .d false]),
  (.vml_reciprocal, [.obj .dense .d true, .obj .dense .d false]),
  (.vml_reciprocal, [.obj .dense .d true, .obj (.viewDense .vec) .d false]),
  (.vml_reciprocal, [.obj .dense .d true, .obj (.viewDense .mat) .d false]),
  (.vml_reciprocal, [.obj .dense .d true, .obj (.viewDense .ten) .d false]),
  (.vml_reciprocal, [.obj (.viewDense .vec) .d true, .obj .dense .d false]),
  (.vml_reciprocal, [.obj (.viewDense .vec) .d true, .obj (.viewDense .vec) .d false]),
  (.vml_reciprocal, [.obj (.viewDense .vec) .d true, .obj (.viewDense .mat) .d false]),
  (.vml_reciprocal, [.obj (.viewDense .vec) .d true, .obj (.viewDense .ten) .d false]),
  (.vml_reciprocal, [.obj (.viewDense .mat) .d true, .obj .dense .d false]),
  (.vml_reciprocal, [.obj (.viewDense .mat) .d true, .obj (.viewDense .vec) .d false]),
  (.vml_reciprocal, [.obj (.viewDense .mat) .d true, .obj (.viewDense .mat) .d false]),
  (.vml_reciprocal, [.obj (.viewDense .mat) .d true, .obj (.viewDense .ten) .d false]),
  (.vml_reciprocal, [.obj (.viewDense .ten) .d true, .obj .dense .d false]),
  (.vml_reciprocal, [.obj (.viewDense .ten) .d true, .obj (.viewDense .vec) .d false]),
  (.vml_reciprocal, [.obj (.viewDense .ten) .d true, .obj (.viewDense .mat) .d false]),
  (.vml_reciprocal, [.obj (.viewDense .ten) .d true, .obj (.viewDense .ten) .d false]),
  (.vml_reciprocal, [.obj .crs .s true, .obj .crs .s false])]

/-- the overloads of `tVmlMat_16` that are declared -/
def hVmlMat_16 : List (Fn × List Par) := [
  (.vml_reciprocal, [.obj .dense .s true, .obj .dense .s false]),
  (.vml_reciprocal, [.obj .dense .s true, .obj (.viewDense .vec) .s false]),
  (.vml_reciprocal, [.obj .dense .s true, .obj (.viewDense .mat) .s false]),
  (.vml_reciprocal, [.obj .dense .s true, .obj (.viewDense .ten) .s false]),
  (.vml_reciprocal, [.obj (.viewDense .vec) .s true, .obj .dense .s false]),
  (.vml_reciprocal, [.obj (.viewDense .vec) .s true, .obj (.viewDense .vec) .s false]),
  (.vml_reciprocal, [.obj (.viewDense .vec) .s true, .obj (.viewDense .mat) .s false]),
  (.vml_reciprocal, [.obj (.viewDense .vec) .s true, .obj (.viewDense .ten) .s false]),
  (.vml_reciprocal, [.obj (.viewDense .mat) .s true, .obj .dense .s false]),
  (.vml_reciprocal, [.obj (.viewDense .mat) .s true, .obj (.viewDense .vec) .s false]),
  (.vml_reciprocal, [.obj (.viewDense .mat) .s true, .obj (.viewDense .mat) .s false]),
  (.vml_reciprocal, [.obj (.viewDense .mat) .s true, .obj (.viewDense .ten) .s false]),
  (.vml_reciprocal, [.obj (.viewDense .ten) .s true, .obj .dense .s false]),
  (.vml_reciprocal, [.obj (.viewDense .ten) .s true, .obj (.viewDense .vec) .s false]),
  (.vml_reciprocal, [.obj (.viewDense .ten) .s true, .obj (.viewDense .mat) .s false]),
  (.vml_reciprocal, [.obj (.viewDense .ten) .s true, .obj (.viewDense .ten) .s false]),
  (.vml_exp, [.obj .dense .d true, .obj .dense .d false]),
  (.vml_exp, [.obj .dense .d true, .obj (.viewDense .vec) .d false]),
  (.vml_exp, [.obj .dense .d true, .obj (.viewDense .mat) .d false]),
  (.vml_exp, [.obj .dense .d true, .obj (.viewDense .ten) .d false]),
  (.vml_exp, [.obj (.viewDense .vec) .d true, .obj .dense .d false]),
  (.vml_exp, [.obj (.viewDense .vec) .d true, .obj (.viewDense .vec) .d false]),
  (.vml_exp, [.obj (.viewDense .vec) .d true, .obj (.viewDense .mat) .d false]),
  (.vml_exp, [.obj (.viewDense .vec) .d true, .obj (.viewDense .ten) .d false]),
  (.vml_exp, [.obj (.viewDense .mat) .d true, .obj .dense .d false]),
  (.vml_exp, [.obj (.viewDense .mat) .d true, .obj (.viewDense .vec) .d false]),
  (.vml_exp, [.obj (.viewDense .mat) .d true, .obj (.viewDense .mat) .d false]),
  (.vml_exp, [.obj (.viewDense .mat) .d true, .obj (.viewDense .ten) .d false]),
  (.vml_exp, [.obj (.viewDense .ten) .d true, .obj .dense .d false]),
  (.vml_exp, [.obj (.viewDense .ten) .d true, .obj (.viewDense .vec) .d false]),
  (.vml_exp, [.obj (.viewDense .ten) .d true, .obj (.viewDense .mat) .d false]),
  (.vml_exp, [.obj (.viewDense .ten) .d true, .obj (.viewDense .ten) .d false]),
  (.vml_exp, [.obj .dense .s true, .obj .dense .s false]),
  (.vml_exp, [.obj .dense .s true, .obj (.viewDense .vec) .s false]),
  (.vml_exp, [.obj .dense .s true, .obj (.viewDense .mat) .s false]),
  (.vml_exp, [.obj .dense .s true, .obj (.viewDense .ten) .s false]),
  (.vml_exp, [.obj (.viewDense .vec) .s true, .obj .dense .s false]),
  (.vml_exp, [.obj (.viewDense .vec) .s true, .obj (.viewDense .vec) .s false]),
  (.vml_exp, [.obj (.viewDense .vec) .s true, .obj (.viewDense .mat) .s false]),
  (.vml_exp, [.obj (.viewDense .vec) .s true, .obj (.viewDense .ten) .s false]),
  (.vml_exp, [.obj (.viewDense .mat) .s true, .obj .dense .s false]),
  (.vml_exp, [.obj (.viewDense .mat) .s true, .obj (.viewDense .vec) .s false]),
  (.vml_exp, [.obj (.viewDense .mat) .s true, .obj (.viewDense .mat) .s false]),
  (.vml_exp, [.obj (.viewDense .mat) .s true, .obj (.viewDense .ten) .s false]),
  (.vml_exp, [.obj (.viewDense .ten) .s true, .obj .dense .s false]),
  (.vml_exp, [.obj (.viewDense .ten) .s true, .obj (.viewDense .vec) .s false]),
  (.vml_exp, [.obj (.viewDense .ten) .s true, .obj (.viewDense .mat) .s false]),
  (.vml_exp, [.obj (.viewDense .ten) .s true, .obj (.viewDense .ten) .s false]),
  (.vml_max, [.obj .crs .d true, .obj .crs .d true, .obj .crs .d false]),
  (.vml_max, [.obj .dense .d true, .obj .dense .d true, .obj .dense .d false]),
  (.vml_max, [.obj .dense .d true, .obj .dense .d true, .obj (.viewDense .vec) .d false]),
  (.vml_max, [.obj .dense .d true, .obj .dense .d true, .obj (.viewDense .mat) .d false]),
  (.vml_max, [.obj .dense .d true, .obj .dense .d true, .obj (.viewDense .ten) .d false]),
  (.vml_max, [.obj .dense .d true, .obj (.viewDense .vec) .d true, .obj .dense .d false]),
  (.vml_max, [.obj .dense .d true, .obj (.viewDense .vec) .d true, .obj (.viewDense .vec) .d false]),
  (.vml_max, [.obj .dense .d true, .obj (.viewDense .vec) .d true, .obj (.viewDense .mat) .d false]),
  (.vml_max, [.obj .dense .d true, .obj (.viewDense .vec) .d true, .obj (.viewDense .ten) .d false]),
  (.vml_max, [.obj .dense .d true, .obj (.viewDense .mat) .d true, .obj .dense .d false]),
  (.vml_max, [.obj .dense .d true, .obj (.viewDense .mat) .d true, .obj (.viewDense .vec) .d false]),
  (.vml_max, [.obj .dense .d true, .obj (.viewDense .mat) .d true, .obj (.viewDense .mat) .d false]),
  (.vml_max, [.obj .dense .d true, .obj (.viewDense .mat) .d true, .obj (.viewDense .ten) .d false]),
  (.vml_max, [.obj .dense .d true, .obj (.viewDense .ten) .d true, .obj .dense .d false]),
  (.vml_max, [.obj .dense .d true, .obj (.viewDense .ten) .d true, .obj (.viewDense .vec) .d false]),
  (.vml_max, [.obj .dense .d true, .obj (.viewDense .ten) .d true, .obj (.viewDense .mat) .d false]),
  (.vml_max, [.obj .dense .d true, .obj (.viewDense .ten) .d true, .obj (.viewDense .ten) .d false]),
  (.vml_max, [.obj (.viewDense .vec) .d true, .obj .dense .d true, .obj .dense .d false]),
  (.vml_max, [.obj (.viewDense .vec) .d true, .obj .dense .d true, .obj (.viewDense .vec) .d false]),
  (.vml_max, [.obj (.viewDense .vec) .d true, .obj .dense .d true, .obj (.viewDense .mat) .d false]),
  (.vml_max, [.obj (.viewDense .vec) .d true, .obj .dense .d true, .obj (.viewDense .ten) .d false]),
  (.vml_max, [.obj (.viewDense .vec) .d true, .obj (.viewDense .vec) .d true, .obj .dense .d false]),
  (.vml_max, [.obj (.viewDense .vec) .d true, .obj (.viewDense .vec) .d true, .obj (.viewDense .vec) .d false]),
  (.vml_max, [.obj (.viewDense .vec) .d true, .obj (.viewDense .vec) .d true, .obj (.viewDense .mat) .d false]),
  (.vml_max, [.obj (.viewDense .vec) .d true, .obj (.viewDense .vec) .d true, .obj (.viewDense .ten) .d false]),
  (.vml_max, [.obj (.viewDense .vec) .d true, .obj (.viewDense .mat) .d true, .obj .dense .d false]),
  (.vml_max, [.obj (.viewDense .vec) .d true, .obj (.viewDense .mat) .d true, .obj (.viewDense .vec) .d false]),
  (.vml_max, [.obj (.viewDense .vec) .d true, .obj (.viewDense .mat) .d true, .obj (.viewDense .mat) .d false]),
  (.vml_max, [.obj (.viewDense .vec) .d true, .obj (.viewDense .mat) .d true, .obj (.viewDense .ten) .d false]),
  (.vml_max, [.obj (.viewDense .vec) .d true, .obj (.viewDense .ten) .d true, .obj .dense .d false])]

/-- the overloads of `tVmlMat_17` that are declared -/
def hVmlMat_17 : List (Fn × List Par) := [
  (.vml_max, [.obj (.viewDense .vec) .d true, .obj (.viewDense .ten) .d true, .obj (.viewDense .vec) .d false]),
  (.vml_max, [.obj (.viewDense .vec) .d true, .obj (.viewDense .ten) .d true, .obj (.viewDense .mat) .d false]),
  (.vml_max, [.obj (.viewDense .vec) .d true, .obj (.viewDense .ten) .d true, .obj (.viewDense .ten) .d false]),
  (.vml_max, [.obj (.viewDense .mat) .d true, .obj .dense .d true, .obj .dense .d false]),
  (.vml_max, [.obj (.viewDense .mat) .d true, .obj .dense .d true, .obj (.viewDense .vec) .d false]),
  (.vml_max, [.obj (.viewDense .mat) .d true, .obj .dense .d true, .obj (.viewDense .mat) .d false]),
  (.vml_max, [.obj (.viewDense .mat) .d true, .obj .dense .d true, .obj (.viewDense .ten) .d false]),
  (.vml_max, [.obj (.viewDense .mat) .d true, .obj (.viewDense .vec) .d true, .obj .dense .d false]),
  (.vml_max, [.obj (.viewDense .mat) .d true, .obj (.viewDense .vec) .d true, .obj (.viewDense .vec) .d false]),
  (.vml_max, [.obj (.viewDense .mat) .d true, .obj (.viewDense .vec) .d true, .obj (.viewDense .mat) .d false]),
  (.vml_max, [.obj (.viewDense .mat) .d true, .obj (.viewDense .vec) .d true, .obj (.viewDense .ten) .d false]),
  (.vml_max, [.obj (.viewDense .mat) .d true, .obj (.viewDense .mat) .d true, .obj .dense .d false]),
  (.vml_max, [.obj (.viewDense .mat) .d true, .obj (.viewDense .mat) .d true, .obj (.viewDense .vec) .d false]),
  (.vml_max, [.obj (.viewDense .mat) .d true, .obj (.viewDense .mat) .d true, .obj (.viewDense .mat) .d false]),
  (.vml_max, [.obj (.viewDense .mat) .d true, .obj (.viewDense .mat) .d true, .obj (.viewDense .ten) .d false]),
  (.vml_max, [.obj (.viewDense .mat) .d true, .obj (.viewDense .ten) .d true, .obj .dense .d false]),
  (.vml_max, [.obj (.viewDense .mat) .d true, .obj (.viewDense .ten) .d true, .obj (.viewDense .vec) .d false]),
  (.vml_max, [.obj (.viewDense .mat) .d true, .obj (.viewDense .ten) .d true, .obj (.viewDense .mat) .d false]),
  (.vml_max, [.obj (.viewDense .mat) .d true, .obj (.viewDense .ten) .d true, .obj (.viewDense .ten) .d false]),
  (.vml_max, [.obj (.viewDense .ten) .d true, .obj .dense .d true, .obj .dense .d false]),
  (.vml_max, [.obj (.viewDense .ten) .d true, .obj .dense .d true, .obj (.viewDense .vec) .d false]),
  (.vml_max, [.obj (.viewDense .ten) .d true, .obj .dense .d true, .obj (.viewDense .mat) .d false]),
  (.vml_max, [.obj (.viewDense .ten) .d true, .obj .dense .d true, .obj (.viewDense .ten) .d false]),
  (.vml_max, [.obj (.viewDense .ten) .d true, .obj (.viewDense .vec) .d true, .obj .dense .d false]),
  (.vml_max, [.obj (.viewDense .ten) .d true, .obj (.viewDense .vec) .d true, .obj (.viewDense .vec) .d false]),
  (.vml_max, [.obj (.viewDense .ten) .d true, .obj (.viewDense .vec) .d true, .obj (.viewDense .mat) .d false]),
  (.vml_max, [.obj (.viewDense .ten) .d true, .obj (.viewDense .vec) .d true, .obj (.viewDense .ten) .d false]),
  (.vml_max, [.obj (.viewDense .ten) .d true, .obj (.viewDense .mat) .d true, .obj .dense .d false]),
  (.vml_max, [.obj (.viewDense .ten) .d true, .obj (.viewDense .mat) .d true, .obj (.viewDense .vec) .d false]),
  (.vml_max, [.obj (.viewDense .ten) .d true, .obj (.viewDense .mat) .d true, .obj (.viewDense .mat) .d false]),
  (.vml_max, [.obj (.viewDense .ten) .d true, .obj (.viewDense .mat) .d true, .obj (.viewDense .ten) .d false]),
  (.vml_max, [.obj (.viewDense .ten) .d true, .obj (.viewDense .ten) .d true, .obj .dense .d false]),
  (.vml_max, [.obj (.viewDense .ten) .d true, .obj (.viewDense .ten) .d true, .obj (.viewDense .vec) .d false]),
  (.vml_max, [.obj (.viewDense .ten) .d true, .obj (.viewDense .ten) .d true, .obj (.viewDense .mat) .d false]),
  (.vml_max, [.obj (.viewDense .ten) .d true, .obj (.viewDense .ten) .d true, .obj (.viewDense .ten) .d false]),
  (.vml_max, [.obj .crs .s true, .obj .crs .s true, .obj .crs .s false]),
  (.vml_max, [.obj .dense .s true, .obj .dense .s true, .obj .dense .s false]),
  (.vml_max, [.obj .dense .s true, .obj .dense .s true, .obj (.viewDense .vec) .s false]),
  (.vml_max, [.obj .dense .s true, .obj .dense .s true, .obj (.viewDense .mat) .s false]),
  (.vml_max, [.obj .dense .s true, .obj .dense .s true, .obj (.viewDense .ten) .s false]),
  (.vml_max, [.obj .dense .s true, .obj (.viewDense .vec) .s true, .obj .dense .s false]),
  (.vml_max, [.obj .dense .s true, .obj (.viewDense .vec) .s true, .obj (.viewDense .vec) .s false]),
  (.vml_max, [.obj .dense .s true, .obj (.viewDense .vec) .s true, .obj (.viewDense .mat) .s false]),
  (.vml_max, [.obj .dense .s true, .obj (.viewDense .vec) .s true, .obj (.viewDense .ten) .s false]),
  (.vml_max, [.obj .dense .s true, .obj (.viewDense .mat) .s true, .obj .dense .s false]),
  (.vml_max, [.obj .dense .s true, .obj (.viewDense .mat) .s true, .obj (.viewDense .vec) .s false]),
  (.vml_max, [.obj .dense .s true, .obj (.viewDense .mat) .s true, .obj (.viewDense .mat) .s false]),
  (.vml_max, [.obj .dense .s true, .obj (.viewDense .mat) .s true, .obj (.viewDense .ten) .s false]),
  (.vml_max, [.obj .dense .s true, .obj (.viewDense .ten) .s true, .obj .dense .s false]),
  (.vml_max, [.obj .dense .s true, .obj (.viewDense .ten) .s true, .obj (.viewDense .vec) .s false]),
  (.vml_max, [.obj .dense .s true, .obj (.viewDense .ten) .s true, .obj (.viewDense .mat) .s false]),
  (.vml_max, [.obj .dense .s true, .obj (.viewDense .ten) .s true, .obj (.viewDense .ten) .s false]),
  (.vml_max, [.obj (.viewDense .vec) .s true, .obj .dense .s true, .obj .dense .s false]),
  (.vml_max, [.obj (.viewDense .vec) .s true, .obj .dense .s true, .obj (.viewDense .vec) .s false]),
  (.vml_max, [.obj (.viewDense .vec) .s true, .obj .dense .s true, .obj (.viewDense .mat) .s false]),
  (.vml_max, [.obj (.viewDense .vec) .s true, .obj .dense .s true, .obj (.viewDense .ten) .s false]),
  (.vml_max, [.obj (.viewDense .vec) .s true, .obj (.viewDense .vec) .s true, .obj .dense .s false]),
  (.vml_max, [.obj (.viewDense .vec) .s true, .obj (.viewDense .vec) .s true, .obj (.viewDense .vec) .s false]),
  (.vml_max, [.obj (.viewDense .vec) .s true, .obj (.viewDense .vec) .s true, .obj (.viewDense .mat) .s false]),
  (.vml_max, [.obj (.viewDense .vec) .s true, .obj (.viewDense .vec) .s true, .obj (.viewDense .ten) .s false]),
  (.vml_max, [.obj (.viewDense .vec) .s true, .obj (.viewDense .mat) .s true, .obj .dense .s false]),
  (.vml_max, [.obj (.viewDense .vec) .s true, .obj (.viewDense .mat) .s true, .obj (.viewDense .vec) .s false]),
  (.vml_max, [.obj (.viewDense .vec) .s true, .obj (.viewDense .mat) .s true, .obj (.viewDense .mat) .s false]),
  (.vml_max, [.obj (.viewDense .vec) .s true, .obj (.viewDense .mat) .s true, .obj (.viewDense .ten) .s false]),
  (.vml_max, [.obj (.viewDense .vec) .s true, .obj (.viewDense .ten) .s true, .obj .dense .s false]),
  (.vml_max, [.obj (.viewDense .vec) .s true, .obj (.viewDense .ten) .s true, .obj (.viewDense .vec) .s false]),
  (.vml_max, [.obj (.viewDense .vec) .s true, .obj (.viewDense .ten) .s true, .obj (.viewDense .mat) .s false]),
  (.vml_max, [.obj (.viewDense .vec) .s true, .obj (.viewDense .ten) .s true, .obj (.viewDense .ten) .s false]),
  (.vml_max, [.obj (.viewDense .mat) .s true, .obj .dense .s true, .obj .dense .s false]),
  (.vml_max, [.obj (.viewDense .mat) .s true, .obj .dense .s true, .obj (.viewDense .vec) .s false]),
  (.vml_max, [.obj (.viewDense .mat) .s true, .obj .dense .s true, .obj (.viewDense .mat) .s false]),
  (.vml_max, [.obj (.viewDense .mat) .s true, .obj .dense .s true, .obj (.viewDense .ten) .s false]),
  (.vml_max, [.obj (.viewDense .mat) .s true, .obj (.viewDense .vec) .s true, .obj .dense .s false]),
  (.vml_max, [.obj (.viewDense .mat) .s true, .obj (.viewDense .vec) .s true, .obj (.viewDense .vec) .s false]),
  (.vml_max, [.obj (.viewDense .mat) .s true, .obj (.viewDense .vec) .s true, .obj (.viewDense .mat) .s false]),
  (.vml_max, [.obj (.viewDense .mat) .s true, .obj (.viewDense .vec) .s true, .obj (.viewDense .ten) .s false]),
  (.vml_max, [.obj (.viewDense .mat) .s true, .obj (.viewDense .mat) .s true, .obj .dense .s false]),
  (.vml_max, [.obj (.viewDense .mat) .s true, .obj (.viewDense .mat) .s true, .obj (.viewDense .vec) .s false]),
  (.vml_max, [.obj (.viewDense .mat) .s true, .obj (.viewDense .mat) .s true, .obj (.viewDense .mat) .s false]),
  (.vml_max, [.obj (.viewDense .mat) .s true, .obj (.viewDense .mat) .s true, .obj (.viewDense .ten) .s false])]

/-- the overloads of `tVmlMat_18` that are declared -/
def hVmlMat_18 : List (Fn × List Par) := [
  (.vml_max, [.obj (.viewDense .mat) .s true, .obj (.viewDense .ten) .s true, .obj .dense .s false]),
  (.vml_max, [.obj (.viewDense .mat) .s true, .obj (.viewDense .ten) .s true, .obj (.viewDense .vec) .s false]),
  (.vml_max, [.obj (.viewDense .mat) .s true, .obj (.viewDense .ten) .s true, .obj (.viewDense .mat) .s false]),
  (.vml_max, [.obj (.viewDense .mat) .s true, .obj (.viewDense .ten) .s true, .obj (.viewDense .ten) .s false]),
  (.vml_max, [.obj (.viewDense .ten) .s true, .obj .dense .s true, .obj .dense .s false]),
  (.vml_max, [.obj (.viewDense .ten) .s true, .obj .dense .s true, .obj (.viewDense .vec) .s false]),
  (.vml_max, [.obj (.viewDense .ten) .s true, .obj .dense .s true, .obj (.viewDense .mat) .s false]),
  (.vml_max, [.obj (.viewDense .ten) .s true, .obj .dense .s true, .obj (.viewDense .ten) .s false]),
  (.vml_max, [.obj (.viewDense .ten) .s true, .obj (.viewDense .vec) .s true, .obj .dense .s false]),
  (.vml_max, [.obj (.viewDense .ten) .s true, .obj (.viewDense .vec) .s true, .obj (.viewDense .vec) .s false]),
  (.vml_max, [.obj (.viewDense .ten) .s true, .obj (.viewDense .vec) .s true, .obj (.viewDense .mat) .s false]),
  (.vml_max, [.obj (.viewDense .ten) .s true, .obj (.viewDense .vec) .s true, .obj (.viewDense .ten) .s false]),
  (.vml_max, [.obj (.viewDense .ten) .s true, .obj (.viewDense .mat) .s true, .obj .dense .s false]),
  (.vml_max, [.obj (.viewDense .ten) .s true, .obj (.viewDense .mat) .s true, .obj (.viewDense .vec) .s false]),
  (.vml_max, [.obj (.viewDense .ten) .s true, .obj (.viewDense .mat) .s true, .obj (.viewDense .mat) .s false]),
  (.vml_max, [.obj (.viewDense .ten) .s true, .obj (.viewDense .mat) .s true, .obj (.viewDense .ten) .s false]),
  (.vml_max, [.obj (.viewDense .ten) .s true, .obj (.viewDense .ten) .s true, .obj .dense .s false]),
  (.vml_max, [.obj (.viewDense .ten) .s true, .obj (.viewDense .ten) .s true, .obj (.viewDense .vec) .s false]),
  (.vml_max, [.obj (.viewDense .ten) .s true, .obj (.viewDense .ten) .s true, .obj (.viewDense .mat) .s false]),
  (.vml_max, [.obj (.viewDense .ten) .s true, .obj (.viewDense .ten) .s true, .obj (.viewDense .ten) .s false]),
  (.vml_min, [.obj .crs .d true, .obj .crs .d true, .obj .crs .d false]),
  (.vml_min, [.obj .dense .d true, .obj .dense .d true, .obj .dense .d false]),
  (.vml_min, [.obj .dense .d true, .obj .dense .d true, .obj (.viewDense .vec) .d false]),
  (.vml_min, [.obj .dense .d true, .obj .dense .d true, .obj (.viewDense .mat) .d false]),
  (.vml_min, [.obj .dense .d true, .obj .dense .d true, .obj (.viewDense .ten) .d false]),
  (.vml_min, [.obj .dense .d true, .obj (.viewDense .vec) .d true, .obj .dense .d false]),
  (.vml_min, [.obj .dense .d true, .obj (.viewDense .vec) .d true, .obj (.viewDense .vec) .d false]),
  (.vml_min, [.obj .dense .d true, .obj (.viewDense .vec) .d true, .obj (.viewDense .mat) .d false]),
  (.vml_min, [.obj .dense .d true, .obj (.viewDense .vec) .d true, .obj (.viewDense .ten) .d false]),
  (.vml_min, [.obj .dense .d true, .obj (.viewDense .mat) .d true, .obj .dense .d false]),
  (.vml_min, [.obj .dense .d true, .obj (.viewDense .mat) .d true, .obj (.viewDense .vec) .d false]),
  (.vml_min, [.obj .dense .d true, .obj (.viewDense .mat) .d true, .obj (.viewDense .mat) .d false]),
  (.vml_min, [.obj .dense .d true, .obj (.viewDense .mat) .d true, .obj (.viewDense .ten) .d false]),
  (.vml_min, [.obj .dense .d true, .obj (.viewDense .ten) .d true, .obj .dense .d false]),
  (.vml_min, [.obj .dense .d true, .obj (.viewDense .ten) .d true, .obj (.viewDense .vec) .d false]),
  (.vml_min, [.obj .dense .d true, .obj (.viewDense .ten) .d true, .obj (.viewDense .mat) .d false]),
  (.vml_min, [.obj .dense .d true, .obj (.viewDense .ten) .d true, .obj (.viewDense .ten) .d false]),
  (.vml_min, [.obj (.viewDense .vec) .d true, .obj .dense .d true, .obj .dense .d false]),
  (.vml_min, [.obj (.viewDense .vec) .d true, .obj .dense .d true, .obj (.viewDense .vec) .d false]),
  (.vml_min, [.obj (.viewDense .vec) .d true, .obj .dense .d true, .obj (.viewDense .mat) .d false]),
  (.vml_min, [.obj (.viewDense .vec) .d true, .obj .dense .d true, .obj (.viewDense .ten) .d false]),
  (.vml_min, [.obj (.viewDense .vec) .d true, .obj (.viewDense .vec) .d true, .obj .dense .d false]),
  (.vml_min, [.obj (.viewDense .vec) .d true, .obj (.viewDense .vec) .d true, .obj (.viewDense .vec) .d false]),
  (.vml_min, [.obj (.viewDense .vec) .d true, .obj (.viewDense .vec) .d true, .obj (.viewDense .mat) .d false]),
  (.vml_min, [.obj (.viewDense .vec) .d true, .obj (.viewDense .vec) .d true, .obj (.viewDense .ten) .d false]),
  (.vml_min, [.obj (.viewDense .vec) .d true, .obj (.viewDense .mat) .d true, .obj .dense .d false]),
  (.vml_min, [.obj (.viewDense .vec) .d true, .obj (.viewDense .mat) .d true, .obj (.viewDense .vec) .d false]),
  (.vml_min, [.obj (.viewDense .vec) .d true, .obj (.viewDense .mat) .d true, .obj (.viewDense .mat) .d false]),
  (.vml_min, [.obj (.viewDense .vec) .d true, .obj (.viewDense .mat) .d true, .obj (.viewDense .ten) .d false]),
  (.vml_min, [.obj (.viewDense .vec) .d true, .obj (.viewDense .ten) .d true, .obj .dense .d false]),
  (.vml_min, [.obj (.viewDense .vec) .d true, .obj (.viewDense .ten) .d true, .obj (.viewDense .vec) .d false]),
  (.vml_min, [.obj (.viewDense .vec) .d true, .obj (.viewDense .ten) .d true, .obj (.viewDense .mat) .d false]),
  (.vml_min, [.obj (.viewDense .vec) .d true, .obj (.viewDense .ten) .d true, .obj (.viewDense .ten) .d false]),
  (.vml_min, [.obj (.viewDense .mat) .d true, .obj .dense .d true, .obj .dense .d false]),
  (.vml_min, [.obj (.viewDense .mat) .d true, .obj .dense .d true, .obj (.viewDense .vec) .d false]),
  (.vml_min, [.obj (.viewDense .mat) .d true, .obj .dense .d true, .obj (.viewDense .mat) .d false]),
  (.vml_min, [.obj (.viewDense .mat) .d true, .obj .dense .d true, .obj (.viewDense .ten) .d false]),
  (.vml_min, [.obj (.viewDense .mat) .d true, .obj (.viewDense .vec) .d true, .obj .dense .d false]),
  (.vml_min, [.obj (.viewDense .mat) .d true, .obj (.viewDense .vec) .d true, .obj (.viewDense .vec) .d false]),
  (.vml_min, [.obj (.viewDense .mat) .d true, .obj (.viewDense .vec) .d true, .obj (.viewDense .mat) .d false]),
  (.vml_min, [.obj (.viewDense .mat) .d true, .obj (.viewDense .vec) .d true, .obj (.viewDense .ten) .d false]),
  (.vml_min, [.obj (.viewDense .mat) .d true, .obj (.viewDense .mat) .d true, .obj .dense .d false]),
  (.vml_min, [.obj (.viewDense .mat) .d true, .obj (.viewDense .mat) .d true, .obj (.viewDense .vec) .d false]),
  (.vml_min, [.obj (.viewDense .mat) .d true, .obj (.viewDense .mat) .d true, .obj (.viewDense .mat) .d false]),
  (.vml_min, [.obj (.viewDense .mat) .d true, .obj (.viewDense .mat) .d true, .obj (.viewDense .ten) .d false]),
  (.vml_min, [.obj (.viewDense .mat) .d true, .obj (.viewDense .ten) .d true, .obj .dense .d false]),
  (.vml_min, [.obj (.viewDense .mat) .d true, .obj (.viewDense .ten) .d true, .obj (.viewDense .vec) .d false]),
  (.vml_min, [.obj (.viewDense .mat) .d true, .obj (.viewDense .ten) .d true, .obj (.viewDense .mat) .d false]),
  (.vml_min, [.obj (.viewDense .mat) .d true, .obj (.viewDense .ten) .d true, .obj (.viewDense .ten) .d false]),
  (.vml_min, [.obj (.viewDense .ten) .d true, .obj .dense .d true, .obj .dense .d false]),
  (.vml_min, [.obj (.viewDense .ten) .d true, .obj .dense .d true, .obj (.viewDense .vec) .d false]),
  (.vml_min, [.obj (.viewDense .ten) .d true, .obj .dense .d true, .obj (.viewDense .mat) .d false]),
  (.vml_min, [.obj (.viewDense .ten) .d true, .obj .dense .d true, .obj (.viewDense .ten) .d false]),
  (.vml_min, [.obj (.viewDense .ten) .d true, .obj (.viewDense .vec) .d true, .obj .dense .d false]),
  (.vml_min, [.obj (.viewDense .ten) .d true, .obj (.viewDense .vec) .d true, .obj (.viewDense .vec) .d false]),
  (.vml_min, [.obj (.viewDense .ten) .d true, .obj (.viewDense .vec) .d true, .obj (.viewDense .mat) .d false]),
  (.vml_min, [.obj (.viewDense .ten) .d true, .obj (.viewDense .vec) .d true, .obj (.viewDense .ten) .d false]),
  (.vml_min, [.obj (.viewDense .ten) .d true, .obj (.viewDense .mat) .d true, .obj .dense .d false]),
  (.vml_min, [.obj (.viewDense .ten) .d true, .obj (.viewDense .mat) .d true, .obj (.viewDense .vec) .d false]),
  (.vml_min, [.obj (.viewDense .ten) .d true, .obj (.viewDense .mat) .d true, .obj (.viewDense .mat) .d false])]

/-- the overloads of `tVmlMat_19` that are declared -/
def hVmlMat_19 : List (Fn × List Par) := [
  (.vml_min, [.obj (.viewDense .ten) .d true, .obj (.viewDense .mat) .d true, .obj (.viewDense .ten) .d false]),
  (.vml_min, [.obj (.viewDense .ten) .d true, .obj (.viewDense .ten) .d true, .obj .dense .d false]),
  (.vml_min, [.obj (.viewDense .ten) .d true, .obj (.viewDense .ten) .d true, .obj (.viewDense .vec) .d false]),
  (.vml_min, [.obj (.viewDense .ten) .d true, .obj (.viewDense .ten) .d true, .obj (.viewDense .mat) .d false]),
  (.vml_min, [.obj (.viewDense .ten) .d true, .obj (.viewDense .ten) .d true, .obj (.viewDense .ten) .d false]),
  (.vml_min, [.obj .crs .s true, .obj .crs .s true, .obj .crs .s false]),
  (.vml_min, [.obj .dense .s true, .obj .dense .s true, .obj .dense .s false]),
  (.vml_min, [.obj .dense .s true, .obj .dense .s true, .obj (.viewDense .vec) .s false]),
  (.vml_min, [.obj .dense .s true, .obj .dense .s true, .obj (.viewDense .mat) .s false]),
  (.vml_min, [.obj .dense .s true, .obj .dense .s true, .obj (.viewDense .ten) .s false]),
  (.vml_min, [.obj .dense .s true, .obj (.viewDense .vec) .s true, .obj .dense .s false]),
  (.vml_min, [.obj .dense .s true, .obj (.viewDense .vec) .s true, .obj (.viewDense .vec) .s false]),
  (.vml_min, [.obj .dense .s true, .obj (.viewDense .vec) .s true, .obj (.viewDense .mat) .s false]),
  (.vml_min, [.obj .dense .s true, .obj (.viewDense .vec) .s true, .obj (.viewDense .ten) .s false]),
  (.vml_min, [.obj .dense .s true, .obj (.viewDense .mat) .s true, .obj .dense .s false]),
  (.vml_min, [.obj .dense .s true, .obj (.viewDense .mat) .s true, .obj (.viewDense .vec) .s false]),
  (.vml_min, [.obj .dense .s true, .obj (.viewDense .mat) .s true, .obj (.viewDense .mat) .s false]),
  (.vml_min, [.obj .dense .s true, .obj (.viewDense .mat) .s true, .obj (.viewDense .ten) .s false]),
  (.vml_min, [.obj .dense .s true, .obj (.viewDense .ten) .s true, .obj .dense .s false]),
  (.vml_min, [.obj .dense .s true, .obj (.viewDense .ten) .s true, .obj (.viewDense .vec) .s false]),
  (.vml_min, [.obj .dense .s true, .obj (.viewDense .ten) .s true, .obj (.viewDense .mat) .s false]),
  (.vml_min, [.obj .dense .s true, .obj (.viewDense .ten) .s true, .obj (.viewDense .ten) .s false]),
  (.vml_min, [.obj (.viewDense .vec) .s true, .obj .dense .s true, .obj .dense .s false]),
  (.vml_min, [.obj (.viewDense .vec) .s true, .obj .dense .s true, .obj (.viewDense .vec) .s false]),
  (.vml_min, [.obj (.viewDense .vec) .s true, .obj .dense .s true, .obj (.viewDense .mat) .s false]),
  (.vml_min, [.obj (.viewDense .vec) .s true, .obj .dense .s true, .obj (.viewDense .ten) .s false]),
  (.vml_min, [.obj (.viewDense .vec) .s true, .obj (.viewDense .vec) .s true, .obj .dense .s false]),
  (.vml_min, [.obj (.viewDense .vec) .s true, .obj (.viewDense .vec) .s true, .obj (.viewDense .vec) .s false]),
  (.vml_min, [.obj (.viewDense .vec) .s true, .obj (.viewDense .vec) .s true, .obj (.viewDense .mat) .s false]),
  (.vml_min, [.obj (.viewDense .vec) .s true, .obj (.viewDense .vec) .s true, .obj (.viewDense .ten) .s false]),
  (.vml_min, [.obj (.viewDense .vec) .s true, .obj (.viewDense .mat) .s true, .obj .dense .s false]),
  (.vml_min, [.obj (.viewDense .vec) .s true, .obj (.viewDense .mat) .s true, .obj (.viewDense .vec) .s false]),
  (.vml_min, [.obj (.viewDense .vec) .s true, .obj (.viewDense .mat) .s true, .obj (.viewDense .mat) .s false]),
  (.vml_min, [.obj (.viewDense .vec) .s true, .obj (.viewDense .mat) .s true, .obj (.viewDense .ten) .s false]),
  (.vml_min, [.obj (.viewDense .vec) .s true, .obj (.viewDense .ten) .s true, .obj .dense .s false]),
  (.vml_min, [.obj (.viewDense .vec) .s true, .obj (.viewDense .ten) .s true, .obj (.viewDense .vec) .s false]),
  (.vml_min, [.obj (.viewDense .vec) .s true, .obj (.viewDense .ten) .s true, .obj (.viewDense .mat) .s false]),
  (.vml_min, [.obj (.viewDense .vec) .s true, .obj (.viewDense .ten) .s true, .obj (.viewDense .ten) .s false]),
  (.vml_min, [.obj (.viewDense .mat) .s true, .obj .dense .s true, .obj .dense .s false]),
  (.vml_min, [.obj (.viewDense .mat) .s true, .obj .dense .s true, .obj (.viewDense .vec) .s false]),
  (.vml_min, [.obj (.viewDense .mat) .s true, .obj .dense .s true, .obj (.viewDense .mat) .s false]),
  (.vml_min, [.obj (.viewDense .mat) .s true, .obj .dense .s true, .obj (.viewDense .ten) .s false]),
  (.vml_min, [.obj (.viewDense .mat) .s true, .obj (.viewDense .vec) .s true, .obj .dense .s false]),
  (.vml_min, [.obj (.viewDense .mat) .s true, .obj (.viewDense .vec) .s true, .obj (.viewDense .vec) .s false]),
  (.vml_min, [.obj (.viewDense .mat) .s true, .obj (.viewDense .vec) .s true, .obj (.viewDense .mat) .s false]),
  (.vml_min, [.obj (.viewDense .mat) .s true, .obj (.viewDense .vec) .s true, .obj (.viewDense .ten) .s false]),
  (.vml_min, [.obj (.viewDense .mat) .s true, .obj (.viewDense .mat) .s true, .obj .dense .s false]),
  (.vml_min, [.obj (.viewDense .mat) .s true, .obj (.viewDense .mat) .s true, .obj (.viewDense .vec) .s false]),
  (.vml_min, [.obj (.viewDense .mat) .s true, .obj (.viewDense .mat) .s true, .obj (.viewDense .mat) .s false]),
  (.vml_min, [.obj (.viewDense .mat) .s true, .obj (.viewDense .mat) .s true, .obj (.viewDense .ten) .s false]),
  (.vml_min, [.obj (.viewDense .mat) .s true, .obj (.viewDense .ten) .s true, .obj .dense .s false]),
  (.vml_min, [.obj (.viewDense .mat) .s true, .obj (.viewDense .ten) .s true, .obj (.viewDense .vec) .s false]),
  (.vml_min, [.obj (.viewDense .mat) .s true, .obj (.viewDense .ten) .s true, .obj (.viewDense .mat) .s false]),
  (.vml_min, [.obj (.viewDense .mat) .s true, .obj (.viewDense .ten) .s true, .obj (.viewDense .ten) .s false]),
  (.vml_min, [.obj (.viewDense .ten) .s true, .obj .dense .s true, .obj .dense .s false]),
  (.vml_min, [.obj (.viewDense .ten) .s true, .obj .dense .s true, .obj (.viewDense .vec) .s false]),
  (.vml_min, [.obj (.viewDense .ten) .s true, .obj .dense .s true, .obj (.viewDense .mat) .s false]),
  (.vml_min, [.obj (.viewDense .ten) .s true, .obj .dense .s true, .obj (.viewDense .ten) .s false]),
  (.vml_min, [.obj (.viewDense .ten) .s true, .obj (.viewDense .vec) .s true, .obj .dense .s false]),
  (.vml_min, [.obj (.viewDense .ten) .s true, .obj (.viewDense .vec) .s true, .obj (.viewDense .vec) .s false]),
  (.vml_min, [.obj (.viewDense .ten) .s true, .obj (.viewDense .vec) .s true, .obj (.viewDense .mat) .s false]),
  (.vml_min, [.obj (.viewDense .ten) .s true, .obj (.viewDense .vec) .s true, .obj (.viewDense .ten) .s false]),
  (.vml_min, [.obj (.viewDense .ten) .s true, .obj (.viewDense .mat) .s true, .obj .dense .s false]),
  (.vml_min, [.obj (.viewDense .ten) .s true, .obj (.viewDense .mat) .s true, .obj (.viewDense .vec) .s false]),
  (.vml_min, [.obj (.viewDense .ten) .s true, .obj (.viewDense .mat) .s true, .obj (.viewDense .mat) .s false]),
  (.vml_min, [.obj (.viewDense .ten) .s true, .obj (.viewDense .mat) .s true, .obj (.viewDense .ten) .s false]),
  (.vml_min, [.obj (.viewDense .ten) .s true, .obj (.viewDense .ten) .s true, .obj .dense .s false]),
  (.vml_min, [.obj (.viewDense .ten) .s true, .obj (.viewDense .ten) .s true, .obj (.viewDense .vec) .s false]),
  (.vml_min, [.obj (.viewDense .ten) .s true, .obj (.viewDense .ten) .s true, .obj (.viewDense .mat) .s false]),
  (.vml_min, [.obj (.viewDense .ten) .s true, .obj (.viewDense .ten) .s true, .obj (.viewDense .ten) .s false]),
  (.vml_max, [.obj .crs .d true, .scal .d, .obj .crs .d false]),
  (.vml_max, [.obj .dense .d true, .scal .d, .obj .dense .d false]),
  (.vml_max, [.obj .dense .d true, .scal .d, .obj (.viewDense .vec) .d false]),
  (.vml_max, [.obj .dense .d true, .scal .d, .obj (.viewDense .mat) .d false]),
  (.vml_max, [.obj .dense .d true, .scal .d, .obj (.viewDense .ten) .d false]),
  (.vml_max, [.obj (.viewDense .vec) .d true, .scal .d, .obj .dense .d false]),
  (.vml_max, [.obj (.viewDense .vec) .d true, .scal .d, .obj (.viewDense .vec) .d false]),
  (.vml_max, [.obj (.viewDense .vec) .d true, .scal .d, .obj (.viewDense .mat) .d false]),
  (.vml_max, [.obj (.viewDense .vec) .d true, .scal .d, .obj (.viewDense .ten) .d false]),
  (.vml_max, [.obj (.viewDense .mat) .d true, .scal .d, .obj .dense .d false])]

/-- the overloads of `tVmlMat_20` that are declared -/
def hVmlMat_20 : List (Fn × List Par) := [
  (.vml_max, [.obj (.viewDense .mat) .d true, .scal .d, .obj (.viewDense .vec) .d false]),
  (.vml_max, [.obj (.viewDense .mat) .d true, .scal .d, .obj (.viewDense .mat) .d false]),
  (.vml_max, [.obj (.viewDense .mat) .d true, .scal .d, .obj (.viewDense .ten) .d false]),
  (.vml_max, [.obj (.viewDense .ten) .d true, .scal .d, .obj .dense .d false]),
  (.vml_max, [.obj (.viewDense .ten) .d true, .scal .d, .obj (.viewDense .vec) .d false]),
  (.vml_max, [.obj (.viewDense .ten) .d true, .scal .d, .obj (.viewDense .mat) .d false]),
  (.vml_max, [.obj (.viewDense .ten) .d true, .scal .d, .obj (.viewDense .ten) .d false]),
  (.vml_max, [.obj .crs .s true, .scal .s, .obj .crs .s false]),
  (.vml_max, [.obj .dense .s true, .scal .s, .obj .dense .s false]),
  (.vml_max, [.obj .dense .s true, .scal .s, .obj (.viewDense .vec) .s false]),
  (.vml_max, [.obj .dense .s true, .scal .s, .obj (.viewDense .mat) .s false]),
  (.vml_max, [.obj .dense .s true, .scal .s, .obj (.viewDense .ten) .s false]),
  (.vml_max, [.obj (.viewDense .vec) .s true, .scal .s, .obj .dense .s false]),
  (.vml_max, [.obj (.viewDense .vec) .s true, .scal .s, .obj (.viewDense .vec) .s false]),
  (.vml_max, [.obj (.viewDense .vec) .s true, .scal .s, .obj (.viewDense .mat) .s false]),
  (.vml_max, [.obj (.viewDense .vec) .s true, .scal .s, .obj (.viewDense .ten) .s false]),
  (.vml_max, [.obj (.viewDense .mat) .s true, .scal .s, .obj .dense .s false]),
  (.vml_max, [.obj (.viewDense .mat) .s true, .scal .s, .obj (.viewDense .vec) .s false]),
  (.vml_max, [.obj (.viewDense .mat) .s true, .scal .s, .obj (.viewDense .mat) .s false]),
  (.vml_max, [.obj (.viewDense .mat) .s true, .scal .s, .obj (.viewDense .ten) .s false]),
  (.vml_max, [.obj (.viewDense .ten) .s true, .scal .s, .obj .dense .s false]),
  (.vml_max, [.obj (.viewDense .ten) .s true, .scal .s, .obj (.viewDense .vec) .s false]),
  (.vml_max, [.obj (.viewDense .ten) .s true, .scal .s, .obj (.viewDense .mat) .s false]),
  (.vml_max, [.obj (.viewDense .ten) .s true, .scal .s, .obj (.viewDense .ten) .s false]),
  (.vml_min, [.obj .crs .d true, .scal .d, .obj .crs .d false]),
  (.vml_min, [.obj .dense .d true, .scal .d, .obj .dense .d false]),
  (.vml_min, [.obj .dense .d true, .scal .d, .obj (.viewDense .vec) .d false]),
  (.vml_min, [.obj .dense .d true, .scal .d, .obj (.viewDense .mat) .d false]),
  (.vml_min, [.obj .dense .d true, .scal .d, .obj (.viewDense .ten) .d false]),
  (.vml_min, [.obj (.viewDense .vec) .d true, .scal .d, .obj .dense .d false]),
  (.vml_min, [.obj (.viewDense .vec) .d true, .scal .d, .obj (.viewDense .vec) .d false]),
  (.vml_min, [.obj (.viewDense .vec) .d true, .scal .d, .obj (.viewDense .mat) .d false]),
  (.vml_min, [.obj (.viewDense .vec) .d true, .scal .d, .obj (.viewDense .ten) .d false]),
  (.vml_min, [.obj (.viewDense .mat) .d true, .scal .d, .obj .dense .d false]),
  (.vml_min, [.obj (.viewDense .mat) .d true, .scal .d, .obj (.viewDense .vec) .d false]),
  (.vml_min, [.obj (.viewDense .mat) .d true, .scal .d, .obj (.viewDense .mat) .d false]),
  (.vml_min, [.obj (.viewDense .mat) .d true, .scal .d, .obj (.viewDense .ten) .d false]),
  (.vml_min, [.obj (.viewDense .ten) .d true, .scal .d, .obj .dense .d false]),
  (.vml_min, [.obj (.viewDense .ten) .d true, .scal .d, .obj (.viewDense .vec) .d false]),
  (.vml_min, [.obj (.viewDense .ten) .d true, .scal .d, .obj (.viewDense .mat) .d false]),
  (.vml_min, [.obj (.viewDense .ten) .d true, .scal .d, .obj (.viewDense .ten) .d false]),
  (.vml_min, [.obj .crs .s true, .scal .s, .obj .crs .s false]),
  (.vml_min, [.obj .dense .s true, .scal .s, .obj .dense .s false]),
  (.vml_min, [.obj .dense .s true, .scal .s, .obj (.viewDense .vec) .s false]),
  (.vml_min, [.obj .dense .s true, .scal .s, .obj (.viewDense .mat) .s false]),
  (.vml_min, [.obj .dense .s true, .scal .s, .obj (.viewDense .ten) .s false]),
  (.vml_min, [.obj (.viewDense .vec) .s true, .scal .s, .obj .dense .s false]),
  (.vml_min, [.obj (.viewDense .vec) .s true, .scal .s, .obj (.viewDense .vec) .s false]),
  (.vml_min, [.obj (.viewDense .vec) .s true, .scal .s, .obj (.viewDense .mat) .s false]),
  (.vml_min, [.obj (.viewDense .vec) .s true, .scal .s, .obj (.viewDense .ten) .s false]),
  (.vml_min, [.obj (.viewDense .mat) .s true, .scal .s, .obj .dense .s false]),
  (.vml_min, [.obj (.viewDense .mat) .s true, .scal .s, .obj (.viewDense .vec) .s false]),
  (.vml_min, [.obj (.viewDense .mat) .s true, .scal .s, .obj (.viewDense .mat) .s false]),
  (.vml_min, [.obj (.viewDense .mat) .s true, .scal .s, .obj (.viewDense .ten) .s false]),
  (.vml_min, [.obj (.viewDense .ten) .s true, .scal .s, .obj .dense .s false]),
  (.vml_min, [.obj (.viewDense .ten) .s true, .scal .s, .obj (.viewDense .vec) .s false]),
  (.vml_min, [.obj (.viewDense .ten) .s true, .scal .s, .obj (.viewDense .mat) .s false]),
  (.vml_min, [.obj (.viewDense .ten) .s true, .scal .s, .obj (.viewDense .ten) .s false])]

/-- declared without a definition -/
def hExtra : List (Fn × List Par) := []

/-- all declarations (1656), table by table -/
def declared : List (List (Fn × List Par)) :=
  [hVmlMat_0, hVmlMat_1, hVmlMat_2, hVmlMat_3, hVmlMat_4, hVmlMat_5, hVmlMat_6, hVmlMat_7, hVmlMat_8, hVmlMat_9, hVmlMat_10, hVmlMat_11, hVmlMat_12, hVmlMat_13, hVmlMat_14, hVmlMat_15, hVmlMat_16, hVmlMat_17, hVmlMat_18, hVmlMat_19, hVmlMat_20, hExtra]

end Verif.Dispatch.HeaderMat
