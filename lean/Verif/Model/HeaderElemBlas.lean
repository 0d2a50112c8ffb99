import Verif.Model.DispatchSrcBlas

/-!
Generated by tools/header_gen.py from /repo/include/monolish/{blas,vml}/*.hpp: declared element-wise functions of DispatchSrcBlas. Do not edit.
-/

namespace Verif.Dispatch.HeaderBlas

/-- the overloads of `tBlasVec_0` that are declared -/
def hBlasVec_0 : List (Fn × List Par) := [
  (.blas_vecadd, [.obj .vector .d true, .obj .vector .d true, .obj .vector .d false]),
  (.blas_vecadd, [.obj .vector .d true, .obj .vector .d true, .obj (.view1D .vec) .d false]),
  (.blas_vecadd, [.obj .vector .d true, .obj .vector .d true, .obj (.view1D .mat) .d false]),
  (.blas_vecadd, [.obj .vector .d true, .obj .vector .d true, .obj (.view1D .ten) .d false]),
  (.blas_vecadd, [.obj .vector .d true, .obj (.view1D .vec) .d true, .obj .vector .d false]),
  (.blas_vecadd, [.obj .vector .d true, .obj (.view1D .vec) .d true, .obj (.view1D .vec) .d false]),
  (.blas_vecadd, [.obj .vector .d true, .obj (.view1D .vec) .d true, .obj (.view1D .mat) .d false]),
  (.blas_vecadd, [.obj .vector .d true, .obj (.view1D .vec) .d true, .obj (.view1D .ten) .d false]),
  (.blas_vecadd, [.obj .vector .d true, .obj (.view1D .mat) .d true, .obj .vector .d false]),
  (.blas_vecadd, [.obj .vector .d true, .obj (.view1D .mat) .d true, .obj (.view1D .vec) .d false]),
  (.blas_vecadd, [.obj .vector .d true, .obj (.view1D .mat) .d true, .obj (.view1D .mat) .d false]),
  (.blas_vecadd, [.obj .vector .d true, .obj (.view1D .mat) .d true, .obj (.view1D .ten) .d false]),
  (.blas_vecadd, [.obj .vector .d true, .obj (.view1D .ten) .d true, .obj .vector .d false]),
  (.blas_vecadd, [.obj .vector .d true, .obj (.view1D .ten) .d true, .obj (.view1D .vec) .d false]),
  (.blas_vecadd, [.obj .vector .d true, .obj (.view1D .ten) .d true, .obj (.view1D .mat) .d false]),
  (.blas_vecadd, [.obj .vector .d true, .obj (.view1D .ten) .d true, .obj (.view1D .ten) .d false]),
  (.blas_vecadd, [.obj (.view1D .vec) .d true, .obj .vector .d true, .obj .vector .d false]),
  (.blas_vecadd, [.obj (.view1D .vec) .d true, .obj .vector .d true, .obj (.view1D .vec) .d false]),
  (.blas_vecadd, [.obj (.view1D .vec) .d true, .obj .vector .d true, .obj (.view1D .mat) .d false]),
  (.blas_vecadd, [.obj (.view1D .vec) .d true, .obj .vector .d true, .obj (.view1D .ten) .d false]),
  (.blas_vecadd, [.obj (.view1D .vec) .d true, .obj (.view1D .vec) .d true, .obj .vector .d false]),
  (.blas_vecadd, [.obj (.view1D .vec) .d true, .obj (.view1D .vec) .d true, .obj (.view1D .vec) .d false]),
  (.blas_vecadd, [.obj (.view1D .vec) .d true, .obj (.view1D .vec) .d true, .obj (.view1D .mat) .d false]),
  (.blas_vecadd, [.obj (.view1D .vec) .d true, .obj (.view1D .vec) .d true, .obj (.view1D .ten) .d false]),
  (.blas_vecadd, [.obj (.view1D .vec) .d true, .obj (.view1D .mat) .d true, .obj .vector .d false]),
  (.blas_vecadd, [.obj (.view1D .vec) .d true, .obj (.view1D .mat) .d true, .obj (.view1D .vec) .d false]),
  (.blas_vecadd, [.obj (.view1D .vec) .d true, .obj (.view1D .mat) .d true, .obj (.view1D .mat) .d false]),
  (.blas_vecadd, [.obj (.view1D .vec) .d true, .obj (.view1D .mat) .d true, .obj (.view1D .ten) .d false]),
  (.blas_vecadd, [.obj (.view1D .vec) .d true, .obj (.view1D .ten) .d true, .obj .vector .d false]),
  (.blas_vecadd, [.obj (.view1D .vec) .d true, .obj (.view1D .ten) .d true, .obj (.view1D .vec) .d false]),
  (.blas_vecadd, [.obj (.view1D .vec) .d true, .obj (.view1D .ten) .d true, .obj (.view1D .mat) .d false]),
  (.blas_vecadd, [.obj (.view1D .vec) .d true, .obj (.view1D .ten) .d true, .obj (.view1D .ten) .d false]),
  (.blas_vecadd, [.obj (.view1D .mat) .d true, .obj .vector .d true, .obj .vector .d false]),
  (.blas_vecadd, [.obj (.view1D .mat) .d true, .obj .vector .d true, .obj (.view1D .vec) .d false]),
  (.blas_vecadd, [.obj (.view1D .mat) .d true, .obj .vector .d true, .obj (.view1D .mat) .d false]),
  (.blas_vecadd, [.obj (.view1D .mat) .d true, .obj .vector .d true, .obj (.view1D .ten) .d false]),
  (.blas_vecadd, [.obj (.view1D .mat) .d true, .obj (.view1D .vec) .d true, .obj .vector .d false]),
  (.blas_vecadd, [.obj (.view1D .mat) .d true, .obj (.view1D .vec) .d true, .obj (.view1D .vec) .d false]),
  (.blas_vecadd, [.obj (.view1D .mat) .d true, .obj (.view1D .vec) .d true, .obj (.view1D .mat) .d false]),
  (.blas_vecadd, [.obj (.view1D .mat) .d true, .obj (.view1D .vec) .d true, .obj (.view1D .ten) .d false]),
  (.blas_vecadd, [.obj (.view1D .mat) .d true, .obj (.view1D .mat) .d true, .obj .vector .d false]),
  (.blas_vecadd, [.obj (.view1D .mat) .d true, .obj (.view1D .mat) .d true, .obj (.view1D .vec) .d false]),
  (.blas_vecadd, [.obj (.view1D .mat) .d true, .obj (.view1D .mat) .d true, .obj (.view1D .mat) .d false]),
  (.blas_vecadd, [.obj (.view1D .mat) .d true, .obj (.view1D .mat) .d true, .obj (.view1D .ten) .d false]),
  (.blas_vecadd, [.obj (.view1D .mat) .d true, .obj (.view1D .ten) .d true, .obj .vector .d false]),
  (.blas_vecadd, [.obj (.view1D .mat) .d true, .obj (.view1D .ten) .d true, .obj (.view1D .vec) .d false]),
  (.blas_vecadd, [.obj (.view1D .mat) .d true, .obj (.view1D .ten) .d true, .obj (.view1D .mat) .d false]),
  (.blas_vecadd, [.obj (.view1D .mat) .d true, .obj (.view1D .ten) .d true, .obj (.view1D .ten) .d false]),
  (.blas_vecadd, [.obj (.view1D .ten) .d true, .obj .vector .d true, .obj .vector .d false]),
  (.blas_vecadd, [.obj (.view1D .ten) .d true, .obj .vector .d true, .obj (.view1D .vec) .d false]),
  (.blas_vecadd, [.obj (.view1D .ten) .d true, .obj .vector .d true, .obj (.view1D .mat) .d false]),
  (.blas_vecadd, [.obj (.view1D .ten) .d true, .obj .vector .d true, .obj (.view1D .ten) .d false]),
  (.blas_vecadd, [.obj (.view1D .ten) .d true, .obj (.view1D .vec) .d true, .obj .vector .d false]),
  (.blas_vecadd, [.obj (.view1D .ten) .d true, .obj (.view1D .vec) .d true, .obj (.view1D .vec) .d false]),
  (.blas_vecadd, [.obj (.view1D .ten) .d true, .obj (.view1D .vec) .d true, .obj (.view1D .mat) .d false]),
  (.blas_vecadd, [.obj (.view1D .ten) .d true, .obj (.view1D .vec) .d true, .obj (.view1D .ten) .d false]),
  (.blas_vecadd, [.obj (.view1D .ten) .d true, .obj (.view1D .mat) .d true, .obj .vector .d false]),
  (.blas_vecadd, [.obj (.view1D .ten) .d true, .obj (.view1D .mat) .d true, .obj (.view1D .vec) .d false]),
  (.blas_vecadd, [.obj (.view1D .ten) .d true, .obj (.view1D .mat) .d true, .obj (.view1D .mat) .d false]),
  (.blas_vecadd, [.obj (.view1D .ten) .d true, .obj (.view1D .mat) .d true, .obj (.view1D .ten) .d false]),
  (.blas_vecadd, [.obj (.view1D .ten) .d true, .obj (.view1D .ten) .d true, .obj .vector .d false]),
  (.blas_vecadd, [.obj (.view1D .ten) .d true, .obj (.view1D .ten) .d true, .obj (.view1D .vec) .d false]),
  (.blas_vecadd, [.obj (.view1D .ten) .d true, .obj (.view1D .ten) .d true, .obj (.view1D .mat) .d false]),
  (.blas_vecadd, [.obj (.view1D .ten) .d true, .obj (.view1D .ten) .d true, .obj (.view1D .ten) .d false]),
  (.blas_vecadd, [.obj .vector .s true, .obj .vector .s true, .obj .vector .s false]),
  (.blas_vecadd, [.obj .vector .s true, .obj .vector .s true, .obj (.view1D .vec) .s false]),
  (.blas_vecadd, [.obj .vector .s true, .obj .vector .s true, .obj (.view1D .mat) .s false]),
  (.blas_vecadd, [.obj .vector .s true, .obj .vector .s true, .obj (.view1D .ten) .s false]),
  (.blas_vecadd, [.obj .vector .s true, .obj (.view1D .vec) .s true, .obj .vector .s false]),
  (.blas_vecadd, [.obj .vector .s true, .obj (.view1D .vec) .s true, .obj (.view1D .vec) .s false]),
  (.blas_vecadd, [.obj .vector .s true, .obj (.view1D .vec) .s true, .obj (.view1D .mat) .s false]),
  (.blas_vecadd, [.obj .vector .s true, .obj (.view1D .vec) .s true, .obj (.view1D .ten) .s false]),
  (.blas_vecadd, [.obj .vector .s true, .obj (.view1D .mat) .s true, .obj .vector .s false]),
  (.blas_vecadd, [.obj .vector .s true, .obj (.view1D .mat) .s true, .obj (.view1D .vec) .s false]),
  (.blas_vecadd, [.obj .vector .s true, .obj (.view1D .mat) .s true, .obj (.view1D .mat) .s false]),
  (.blas_vecadd, [.obj .vector .s true, .obj (.view1D .mat) .s true, .obj (.view1D .ten) .s false]),
  (.blas_vecadd, [.obj .vector .s true, .obj (.view1D .ten) .s true, .obj .vector .s false]),
  (.blas_vecadd, [.obj .vector .s true, .obj (.view1D .ten) .s true, .obj (.view1D .vec) .s false]),
  (.blas_vecadd, [.obj .vector .s true, .obj (.view1D .ten) .s true, .obj (.view1D .mat) .s false]),
  (.blas_vecadd, [.obj .vector .s true, .obj (.view1D .ten) .s true, .obj (.view1D .ten) .s false])]

/-- the overloads of `tBlasVec_1` that are declared -/
def hBlasVec_1 : List (Fn × List Par) := [
  (.blas_vecadd, [.obj (.view1D .vec) .s true, .obj .vector .s true, .obj .vector .s false]),
  (.blas_vecadd, [.obj (.view1D .vec) .s true, .obj .vector .s true, .obj (.view1D .vec) .s false]),
  (.blas_vecadd, [.obj (.view1D .vec) .s true, .obj .vector .s true, .obj (.view1D .mat) .s false]),
  (.blas_vecadd, [.obj (.view1D .vec) .s true, .obj .vector .s true, .obj (.view1D .ten) .s false]),
  (.blas_vecadd, [.obj (.view1D .vec) .s true, .obj (.view1D .vec) .s true, .obj .vector .s false]),
  (.blas_vecadd, [.obj (.view1D .vec) .s true, .obj (.view1D .vec) .s true, .obj (.view1D .vec) .s false]),
  (.blas_vecadd, [.obj (.view1D .vec) .s true, .obj (.view1D .vec) .s true, .obj (.view1D .mat) .s false]),
  (.blas_vecadd, [.obj (.view1D .vec) .s true, .obj (.view1D .vec) .s true, .obj (.view1D .ten) .s false]),
  (.blas_vecadd, [.obj (.view1D .vec) .s true, .obj (.view1D .mat) .s true, .obj .vector .s false]),
  (.blas_vecadd, [.obj (.view1D .vec) .s true, .obj (.view1D .mat) .s true, .obj (.view1D .vec) .s false]),
  (.blas_vecadd, [.obj (.view1D .vec) .s true, .obj (.view1D .mat) .s true, .obj (.view1D .mat) .s false]),
  (.blas_vecadd, [.obj (.view1D .vec) .s true, .obj (.view1D .mat) .s true, .obj (.view1D .ten) .s false]),
  (.blas_vecadd, [.obj (.view1D .vec) .s true, .obj (.view1D .ten) .s true, .obj .vector .s false]),
  (.blas_vecadd, [.obj (.view1D .vec) .s true, .obj (.view1D .ten) .s true, .obj (.view1D .vec) .s false]),
  (.blas_vecadd, [.obj (.view1D .vec) .s true, .obj (.view1D .ten) .s true, .obj (.view1D .mat) .s false]),
  (.blas_vecadd, [.obj (.view1D .vec) .s true, .obj (.view1D .ten) .s true, .obj (.view1D .ten) .s false]),
  (.blas_vecadd, [.obj (.view1D .mat) .s true, .obj .vector .s true, .obj .vector .s false]),
  (.blas_vecadd, [.obj (.view1D .mat) .s true, .obj .vector .s true, .obj (.view1D .vec) .s false]),
  (.blas_vecadd, [.obj (.view1D .mat) .s true, .obj .vector .s true, .obj (.view1D .mat) .s false]),
  (.blas_vecadd, [.obj (.view1D .mat) .s true, .obj .vector .s true, .obj (.view1D .ten) .s false]),
  (.blas_vecadd, [.obj (.view1D .mat) .s true, .obj (.view1D .vec) .s true, .obj .vector .s false]),
  (.blas_vecadd, [.obj (.view1D .mat) .s true, .obj (.view1D .vec) .s true, .obj (.view1D .vec) .s false]),
  (.blas_vecadd, [.obj (.view1D .mat) .s true, .obj (.view1D .vec) .s true, .obj (.view1D .mat) .s false]),
  (.blas_vecadd, [.obj (.view1D .mat) .s true, .obj (.view1D .vec) .s true, .obj (.view1D .ten) .s false]),
  (.blas_vecadd, [.obj (.view1D .mat) .s true, .obj (.view1D .mat) .s true, .obj .vector .s false]),
  (.blas_vecadd, [.obj (.view1D .mat) .s true, .obj (.view1D .mat) .s true, .obj (.view1D .vec) .s false]),
  (.blas_vecadd, [.obj (.view1D .mat) .s true, .obj (.view1D .mat) .s true, .obj (.view1D .mat) .s false]),
  (.blas_vecadd, [.obj (.view1D .mat) .s true, .obj (.view1D .mat) .s true, .obj (.view1D .ten) .s false]),
  (.blas_vecadd, [.obj (.view1D .mat) .s true, .obj (.view1D .ten) .s true, .obj .vector .s false]),
  (.blas_vecadd, [.obj (.view1D .mat) .s true, .obj (.view1D .ten) .s true, .obj (.view1D .vec) .s false]),
  (.blas_vecadd, [.obj (.view1D .mat) .s true, .obj (.view1D .ten) .s true, .obj (.view1D .mat) .s false]),
  (.blas_vecadd, [.obj (.view1D .mat) .s true, .obj (.view1D .ten) .s true, .obj (.view1D .ten) .s false]),
  (.blas_vecadd, [.obj (.view1D .ten) .s true, .obj .vector .s true, .obj .vector .s false]),
  (.blas_vecadd, [.obj (.view1D .ten) .s true, .obj .vector .s true, .obj (.view1D .vec) .s false]),
  (.blas_vecadd, [.obj (.view1D .ten) .s true, .obj .vector .s true, .obj (.view1D .mat) .s false]),
  (.blas_vecadd, [.obj (.view1D .ten) .s true, .obj .vector .s true, .obj (.view1D .ten) .s false]),
  (.blas_vecadd, [.obj (.view1D .ten) .s true, .obj (.view1D .vec) .s true, .obj .vector .s false]),
  (.blas_vecadd, [.obj (.view1D .ten) .s true, .obj (.view1D .vec) .s true, .obj (.view1D .vec) .s false]),
  (.blas_vecadd, [.obj (.view1D .ten) .s true, .obj (.view1D .vec) .s true, .obj (.view1D .mat) .s false]),
  (.blas_vecadd, [.obj (.view1D .ten) .s true, .obj (.view1D .vec) .s true, .obj (.view1D .ten) .s false]),
  (.blas_vecadd, [.obj (.view1D .ten) .s true, .obj (.view1D .mat) .s true, .obj .vector .s false]),
  (.blas_vecadd, [.obj (.view1D .ten) .s true, .obj (.view1D .mat) .s true, .obj (.view1D .vec) .s false]),
  (.blas_vecadd, [.obj (.view1D .ten) .s true, .obj (.view1D .mat) .s true, .obj (.view1D .mat) .s false]),
  (.blas_vecadd, [.obj (.view1D .ten) .s true, .obj (.view1D .mat) .s true, .obj (.view1D .ten) .s false]),
  (.blas_vecadd, [.obj (.view1D .ten) .s true, .obj (.view1D .ten) .s true, .obj .vector .s false]),
  (.blas_vecadd, [.obj (.view1D .ten) .s true, .obj (.view1D .ten) .s true, .obj (.view1D .vec) .s false]),
  (.blas_vecadd, [.obj (.view1D .ten) .s true, .obj (.view1D .ten) .s true, .obj (.view1D .mat) .s false]),
  (.blas_vecadd, [.obj (.view1D .ten) .s true, .obj (.view1D .ten) .s true, .obj (.view1D .ten) .s false]),
  (.blas_vecsub, [.obj .vector .d true, .obj .vector .d true, .obj .vector .d false]),
  (.blas_vecsub, [.obj .vector .d true, .obj .vector .d true, .obj (.view1D .vec) .d false]),
  (.blas_vecsub, [.obj .vector .d true, .obj .vector .d true, .obj (.view1D .mat) .d false]),
  (.blas_vecsub, [.obj .vector .d true, .obj .vector .d true, .obj (.view1D .ten) .d false]),
  (.blas_vecsub, [.obj .vector .d true, .obj (.view1D .vec) .d true, .obj .vector .d false]),
  (.blas_vecsub, [.obj .vector .d true, .obj (.view1D .vec) .d true, .obj (.view1D .vec) .d false]),
  (.blas_vecsub, [.obj .vector .d true, .obj (.view1D .vec) .d true, .obj (.view1D .mat) .d false]),
  (.blas_vecsub, [.obj .vector .d true, .obj (.view1D .vec) .d true, .obj (.view1D .ten) .d false]),
  (.blas_vecsub, [.obj .vector .d true, .obj (.view1D .mat) .d true, .obj .vector .d false]),
  (.blas_vecsub, [.obj .vector .d true, .obj (.view1D .mat) .d true, .obj (.view1D .vec) .d false]),
  (.blas_vecsub, [.obj .vector .d true, .obj (.view1D .mat) .d true, .obj (.view1D .mat) .d false]),
  (.blas_vecsub, [.obj .vector .d true, .obj (.view1D .mat) .d true, .obj (.view1D .ten) .d false]),
  (.blas_vecsub, [.obj .vector .d true, .obj (.view1D .ten) .d true, .obj .vector .d false]),
  (.blas_vecsub, [.obj .vector .d true, .obj (.view1D .ten) .d true, .obj (.view1D .vec) .d false]),
  (.blas_vecsub, [.obj .vector .d true, .obj (.view1D .ten) .d true, .obj (.view1D .mat) .d false]),
  (.blas_vecsub, [.obj .vector .d true, .obj (.view1D .ten) .d true, .obj (.view1D .ten) .d false]),
  (.blas_vecsub, [.obj (.view1D .vec) .d true, .obj .vector .d true, .obj .vector .d false]),
  (.blas_vecsub, [.obj (.view1D .vec) .d true, .obj .vector .d true, .obj (.view1D .vec) .d false]),
  (.blas_vecsub, [.obj (.view1D .vec) .d true, .obj .vector .d true, .obj (.view1D .mat) .d false]),
  (.blas_vecsub, [.obj (.view1D .vec) .d true, .obj .vector .d true, .obj (.view1D .ten) .d false]),
  (.blas_vecsub, [.obj (.view1D .vec) .d true, .obj (.view1D .vec) .d true, .obj .vector .d false]),
  (.blas_vecsub, [.obj (.view1D .vec) .d true, .obj (.view1D .vec) .d true, .obj (.view1D .vec) .d false]),
  (.blas_vecsub, [.obj (.view1D .vec) .d true, .obj (.view1D .vec) .d true, .obj (.view1D .mat) .d false]),
  (.blas_vecsub, [.obj (.view1D .vec) .d true, .obj (.view1D .vec) .d true, .obj (.view1D .ten) .d false]),
  (.blas_vecsub, [.obj (.view1D .vec) .d true, .obj (.view1D .mat) .d true, .obj .vector .d false]),
  (.blas_vecsub, [.obj (.view1D .vec) .d true, .obj (.view1D .mat) .d true, .obj (.view1D .vec) .d false]),
  (.blas_vecsub, [.obj (.view1D .vec) .d true, .obj (.view1D .mat) .d true, .obj (.view1D .mat) .d false]),
  (.blas_vecsub, [.obj (.view1D .vec) .d true, .obj (.view1D .mat) .d true, .obj (.view1D .ten) .d false]),
  (.blas_vecsub, [.obj (.view1D .vec) .d true, .obj (.view1D .ten) .d true, .obj .vector .d false]),
  (.blas_vecsub, [.obj (.view1D .vec) .d true, .obj (.view1D .ten) .d true, .obj (.view1D .vec) .d false]),
  (.blas_vecsub, [.obj (.view1D .vec) .d true, .obj (.view1D .ten) .d true, .obj (.view1D .mat) .d false]),
  (.blas_vecsub, [.obj (.view1D .vec) .d true, .obj (.view1D .ten) .d true, .obj (.view1D .ten) .d false])]

/-- the overloads of `tBlasVec_2` that are declared -/
def hBlasVec_2 : List (Fn × List Par) := [
  (.blas_vecsub, [.obj (.view1D .mat) .d true, .obj .vector .d true, .obj .vector .d false]),
  (.blas_vecsub, [.obj (.view1D .mat) .d true, .obj .vector .d true, .obj (.view1D .vec) .d false]),
  (.blas_vecsub, [.obj (.view1D .mat) .d true, .obj .vector .d true, .obj (.view1D .mat) .d false]),
  (.blas_vecsub, [.obj (.view1D .mat) .d true, .obj .vector .d true, .obj (.view1D .ten) .d false]),
  (.blas_vecsub, [.obj (.view1D .mat) .d true, .obj (.view1D .vec) .d true, .obj .vector .d false]),
  (.blas_vecsub, [.obj (.view1D .mat) .d true, .obj (.view1D .vec) .d true, .obj (.view1D .vec) .d false]),
  (.blas_vecsub, [.obj (.view1D .mat) .d true, .obj (.view1D .vec) .d true, .obj (.view1D .mat) .d false]),
  (.blas_vecsub, [.obj (.view1D .mat) .d true, .obj (.view1D .vec) .d true, .obj (.view1D .ten) .d false]),
  (.blas_vecsub, [.obj (.view1D .mat) .d true, .obj (.view1D .mat) .d true, .obj .vector .d false]),
  (.blas_vecsub, [.obj (.view1D .mat) .d true, .obj (.view1D .mat) .d true, .obj (.view1D .vec) .d false]),
  (.blas_vecsub, [.obj (.view1D .mat) .d true, .obj (.view1D .mat) .d true, .obj (.view1D .mat) .d false]),
  (.blas_vecsub, [.obj (.view1D .mat) .d true, .obj (.view1D .mat) .d true, .obj (.view1D .ten) .d false]),
  (.blas_vecsub, [.obj (.view1D .mat) .d true, .obj (.view1D .ten) .d true, .obj .vector .d false]),
  (.blas_vecsub, [.obj (.view1D .mat) .d true, .obj (.view1D .ten) .d true, .obj (.view1D .vec) .d false]),
  (.blas_vecsub, [.obj (.view1D .mat) .d true, .obj (.view1D .ten) .d true, .obj (.view1D .mat) .d false]),
  (.blas_vecsub, [.obj (.view1D .mat) .d true, .obj (.view1D .ten) .d true, .obj (.view1D .ten) .d false]),
  (.blas_vecsub, [.obj (.view1D .ten) .d true, .obj .vector .d true, .obj .vector .d false]),
  (.blas_vecsub, [.obj (.view1D .ten) .d true, .obj .vector .d true, .obj (.view1D .vec) .d false]),
  (.blas_vecsub, [.obj (.view1D .ten) .d true, .obj .vector .d true, .obj (.view1D .mat) .d false]),
  (.blas_vecsub, [.obj (.view1D .ten) .d true, .obj .vector .d true, .obj (.view1D .ten) .d false]),
  (.blas_vecsub, [.obj (.view1D .ten) .d true, .obj (.view1D .vec) .d true, .obj .vector .d false]),
  (.blas_vecsub, [.obj (.view1D .ten) .d true, .obj (.view1D .vec) .d true, .obj (.view1D .vec) .d false]),
  (.blas_vecsub, [.obj (.view1D .ten) .d true, .obj (.view1D .vec) .d true, .obj (.view1D .mat) .d false]),
  (.blas_vecsub, [.obj (.view1D .ten) .d true, .obj (.view1D .vec) .d true, .obj (.view1D .ten) .d false]),
  (.blas_vecsub, [.obj (.view1D .ten) .d true, .obj (.view1D .mat) .d true, .obj .vector .d false]),
  (.blas_vecsub, [.obj (.view1D .ten) .d true, .obj (.view1D .mat) .d true, .obj (.view1D .vec) .d false]),
  (.blas_vecsub, [.obj (.view1D .ten) .d true, .obj (.view1D .mat) .d true, .obj (.view1D .mat) .d false]),
  (.blas_vecsub, [.obj (.view1D .ten) .d true, .obj (.view1D .mat) .d true, .obj (.view1D .ten) .d false]),
  (.blas_vecsub, [.obj (.view1D .ten) .d true, .obj (.view1D .ten) .d true, .obj .vector .d false]),
  (.blas_vecsub, [.obj (.view1D .ten) .d true, .obj (.view1D .ten) .d true, .obj (.view1D .vec) .d false]),
  (.blas_vecsub, [.obj (.view1D .ten) .d true, .obj (.view1D .ten) .d true, .obj (.view1D .mat) .d false]),
  (.blas_vecsub, [.obj (.view1D .ten) .d true, .obj (.view1D .ten) .d true, .obj (.view1D .ten) .d false]),
  (.blas_vecsub, [.obj .vector .s true, .obj .vector .s true, .obj .vector .s false]),
  (.blas_vecsub, [.obj .vector .s true, .obj .vector .s true, .obj (.view1D .vec) .s false]),
  (.blas_vecsub, [.obj .vector .s true, .obj .vector .s true, .obj (.view1D .mat) .s false]),
  (.blas_vecsub, [.obj .vector .s true, .obj .vector .s true, .obj (.view1D .ten) .s false]),
  (.blas_vecsub, [.obj .vector .s true, .obj (.view1D .vec) .s true, .obj .vector .s false]),
  (.blas_vecsub, [.obj .vector .s true, .obj (.view1D .vec) .s true, .obj (.view1D .vec) .s false]),
  (.blas_vecsub, [.obj .vector .s true, .obj (.view1D .vec) .s true, .obj (.view1D .mat) .s false]),
  (.blas_vecsub, [.obj .vector .s true, .obj (.view1D .vec) .s true, .obj (.view1D .ten) .s false]),
  (.blas_vecsub, [.obj .vector .s true, .obj (.view1D .mat) .s true, .obj .vector .s false]),
  (.blas_vecsub, [.obj .vector .s true, .obj (.view1D .mat) .s true, .obj (.view1D .vec) .s false]),
  (.blas_vecsub, [.obj .vector .s true, .obj (.view1D .mat) .s true, .obj (.view1D .mat) .s false]),
  (.blas_vecsub, [.obj .vector .s true, .obj (.view1D .mat) .s true, .obj (.view1D .ten) .s false]),
  (.blas_vecsub, [.obj .vector .s true, .obj (.view1D .ten) .s true, .obj .vector .s false]),
  (.blas_vecsub, [.obj .vector .s true, .obj (.view1D .ten) .s true, .obj (.view1D .vec) .s false]),
  (.blas_vecsub, [.obj .vector .s true, .obj (.view1D .ten) .s true, .obj (.view1D .mat) .s false]),
  (.blas_vecsub, [.obj .vector .s true, .obj (.view1D .ten) .s true, .obj (.view1D .ten) .s false]),
  (.blas_vecsub, [.obj (.view1D .vec) .s true, .obj .vector .s true, .obj .vector .s false]),
  (.blas_vecsub, [.obj (.view1D .vec) .s true, .obj .vector .s true, .obj (.view1D .vec) .s false]),
  (.blas_vecsub, [.obj (.view1D .vec) .s true, .obj .vector .s true, .obj (.view1D .mat) .s false]),
  (.blas_vecsub, [.obj (.view1D .vec) .s true, .obj .vector .s true, .obj (.view1D .ten) .s false]),
  (.blas_vecsub, [.obj (.view1D .vec) .s true, .obj (.view1D .vec) .s true, .obj .vector .s false]),
  (.blas_vecsub, [.obj (.view1D .vec) .s true, .obj (.view1D .vec) .s true, .obj (.view1D .vec) .s false]),
  (.blas_vecsub, [.obj (.view1D .vec) .s true, .obj (.view1D .vec) .s true, .obj (.view1D .mat) .s false]),
  (.blas_vecsub, [.obj (.view1D .vec) .s true, .obj (.view1D .vec) .s true, .obj (.view1D .ten) .s false]),
  (.blas_vecsub, [.obj (.view1D .vec) .s true, .obj (.view1D .mat) .s true, .obj .vector .s false]),
  (.blas_vecsub, [.obj (.view1D .vec) .s true, .obj (.view1D .mat) .s true, .obj (.view1D .vec) .s false]),
  (.blas_vecsub, [.obj (.view1D .vec) .s true, .obj (.view1D .mat) .s true, .obj (.view1D .mat) .s false]),
  (.blas_vecsub, [.obj (.view1D .vec) .s true, .obj (.view1D .mat) .s true, .obj (.view1D .ten) .s false]),
  (.blas_vecsub, [.obj (.view1D .vec) .s true, .obj (.view1D .ten) .s true, .obj .vector .s false]),
  (.blas_vecsub, [.obj (.view1D .vec) .s true, .obj (.view1D .ten) .s true, .obj (.view1D .vec) .s false]),
  (.blas_vecsub, [.obj (.view1D .vec) .s true, .obj (.view1D .ten) .s true, .obj (.view1D .mat) .s false]),
  (.blas_vecsub, [.obj (.view1D .vec) .s true, .obj (.view1D .ten) .s true, .obj (.view1D .ten) .s false]),
  (.blas_vecsub, [.obj (.view1D .mat) .s true, .obj .vector .s true, .obj .vector .s false]),
  (.blas_vecsub, [.obj (.view1D .mat) .s true, .obj .vector .s true, .obj (.view1D .vec) .s false]),
  (.blas_vecsub, [.obj (.view1D .mat) .s true, .obj .vector .s true, .obj (.view1D .mat) .s false]),
  (.blas_vecsub, [.obj (.view1D .mat) .s true, .obj .vector .s true, .obj (.view1D .ten) .s false]),
  (.blas_vecsub, [.obj (.view1D .mat) .s true, .obj (.view1D .vec) .s true, .obj .vector .s false]),
  (.blas_vecsub, [.obj (.view1D .mat) .s true, .obj (.view1D .vec) .s true, .obj (.view1D .vec) .s false]),
  (.blas_vecsub, [.obj (.view1D .mat) .s true, .obj (.view1D .vec) .s true, .obj (.view1D .mat) .s false]),
  (.blas_vecsub, [.obj (.view1D .mat) .s true, .obj (.view1D .vec) .s true, .obj (.view1D .ten) .s false]),
  (.blas_vecsub, [.obj (.view1D .mat) .s true, .obj (.view1D .mat) .s true, .obj .vector .s false]),
  (.blas_vecsub, [.obj (.view1D .mat) .s true, .obj (.view1D .mat) .s true, .obj (.view1D .vec) .s false]),
  (.blas_vecsub, [.obj (.view1D .mat) .s true, .obj (.view1D .mat) .s true, .obj (.view1D .mat) .s false]),
  (.blas_vecsub, [.obj (.view1D .mat) .s true, .obj (.view1D .mat) .s true, .obj (.view1D .ten) .s false]),
  (.blas_vecsub, [.obj (.view1D .mat) .s true, .obj (.view1D .ten) .s true, .obj .vector .s false]),
  (.blas_vecsub, [.obj (.view1D .mat) .s true, .obj (.view1D .ten) .s true, .obj (.view1D .vec) .s false]),
  (.blas_vecsub, [.obj (.view1D .mat) .s true, .obj (.view1D .ten) .s true, .obj (.view1D .mat) .s false]),
  (.blas_vecsub, [.obj (.view1D .mat) .s true, .obj (.view1D .ten) .s true, .obj (.view1D .ten) .s false])]

/-- the overloads of `tBlasVec_3` that are declared -/
def hBlasVec_3 : List (Fn × List Par) := [
  (.blas_vecsub, [.obj (.view1D .ten) .s true, .obj .vector .s true, .obj .vector .s false]),
  (.blas_vecsub, [.obj (.view1D .ten) .s true, .obj .vector .s true, .obj (.view1D .vec) .s false]),
  (.blas_vecsub, [.obj (.view1D .ten) .s true, .obj .vector .s true, .obj (.view1D .mat) .s false]),
  (.blas_vecsub, [.obj (.view1D .ten) .s true, .obj .vector .s true, .obj (.view1D .ten) .s false]),
  (.blas_vecsub, [.obj (.view1D .ten) .s true, .obj (.view1D .vec) .s true, .obj .vector .s false]),
  (.blas_vecsub, [.obj (.view1D .ten) .s true, .obj (.view1D .vec) .s true, .obj (.view1D .vec) .s false]),
  (.blas_vecsub, [.obj (.view1D .ten) .s true, .obj (.view1D .vec) .s true, .obj (.view1D .mat) .s false]),
  (.blas_vecsub, [.obj (.view1D .ten) .s true, .obj (.view1D .vec) .s true, .obj (.view1D .ten) .s false]),
  (.blas_vecsub, [.obj (.view1D .ten) .s true, .obj (.view1D .mat) .s true, .obj .vector .s false]),
  (.blas_vecsub, [.obj (.view1D .ten) .s true, .obj (.view1D .mat) .s true, .obj (.view1D .vec) .s false]),
  (.blas_vecsub, [.obj (.view1D .ten) .s true, .obj (.view1D .mat) .s true, .obj (.view1D .mat) .s false]),
  (.blas_vecsub, [.obj (.view1D .ten) .s true, .obj (.view1D .mat) .s true, .obj (.view1D .ten) .s false]),
  (.blas_vecsub, [.obj (.view1D .ten) .s true, .obj (.view1D .ten) .s true, .obj .vector .s false]),
  (.blas_vecsub, [.obj (.view1D .ten) .s true, .obj (.view1D .ten) .s true, .obj (.view1D .vec) .s false]),
  (.blas_vecsub, [.obj (.view1D .ten) .s true, .obj (.view1D .ten) .s true, .obj (.view1D .mat) .s false]),
  (.blas_vecsub, [.obj (.view1D .ten) .s true, .obj (.view1D .ten) .s true, .obj (.view1D .ten) .s false]),
  (.blas_times, [.scal .d, .obj .vector .d true, .obj .vector .d false]),
  (.blas_times, [.scal .d, .obj .vector .d true, .obj (.view1D .vec) .d false]),
  (.blas_times, [.scal .d, .obj .vector .d true, .obj (.view1D .mat) .d false]),
  (.blas_times, [.scal .d, .obj .vector .d true, .obj (.view1D .ten) .d false]),
  (.blas_times, [.scal .d, .obj (.view1D .vec) .d true, .obj .vector .d false]),
  (.blas_times, [.scal .d, .obj (.view1D .vec) .d true, .obj (.view1D .vec) .d false]),
  (.blas_times, [.scal .d, .obj (.view1D .vec) .d true, .obj (.view1D .mat) .d false]),
  (.blas_times, [.scal .d, .obj (.view1D .vec) .d true, .obj (.view1D .ten) .d false]),
  (.blas_times, [.scal .d, .obj (.view1D .mat) .d true, .obj .vector .d false]),
  (.blas_times, [.scal .d, .obj (.view1D .mat) .d true, .obj (.view1D .vec) .d false]),
  (.blas_times, [.scal .d, .obj (.view1D .mat) .d true, .obj (.view1D .mat) .d false]),
  (.blas_times, [.scal .d, .obj (.view1D .mat) .d true, .obj (.view1D .ten) .d false]),
  (.blas_times, [.scal .d, .obj (.view1D .ten) .d true, .obj .vector .d false]),
  (.blas_times, [.scal .d, .obj (.view1D .ten) .d true, .obj (.view1D .vec) .d false]),
  (.blas_times, [.scal .d, .obj (.view1D .ten) .d true, .obj (.view1D .mat) .d false]),
  (.blas_times, [.scal .d, .obj (.view1D .ten) .d true, .obj (.view1D .ten) .d false]),
  (.blas_times, [.scal .s, .obj .vector .s true, .obj .vector .s false]),
  (.blas_times, [.scal .s, .obj .vector .s true, .obj (.view1D .vec) .s false]),
  (.blas_times, [.scal .s, .obj .vector .s true, .obj (.view1D .mat) .s false]),
  (.blas_times, [.scal .s, .obj .vector .s true, .obj (.view1D .ten) .s false]),
  (.blas_times, [.scal .s, .obj (.view1D .vec) .s true, .obj .vector .s false]),
  (.blas_times, [.scal .s, .obj (.view1D .vec) .s true, .obj (.view1D .vec) .s false]),
  (.blas_times, [.scal .s, .obj (.view1D .vec) .s true, .obj (.view1D .mat) .s false]),
  (.blas_times, [.scal .s, .obj (.view1D .vec) .s true, .obj (.view1D .ten) .s false]),
  (.blas_times, [.scal .s, .obj (.view1D .mat) .s true, .obj .vector .s false]),
  (.blas_times, [.scal .s, .obj (.view1D .mat) .s true, .obj (.view1D .vec) .s false]),
  (.blas_times, [.scal .s, .obj (.view1D .mat) .s true, .obj (.view1D .mat) .s false]),
  (.blas_times, [.scal .s, .obj (.view1D .mat) .s true, .obj (.view1D .ten) .s false]),
  (.blas_times, [.scal .s, .obj (.view1D .ten) .s true, .obj .vector .s false]),
  (.blas_times, [.scal .s, .obj (.view1D .ten) .s true, .obj (.view1D .vec) .s false]),
  (.blas_times, [.scal .s, .obj (.view1D .ten) .s true, .obj (.view1D .mat) .s false]),
  (.blas_times, [.scal .s, .obj (.view1D .ten) .s true, .obj (.view1D .ten) .s false]),
  (.blas_times, [.obj .vector .d true, .obj .vector .d true, .obj .vector .d false]),
  (.blas_times, [.obj .vector .d true, .obj .vector .d true, .obj (.view1D .vec) .d false]),
  (.blas_times, [.obj .vector .d true, .obj .vector .d true, .obj (.view1D .mat) .d false]),
  (.blas_times, [.obj .vector .d true, .obj .vector .d true, .obj (.view1D .ten) .d false]),
  (.blas_times, [.obj .vector .d true, .obj (.view1D .vec) .d true, .obj .vector .d false]),
  (.blas_times, [.obj .vector .d true, .obj (.view1D .vec) .d true, .obj (.view1D .vec) .d false]),
  (.blas_times, [.obj .vector .d true, .obj (.view1D .vec) .d true, .obj (.view1D .mat) .d false]),
  (.blas_times, [.obj .vector .d true, .obj (.view1D .vec) .d true, .obj (.view1D .ten) .d false]),
  (.blas_times, [.obj .vector .d true, .obj (.view1D .mat) .d true, .obj .vector .d false]),
  (.blas_times, [.obj .vector .d true, .obj (.view1D .mat) .d true, .obj (.view1D .vec) .d false]),
  (.blas_times, [.obj .vector .d true, .obj (.view1D .mat) .d true, .obj (.view1D .mat) .d false]),
  (.blas_times, [.obj .vector .d true, .obj (.view1D .mat) .d true, .obj (.view1D .ten) .d false]),
  (.blas_times, [.obj .vector .d true, .obj (.view1D .ten) .d true, .obj .vector .d false]),
  (.blas_times, [.obj .vector .d true, .obj (.view1D .ten) .d true, .obj (.view1D .vec) .d false]),
  (.blas_times, [.obj .vector .d true, .obj (.view1D .ten) .d true, .obj (.view1D .mat) .d false]),
  (.blas_times, [.obj .vector .d true, .obj (.view1D .ten) .d true, .obj (.view1D .ten) .d false]),
  (.blas_times, [.obj (.view1D .vec) .d true, .obj .vector .d true, .obj .vector .d false]),
  (.blas_times, [.obj (.view1D .vec) .d true, .obj .vector .d true, .obj (.view1D .vec) .d false]),
  (.blas_times, [.obj (.view1D .vec) .d true, .obj .vector .d true, .obj (.view1D .mat) .d false]),
  (.blas_times, [.obj (.view1D .vec) .d true, .obj .vector .d true, .obj (.view1D .ten) .d false]),
  (.blas_times, [.obj (.view1D .vec) .d true, .obj (.view1D .vec) .d true, .obj .vector .d false]),
  (.blas_times, [.obj (.view1D .vec) .d true, .obj (.view1D .vec) .d true, .obj (.view1D .vec) .d false]),
  (.blas_times, [.obj (.view1D .vec) .d true, .obj (.view1D .vec) .d true, .obj (.view1D .mat) .d false]),
  (.blas_times, [.obj (.view1D .vec) .d true, .obj (.view1D .vec) .d true, .obj (.view1D .ten) .d false]),
  (.blas_times, [.obj (.view1D .vec) .d true, .obj (.view1D .mat) .d true, .obj .vector .d false]),
  (.blas_times, [.obj (.view1D .vec) .d true, .obj (.view1D .mat) .d true, .obj (.view1D .vec) .d false]),
  (.blas_times, [.obj (.view1D .vec) .d true, .obj (.view1D .mat) .d true, .obj (.view1D .mat) .d false]),
  (.blas_times, [.obj (.view1D .vec) .d true, .obj (.view1D .mat) .d true, .obj (.view1D .ten) .d false]),
  (.blas_times, [.obj (.view1D .vec) .d true, .obj (.view1D .ten) .d true, .obj .vector .d false]),
  (.blas_times, [.obj (.view1D .vec) .d true, .obj (.view1D .ten) .d true, .obj (.view1D .vec) .d false]),
  (.blas_times, [.obj (.view1D .vec) .d true, .obj (.view1D .ten) .d true, .obj (.view1D .mat) .d false]),
  (.blas_times, [.obj (.view1D .vec) .d true, .obj (.view1D .ten) .d true, .obj (.view1D .ten) .d false])]

/-- the overloads of `tBlasVec_4` that are declared -/
def hBlasVec_4 : List (Fn × List Par) := [
  (.blas_times, [.obj (.view1D .mat) .d true, .obj .vector .d true, .obj .vector .d false]),
  (.blas_times, [.obj (.view1D .mat) .d true, .obj .vector .d true, .obj (.view1D .vec) .d false]),
  (.blas_times, [.obj (.view1D .mat) .d true, .obj .vector .d true, .obj (.view1D .mat) .d false]),
  (.blas_times, [.obj (.view1D .mat) .d true, .obj .vector .d true, .obj (.view1D .ten) .d false]),
  (.blas_times, [.obj (.view1D .mat) .d true, .obj (.view1D .vec) .d true, .obj .vector .d false]),
  (.blas_times, [.obj (.view1D .mat) .d true, .obj (.view1D .vec) .d true, .obj (.view1D .vec) .d false]),
  (.blas_times, [.obj (.view1D .mat) .d true, .obj (.view1D .vec) .d true, .obj (.view1D .mat) .d false]),
  (.blas_times, [.obj (.view1D .mat) .d true, .obj (.view1D .vec) .d true, .obj (.view1D .ten) .d false]),
  (.blas_times, [.obj (.view1D .mat) .d true, .obj (.view1D .mat) .d true, .obj .vector .d false]),
  (.blas_times, [.obj (.view1D .mat) .d true, .obj (.view1D .mat) .d true, .obj (.view1D .vec) .d false]),
  (.blas_times, [.obj (.view1D .mat) .d true, .obj (.view1D .mat) .d true, .obj (.view1D .mat) .d false]),
  (.blas_times, [.obj (.view1D .mat) .d true, .obj (.view1D .mat) .d true, .obj (.view1D .ten) .d false]),
  (.blas_times, [.obj (.view1D .mat) .d true, .obj (.view1D .ten) .d true, .obj .vector .d false]),
  (.blas_times, [.obj (.view1D .mat) .d true, .obj (.view1D .ten) .d true, .obj (.view1D .vec) .d false]),
  (.blas_times, [.obj (.view1D .mat) .d true, .obj (.view1D .ten) .d true, .obj (.view1D .mat) .d false]),
  (.blas_times, [.obj (.view1D .mat) .d true, .obj (.view1D .ten) .d true, .obj (.view1D .ten) .d false]),
  (.blas_times, [.obj (.view1D .ten) .d true, .obj .vector .d true, .obj .vector .d false]),
  (.blas_times, [.obj (.view1D .ten) .d true, .obj .vector .d true, .obj (.view1D .vec) .d false]),
  (.blas_times, [.obj (.view1D .ten) .d true, .obj .vector .d true, .obj (.view1D .mat) .d false]),
  (.blas_times, [.obj (.view1D .ten) .d true, .obj .vector .d true, .obj (.view1D .ten) .d false]),
  (.blas_times, [.obj (.view1D .ten) .d true, .obj (.view1D .vec) .d true, .obj .vector .d false]),
  (.blas_times, [.obj (.view1D .ten) .d true, .obj (.view1D .vec) .d true, .obj (.view1D .vec) .d false]),
  (.blas_times, [.obj (.view1D .ten) .d true, .obj (.view1D .vec) .d true, .obj (.view1D .mat) .d false]),
  (.blas_times, [.obj (.view1D .ten) .d true, .obj (.view1D .vec) .d true, .obj (.view1D .ten) .d false]),
  (.blas_times, [.obj (.view1D .ten) .d true, .obj (.view1D .mat) .d true, .obj .vector .d false]),
  (.blas_times, [.obj (.view1D .ten) .d true, .obj (.view1D .mat) .d true, .obj (.view1D .vec) .d false]),
  (.blas_times, [.obj (.view1D .ten) .d true, .obj (.view1D .mat) .d true, .obj (.view1D .mat) .d false]),
  (.blas_times, [.obj (.view1D .ten) .d true, .obj (.view1D .mat) .d true, .obj (.view1D .ten) .d false]),
  (.blas_times, [.obj (.view1D .ten) .d true, .obj (.view1D .ten) .d true, .obj .vector .d false]),
  (.blas_times, [.obj (.view1D .ten) .d true, .obj (.view1D .ten) .d true, .obj (.view1D .vec) .d false]),
  (.blas_times, [.obj (.view1D .ten) .d true, .obj (.view1D .ten) .d true, .obj (.view1D .mat) .d false]),
  (.blas_times, [.obj (.view1D .ten) .d true, .obj (.view1D .ten) .d true, .obj (.view1D .ten) .d false]),
  (.blas_times, [.obj .vector .s true, .obj .vector .s true, .obj .vector .s false]),
  (.blas_times, [.obj .vector .s true, .obj .vector .s true, .obj (.view1D .vec) .s false]),
  (.blas_times, [.obj .vector .s true, .obj .vector .s true, .obj (.view1D .mat) .s false]),
  (.blas_times, [.obj .vector .s true, .obj .vector .s true, .obj (.view1D .ten) .s false]),
  (.blas_times, [.obj .vector .s true, .obj (.view1D .vec) .s true, .obj .vector .s false]),
  (.blas_times, [.obj .vector .s true, .obj (.view1D .vec) .s true, .obj (.view1D .vec) .s false]),
  (.blas_times, [.obj .vector .s true, .obj (.view1D .vec) .s true, .obj (.view1D .mat) .s false]),
  (.blas_times, [.obj .vector .s true, .obj (.view1D .vec) .s true, .obj (.view1D .ten) .s false]),
  (.blas_times, [.obj .vector .s true, .obj (.view1D .mat) .s true, .obj .vector .s false]),
  (.blas_times, [.obj .vector .s true, .obj (.view1D .mat) .s true, .obj (.view1D .vec) .s false]),
  (.blas_times, [.obj .vector .s true, .obj (.view1D .mat) .s true, .obj (.view1D .mat) .s false]),
  (.blas_times, [.obj .vector .s true, .obj (.view1D .mat) .s true, .obj (.view1D .ten) .s false]),
  (.blas_times, [.obj .vector .s true, .obj (.view1D .ten) .s true, .obj .vector .s false]),
  (.blas_times, [.obj .vector .s true, .obj (.view1D .ten) .s true, .obj (.view1D .vec) .s false]),
  (.blas_times, [.obj .vector .s true, .obj (.view1D .ten) .s true, .obj (.view1D .mat) .s false]),
  (.blas_times, [.obj .vector .s true, .obj (.view1D .ten) .s true, .obj (.view1D .ten) .s false]),
  (.blas_times, [.obj (.view1D .vec) .s true, .obj .vector .s true, .obj .vector .s false]),
  (.blas_times, [.obj (.view1D .vec) .s true, .obj .vector .s true, .obj (.view1D .vec) .s false]),
  (.blas_times, [.obj (.view1D .vec) .s true, .obj .vector .s true, .obj (.view1D .mat) .s false]),
  (.blas_times, [.obj (.view1D .vec) .s true, .obj .vector .s true, .obj (.view1D .ten) .s false]),
  (.blas_times, [.obj (.view1D .vec) .s true, .obj (.view1D .vec) .s true, .obj .vector .s false]),
  (.blas_times, [.obj (.view1D .vec) .s true, .obj (.view1D .vec) .s true, .obj (.view1D .vec) .s false]),
  (.blas_times, [.obj (.view1D .vec) .s true, .obj (.view1D .vec) .s true, .obj (.view1D .mat) .s false]),
  (.blas_times, [.obj (.view1D .vec) .s true, .obj (.view1D .vec) .s true, .obj (.view1D .ten) .s false]),
  (.blas_times, [.obj (.view1D .vec) .s true, .obj (.view1D .mat) .s true, .obj .vector .s false]),
  (.blas_times, [.obj (.view1D .vec) .s true, .obj (.view1D .mat) .s true, .obj (.view1D .vec) .s false]),
  (.blas_times, [.obj (.view1D .vec) .s true, .obj (.view1D .mat) .s true, .obj (.view1D .mat) .s false]),
  (.blas_times, [.obj (.view1D .vec) .s true, .obj (.view1D .mat) .s true, .obj (.view1D .ten) .s false]),
  (.blas_times, [.obj (.view1D .vec) .s true, .obj (.view1D .ten) .s true, .obj .vector .s false]),
  (.blas_times, [.obj (.view1D .vec) .s true, .obj (.view1D .ten) .s true, .obj (.view1D .vec) .s false]),
  (.blas_times, [.obj (.view1D .vec) .s true, .obj (.view1D .ten) .s true, .obj (.view1D .mat) .s false]),
  (.blas_times, [.obj (.view1D .vec) .s true, .obj (.view1D .ten) .s true, .obj (.view1D .ten) .s false]),
  (.blas_times, [.obj (.view1D .mat) .s true, .obj .vector .s true, .obj .vector .s false]),
  (.blas_times, [.obj (.view1D .mat) .s true, .obj .vector .s true, .obj (.view1D .vec) .s false]),
  (.blas_times, [.obj (.view1D .mat) .s true, .obj .vector .s true, .obj (.view1D .mat) .s false]),
  (.blas_times, [.obj (.view1D .mat) .s true, .obj .vector .s true, .obj (.view1D .ten) .s false]),
  (.blas_times, [.obj (.view1D .mat) .s true, .obj (.view1D .vec) .s true, .obj .vector .s false]),
  (.blas_times, [.obj (.view1D .mat) .s true, .obj (.view1D .vec) .s true, .obj (.view1D .vec) .s false]),
  (.blas_times, [.obj (.view1D .mat) .s true, .obj (.view1D .vec) .s true, .obj (.view1D .mat) .s false]),
  (.blas_times, [.obj (.view1D .mat) .s true, .obj (.view1D .vec) .s true, .obj (.view1D .ten) .s false]),
  (.blas_times, [.obj (.view1D .mat) .s true, .obj (.view1D .mat) .s true, .obj .vector .s false]),
  (.blas_times, [.obj (.view1D .mat) .s true, .obj (.view1D .mat) .s true, .obj (.view1D .vec) .s false]),
  (.blas_times, [.obj (.view1D .mat) .s true, .obj (.view1D .mat) .s true, .obj (.view1D .mat) .s false]),
  (.blas_times, [.obj (.view1D .mat) .s true, .obj (.view1D .mat) .s true, .obj (.view1D .ten) .s false]),
  (.blas_times, [.obj (.view1D .mat) .s true, .obj (.view1D .ten) .s true, .obj .vector .s false]),
  (.blas_times, [.obj (.view1D .mat) .s true, .obj (.view1D .ten) .s true, .obj (.view1D .vec) .s false]),
  (.blas_times, [.obj (.view1D .mat) .s true, .obj (.view1D .ten) .s true, .obj (.view1D .mat) .s false]),
  (.blas_times, [.obj (.view1D .mat) .s true, .obj (.view1D .ten) .s true, .obj (.view1D .ten) .s false])]

/-- the overloads of `tBlasVec_5` that are declared -/
def hBlasVec_5 : List (Fn × List Par) := [
  (.blas_times, [.obj (.view1D .ten) .s true, .obj .vector .s true, .obj .vector .s false]),
  (.blas_times, [.obj (.view1D .ten) .s true, .obj .vector .s true, .obj (.view1D .vec) .s false]),
  (.blas_times, [.obj (.view1D .ten) .s true, .obj .vector .s true, .obj (.view1D .mat) .s false]),
  (.blas_times, [.obj (.view1D .ten) .s true, .obj .vector .s true, .obj (.view1D .ten) .s false]),
  (.blas_times, [.obj (.view1D .ten) .s true, .obj (.view1D .vec) .s true, .obj .vector .s false]),
  (.blas_times, [.obj (.view1D .ten) .s true, .obj (.view1D .vec) .s true, .obj (.view1D .vec) .s false]),
  (.blas_times, [.obj (.view1D .ten) .s true, .obj (.view1D .vec) .s true, .obj (.view1D .mat) .s false]),
  (.blas_times, [.obj (.view1D .ten) .s true, .obj (.view1D .vec) .s true, .obj (.view1D .ten) .s false]),
  (.blas_times, [.obj (.view1D .ten) .s true, .obj (.view1D .mat) .s true, .obj .vector .s false]),
  (.blas_times, [.obj (.view1D .ten) .s true, .obj (.view1D .mat) .s true, .obj (.view1D .vec) .s false]),
  (.blas_times, [.obj (.view1D .ten) .s true, .obj (.view1D .mat) .s true, .obj (.view1D .mat) .s false]),
  (.blas_times, [.obj (.view1D .ten) .s true, .obj (.view1D .mat) .s true, .obj (.view1D .ten) .s false]),
  (.blas_times, [.obj (.view1D .ten) .s true, .obj (.view1D .ten) .s true, .obj .vector .s false]),
  (.blas_times, [.obj (.view1D .ten) .s true, .obj (.view1D .ten) .s true, .obj (.view1D .vec) .s false]),
  (.blas_times, [.obj (.view1D .ten) .s true, .obj (.view1D .ten) .s true, .obj (.view1D .mat) .s false]),
  (.blas_times, [.obj (.view1D .ten) .s true, .obj (.view1D .ten) .s true, .obj (.view1D .ten) .s false]),
  (.blas_copy, [.obj .vector .d true, .obj .vector .d false]),
  (.blas_copy, [.obj .vector .d true, .obj (.view1D .vec) .d false]),
  (.blas_copy, [.obj .vector .d true, .obj (.view1D .mat) .d false]),
  (.blas_copy, [.obj .vector .d true, .obj (.view1D .ten) .d false]),
  (.blas_copy, [.obj (.view1D .vec) .d true, .obj .vector .d false]),
  (.blas_copy, [.obj (.view1D .vec) .d true, .obj (.view1D .vec) .d false]),
  (.blas_copy, [.obj (.view1D .vec) .d true, .obj (.view1D .mat) .d false]),
  (.blas_copy, [.obj (.view1D .vec) .d true, .obj (.view1D .ten) .d false]),
  (.blas_copy, [.obj (.view1D .mat) .d true, .obj .vector .d false]),
  (.blas_copy, [.obj (.view1D .mat) .d true, .obj (.view1D .vec) .d false]),
  (.blas_copy, [.obj (.view1D .mat) .d true, .obj (.view1D .mat) .d false]),
  (.blas_copy, [.obj (.view1D .mat) .d true, .obj (.view1D .ten) .d false]),
  (.blas_copy, [.obj (.view1D .ten) .d true, .obj .vector .d false]),
  (.blas_copy, [.obj (.view1D .ten) .d true, .obj (.view1D .vec) .d false]),
  (.blas_copy, [.obj (.view1D .ten) .d true, .obj (.view1D .mat) .d false]),
  (.blas_copy, [.obj (.view1D .ten) .d true, .obj (.view1D .ten) .d false]),
  (.blas_copy, [.obj .vector .s true, .obj .vector .s false]),
  (.blas_copy, [.obj .vector .s true, .obj (.view1D .vec) .s false]),
  (.blas_copy, [.obj .vector .s true, .obj (.view1D .mat) .s false]),
  (.blas_copy, [.obj .vector .s true, .obj (.view1D .ten) .s false]),
  (.blas_copy, [.obj (.view1D .vec) .s true, .obj .vector .s false]),
  (.blas_copy, [.obj (.view1D .vec) .s true, .obj (.view1D .vec) .s false]),
  (.blas_copy, [.obj (.view1D .vec) .s true, .obj (.view1D .mat) .s false]),
  (.blas_copy, [.obj (.view1D .vec) .s true, .obj (.view1D .ten) .s false]),
  (.blas_copy, [.obj (.view1D .mat) .s true, .obj .vector .s false]),
  (.blas_copy, [.obj (.view1D .mat) .s true, .obj (.view1D .vec) .s false]),
  (.blas_copy, [.obj (.view1D .mat) .s true, .obj (.view1D .mat) .s false]),
  (.blas_copy, [.obj (.view1D .mat) .s true, .obj (.view1D .ten) .s false]),
  (.blas_copy, [.obj (.view1D .ten) .s true, .obj .vector .s false]),
  (.blas_copy, [.obj (.view1D .ten) .s true, .obj (.view1D .vec) .s false]),
  (.blas_copy, [.obj (.view1D .ten) .s true, .obj (.view1D .mat) .s false]),
  (.blas_copy, [.obj (.view1D .ten) .s true, .obj (.view1D .ten) .s false]),
  (.blas_axpy, [.scal .d, .obj .vector .d true, .obj .vector .d false]),
  (.blas_axpy, [.scal .d, .obj .vector .d true, .obj (.view1D .vec) .d false]),
  (.blas_axpy, [.scal .d, .obj .vector .d true, .obj (.view1D .mat) .d false]),
  (.blas_axpy, [.scal .d, .obj .vector .d true, .obj (.view1D .ten) .d false]),
  (.blas_axpy, [.scal .d, .obj (.view1D .vec) .d true, .obj .vector .d false]),
  (.blas_axpy, [.scal .d, .obj (.view1D .vec) .d true, .obj (.view1D .vec) .d false]),
  (.blas_axpy, [.scal .d, .obj (.view1D .vec) .d true, .obj (.view1D .mat) .d false]),
  (.blas_axpy, [.scal .d, .obj (.view1D .vec) .d true, .obj (.view1D .ten) .d false]),
  (.blas_axpy, [.scal .d, .obj (.view1D .mat) .d true, .obj .vector .d false]),
  (.blas_axpy, [.scal .d, .obj (.view1D .mat) .d true, .obj (.view1D .vec) .d false]),
  (.blas_axpy, [.scal .d, .obj (.view1D .mat) .d true, .obj (.view1D .mat) .d false]),
  (.blas_axpy, [.scal .d, .obj (.view1D .mat) .d true, .obj (.view1D .ten) .d false]),
  (.blas_axpy, [.scal .d, .obj (.view1D .ten) .d true, .obj .vector .d false]),
  (.blas_axpy, [.scal .d, .obj (.view1D .ten) .d true, .obj (.view1D .vec) .d false]),
  (.blas_axpy, [.scal .d, .obj (.view1D .ten) .d true, .obj (.view1D .mat) .d false]),
  (.blas_axpy, [.scal .d, .obj (.view1D .ten) .d true, .obj (.view1D .ten) .d false]),
  (.blas_axpy, [.scal .s, .obj .vector .s true, .obj .vector .s false]),
  (.blas_axpy, [.scal .s, .obj .vector .s true, .obj (.view1D .vec) .s false]),
  (.blas_axpy, [.scal .s, .obj .vector .s true, .obj (.view1D .mat) .s false]),
  (.blas_axpy, [.scal .s, .obj .vector .s true, .obj (.view1D .ten) .s false]),
  (.blas_axpy, [.scal .s, .obj (.view1D .vec) .s true, .obj .vector .s false]),
  (.blas_axpy, [.scal .s, .obj (.view1D .vec) .s true, .obj (.view1D .vec) .s false]),
  (.blas_axpy, [.scal .s, .obj (.view1D .vec) .s true, .obj (.view1D .mat) .s false]),
  (.blas_axpy, [.scal .s, .obj (.view1D .vec) .s true, .obj (.view1D .ten) .s false]),
  (.blas_axpy, [.scal .s, .obj (.view1D .mat) .s true, .obj .vector .s false]),
  (.blas_axpy, [.scal .s, .obj (.view1D .mat) .s true, .obj (.view1D .vec) .s false]),
  (.blas_axpy, [.scal .s, .obj (.view1D .mat) .s true, .obj (.view1D .mat) .s false]),
  (.blas_axpy, [.scal .s, .obj (.view1D .mat) .s true, .obj (.view1D .ten) .s false]),
  (.blas_axpy, [.scal .s, .obj (.view1D .ten) .s true, .obj .vector .s false]),
  (.blas_axpy, [.scal .s, .obj (.view1D .ten) .s true, .obj (.view1D .vec) .s false]),
  (.blas_axpy, [.scal .s, .obj (.view1D .ten) .s true, .obj (.view1D .mat) .s false]),
  (.blas_axpy, [.scal .s, .obj (.view1D .ten) .s true, .obj (.view1D .ten) .s false])]

/-- the overloads of `tBlasVec_6` that are declared -/
def hBlasVec_6 : List (Fn × List Par) := [
  (.blas_axpyz, [.scal .d, .obj .vector .d true, .obj .vector .d true, .obj .vector .d false]),
  (.blas_axpyz, [.scal .d, .obj .vector .d true, .obj .vector .d true, .obj (.view1D .vec) .d false]),
  (.blas_axpyz, [.scal .d, .obj .vector .d true, .obj .vector .d true, .obj (.view1D .mat) .d false]),
  (.blas_axpyz, [.scal .d, .obj .vector .d true, .obj .vector .d true, .obj (.view1D .ten) .d false]),
  (.blas_axpyz, [.scal .d, .obj .vector .d true, .obj (.view1D .vec) .d true, .obj .vector .d false]),
  (.blas_axpyz, [.scal .d, .obj .vector .d true, .obj (.view1D .vec) .d true, .obj (.view1D .vec) .d false]),
  (.blas_axpyz, [.scal .d, .obj .vector .d true, .obj (.view1D .vec) .d true, .obj (.view1D .mat) .d false]),
  (.blas_axpyz, [.scal .d, .obj .vector .d true, .obj (.view1D .vec) .d true, .obj (.view1D .ten) .d false]),
  (.blas_axpyz, [.scal .d, .obj .vector .d true, .obj (.view1D .mat) .d true, .obj .vector .d false]),
  (.blas_axpyz, [.scal .d, .obj .vector .d true, .obj (.view1D .mat) .d true, .obj (.view1D .vec) .d false]),
  (.blas_axpyz, [.scal .d, .obj .vector .d true, .obj (.view1D .mat) .d true, .obj (.view1D .mat) .d false]),
  (.blas_axpyz, [.scal .d, .obj .vector .d true, .obj (.view1D .mat) .d true, .obj (.view1D .ten) .d false]),
  (.blas_axpyz, [.scal .d, .obj .vector .d true, .obj (.view1D .ten) .d true, .obj .vector .d false]),
  (.blas_axpyz, [.scal .d, .obj .vector .d true, .obj (.view1D .ten) .d true, .obj (.view1D .vec) .d false]),
  (.blas_axpyz, [.scal .d, .obj .vector .d true, .obj (.view1D .ten) .d true, .obj (.view1D .mat) .d false]),
  (.blas_axpyz, [.scal .d, .obj .vector .d true, .obj (.view1D .ten) .d true, .obj (.view1D .ten) .d false]),
  (.blas_axpyz, [.scal .d, .obj (.view1D .vec) .d true, .obj .vector .d true, .obj .vector .d false]),
  (.blas_axpyz, [.scal .d, .obj (.view1D .vec) .d true, .obj .vector .d true, .obj (.view1D .vec) .d false]),
  (.blas_axpyz, [.scal .d, .obj (.view1D .vec) .d true, .obj .vector .d true, .obj (.view1D .mat) .d false]),
  (.blas_axpyz, [.scal .d, .obj (.view1D .vec) .d true, .obj .vector .d true, .obj (.view1D .ten) .d false]),
  (.blas_axpyz, [.scal .d, .obj (.view1D .vec) .d true, .obj (.view1D .vec) .d true, .obj .vector .d false]),
  (.blas_axpyz, [.scal .d, .obj (.view1D .vec) .d true, .obj (.view1D .vec) .d true, .obj (.view1D .vec) .d false]),
  (.blas_axpyz, [.scal .d, .obj (.view1D .vec) .d true, .obj (.view1D .vec) .d true, .obj (.view1D .mat) .d false]),
  (.blas_axpyz, [.scal .d, .obj (.view1D .vec) .d true, .obj (.view1D .vec) .d true, .obj (.view1D .ten) .d false]),
  (.blas_axpyz, [.scal .d, .obj (.view1D .vec) .d true, .obj (.view1D .mat) .d true, .obj .vector .d false]),
  (.blas_axpyz, [.scal .d, .obj (.view1D .vec) .d true, .obj (.view1D .mat) .d true, .obj (.view1D .vec) .d false]),
  (.blas_axpyz, [.scal .d, .obj (.view1D .vec) .d true, .obj (.view1D .mat) .d true, .obj (.view1D .mat) .d false]),
  (.blas_axpyz, [.scal .d, .obj (.view1D .vec) .d true, .obj (.view1D .mat) .d true, .obj (.view1D .ten) .d false]),
  (.blas_axpyz, [.scal .d, .obj (.view1D .vec) .d true, .obj (.view1D .ten) .d true, .obj .vector .d false]),
  (.blas_axpyz, [.scal .d, .obj (.view1D .vec) .d true, .obj (.view1D .ten) .d true, .obj (.view1D .vec) .d false]),
  (.blas_axpyz, [.scal .d, .obj (.view1D .vec) .d true, .obj (.view1D .ten) .d true, .obj (.view1D .mat) .d false]),
  (.blas_axpyz, [.scal .d, .obj (.view1D .vec) .d true, .obj (.view1D .ten) .d true, .obj (.view1D .ten) .d false]),
  (.blas_axpyz, [.scal .d, .obj (.view1D .mat) .d true, .obj .vector .d true, .obj .vector .d false]),
  (.blas_axpyz, [.scal .d, .obj (.view1D .mat) .d true, .obj .vector .d true, .obj (.view1D .vec) .d false]),
  (.blas_axpyz, [.scal .d, .obj (.view1D .mat) .d true, .obj .vector .d true, .obj (.view1D .mat) .d false]),
  (.blas_axpyz, [.scal .d, .obj (.view1D .mat) .d true, .obj .vector .d true, .obj (.view1D .ten) .d false]),
  (.blas_axpyz, [.scal .d, .obj (.view1D .mat) .d true, .obj (.view1D .vec) .d true, .obj .vector .d false]),
  (.blas_axpyz, [.scal .d, .obj (.view1D .mat) .d true, .obj (.view1D .vec) .d true, .obj (.view1D .vec) .d false]),
  (.blas_axpyz, [.scal .d, .obj (.view1D .mat) .d true, .obj (.view1D .vec) .d true, .obj (.view1D .mat) .d false]),
  (.blas_axpyz, [.scal .d, .obj (.view1D .mat) .d true, .obj (.view1D .vec) .d true, .obj (.view1D .ten) .d false]),
  (.blas_axpyz, [.scal .d, .obj (.view1D .mat) .d true, .obj (.view1D .mat) .d true, .obj .vector .d false]),
  (.blas_axpyz, [.scal .d, .obj (.view1D .mat) .d true, .obj (.view1D .mat) .d true, .obj (.view1D .vec) .d false]),
  (.blas_axpyz, [.scal .d, .obj (.view1D .mat) .d true, .obj (.view1D .mat) .d true, .obj (.view1D .mat) .d false]),
  (.blas_axpyz, [.scal .d, .obj (.view1D .mat) .d true, .obj (.view1D .mat) .d true, .obj (.view1D .ten) .d false]),
  (.blas_axpyz, [.scal .d, .obj (.view1D .mat) .d true, .obj (.view1D .ten) .d true, .obj .vector .d false]),
  (.blas_axpyz, [.scal .d, .obj (.view1D .mat) .d true, .obj (.view1D .ten) .d true, .obj (.view1D .vec) .d false]),
  (.blas_axpyz, [.scal .d, .obj (.view1D .mat) .d true, .obj (.view1D .ten) .d true, .obj (.view1D .mat) .d false]),
  (.blas_axpyz, [.scal .d, .obj (.view1D .mat) .d true, .obj (.view1D .ten) .d true, .obj (.view1D .ten) .d false]),
  (.blas_axpyz, [.scal .d, .obj (.view1D .ten) .d true, .obj .vector .d true, .obj .vector .d false]),
  (.blas_axpyz, [.scal .d, .obj (.view1D .ten) .d true, .obj .vector .d true, .obj (.view1D .vec) .d false]),
  (.blas_axpyz, [.scal .d, .obj (.view1D .ten) .d true, .obj .vector .d true, .obj (.view1D .mat) .d false]),
  (.blas_axpyz, [.scal .d, .obj (.view1D .ten) .d true, .obj .vector .d true, .obj (.view1D .ten) .d false]),
  (.blas_axpyz, [.scal .d, .obj (.view1D .ten) .d true, .obj (.view1D .vec) .d true, .obj .vector .d false]),
  (.blas_axpyz, [.scal .d, .obj (.view1D .ten) .d true, .obj (.view1D .vec) .d true, .obj (.view1D .vec) .d false]),
  (.blas_axpyz, [.scal .d, .obj (.view1D .ten) .d true, .obj (.view1D .vec) .d true, .obj (.view1D .mat) .d false]),
  (.blas_axpyz, [.scal .d, .obj (.view1D .ten) .d true, .obj (.view1D .vec) .d true, .obj (.view1D .ten) .d false]),
  (.blas_axpyz, [.scal .d, .obj (.view1D .ten) .d true, .obj (.view1D .mat) .d true, .obj .vector .d false]),
  (.blas_axpyz, [.scal .d, .obj (.view1D .ten) .d true, .obj (.view1D .mat) .d true, .obj (.view1D .vec) .d false]),
  (.blas_axpyz, [.scal .d, .obj (.view1D .ten) .d true, .obj (.view1D .mat) .d true, .obj (.view1D .mat) .d false]),
  (.blas_axpyz, [.scal .d, .obj (.view1D .ten) .d true, .obj (.view1D .mat) .d true, .obj (.view1D .ten) .d false]),
  (.blas_axpyz, [.scal .d, .obj (.view1D .ten) .d true, .obj (.view1D .ten) .d true, .obj .vector .d false]),
  (.blas_axpyz, [.scal .d, .obj (.view1D .ten) .d true, .obj (.view1D .ten) .d true, .obj (.view1D .vec) .d false]),
  (.blas_axpyz, [.scal .d, .obj (.view1D .ten) .d true, .obj (.view1D .ten) .d true, .obj (.view1D .mat) .d false]),
  (.blas_axpyz, [.scal .d, .obj (.view1D .ten) .d true, .obj (.view1D .ten) .d true, .obj (.view1D .ten) .d false]),
  (.blas_axpyz, [.scal .s, .obj .vector .s true, .obj .vector .s true, .obj .vector .s false]),
  (.blas_axpyz, [.scal .s, .obj .vector .s true, .obj .vector .s true, .obj (.view1D .vec) .s false]),
  (.blas_axpyz, [.scal .s, .obj .vector .s true, .obj .vector .s true, .obj (.view1D .mat) .s false]),
  (.blas_axpyz, [.scal .s, .obj .vector .s true, .obj .vector .s true, .obj (.view1D .ten) .s false]),
  (.blas_axpyz, [.scal .s, .obj .vector .s true, .obj (.view1D .vec) .s true, .obj .vector .s false]),
  (.blas_axpyz, [.scal .s, .obj .vector .s true, .obj (.view1D .vec) .s true, .obj (.view1D .vec) .s false]),
  (.blas_axpyz, [.scal .s, .obj .vector .s true, .obj (.view1D .vec) .s true, .obj (.view1D .mat) .s false]),
  (.blas_axpyz, [.scal .s, .obj .vector .s true, .obj (.view1D .vec) .s true, .obj (.view1D .ten) .s false]),
  (.blas_axpyz, [.scal .s, .obj .vector .s true, .obj (.view1D .mat) .s true, .obj .vector .s false]),
  (.blas_axpyz, [.scal .s, .obj .vector .s true, .obj (.view1D .mat) .s true, .obj (.view1D .vec) .s false]),
  (.blas_axpyz, [.scal .s, .obj .vector .s true, .obj (.view1D .mat) .s true, .obj (.view1D .mat) .s false]),
  (.blas_axpyz, [.scal .s, .obj .vector .s true, .obj (.view1D .mat) .s true, .obj (.view1D .ten) .s false]),
  (.blas_axpyz, [.scal .s, .obj .vector .s true, .obj (.view1D .ten) .s true, .obj .vector .s false]),
  (.blas_axpyz, [.scal .s, .obj .vector .s true, .obj (.view1D .ten) .s true, .obj (.view1D .vec) .s false]),
  (.blas_axpyz, [.scal .s, .obj .vector .s true, .obj (.view1D .ten) .s true, .obj (.view1D .mat) .s false]),
  (.blas_axpyz, [.scal .s, .obj .vector .s true, .obj (.view1D .ten) .s true, .obj (.view1D .ten) .s false])]

/-- the overloads of `tBlasVec_7` that are declared -/
def hBlasVec_7 : List (Fn × List Par) := [
  (.blas_axpyz, [.scal .s, .obj (.view1D .vec) .s true, .obj .vector .s true, .obj .vector .s false]),
  (.blas_axpyz, [.scal .s, .obj (.view1D .vec) .s true, .obj .vector .s true, .obj (.view1D .vec) .s false]),
  (.blas_axpyz, [.scal .s, .obj (.view1D .vec) .s true, .obj .vector .s true, .obj (.view1D .mat) .s false]),
  (.blas_axpyz, [.scal .s, .obj (.view1D .vec) .s true, .obj .vector .s true, .obj (.view1D .ten) .s false]),
  (.blas_axpyz, [.scal .s, .obj (.view1D .vec) .s true, .obj (.view1D .vec) .s true, .obj .vector .s false]),
  (.blas_axpyz, [.scal .s, .obj (.view1D .vec) .s true, .obj (.view1D .vec) .s true, .obj (.view1D .vec) .s false]),
  (.blas_axpyz, [.scal .s, .obj (.view1D .vec) .s true, .obj (.view1D .vec) .s true, .obj (.view1D .mat) .s false]),
  (.blas_axpyz, [.scal .s, .obj (.view1D .vec) .s true, .obj (.view1D .vec) .s true, .obj (.view1D .ten) .s false]),
  (.blas_axpyz, [.scal .s, .obj (.view1D .vec) .s true, .obj (.view1D .mat) .s true, .obj .vector .s false]),
  (.blas_axpyz, [.scal .s, .obj (.view1D .vec) .s true, .obj (.view1D .mat) .s true, .obj (.view1D .vec) .s false]),
  (.blas_axpyz, [.scal .s, .obj (.view1D .vec) .s true, .obj (.view1D .mat) .s true, .obj (.view1D .mat) .s false]),
  (.blas_axpyz, [.scal .s, .obj (.view1D .vec) .s true, .obj (.view1D .mat) .s true, .obj (.view1D .ten) .s false]),
  (.blas_axpyz, [.scal .s, .obj (.view1D .vec) .s true, .obj (.view1D .ten) .s true, .obj .vector .s false]),
  (.blas_axpyz, [.scal .s, .obj (.view1D .vec) .s true, .obj (.view1D .ten) .s true, .obj (.view1D .vec) .s false]),
  (.blas_axpyz, [.scal .s, .obj (.view1D .vec) .s true, .obj (.view1D .ten) .s true, .obj (.view1D .mat) .s false]),
  (.blas_axpyz, [.scal .s, .obj (.view1D .vec) .s true, .obj (.view1D .ten) .s true, .obj (.view1D .ten) .s false]),
  (.blas_axpyz, [.scal .s, .obj (.view1D .mat) .s true, .obj .vector .s true, .obj .vector .s false]),
  (.blas_axpyz, [.scal .s, .obj (.view1D .mat) .s true, .obj .vector .s true, .obj (.view1D .vec) .s false]),
  (.blas_axpyz, [.scal .s, .obj (.view1D .mat) .s true, .obj .vector .s true, .obj (.view1D .mat) .s false]),
  (.blas_axpyz, [.scal .s, .obj (.view1D .mat) .s true, .obj .vector .s true, .obj (.view1D .ten) .s false]),
  (.blas_axpyz, [.scal .s, .obj (.view1D .mat) .s true, .obj (.view1D .vec) .s true, .obj .vector .s false]),
  (.blas_axpyz, [.scal .s, .obj (.view1D .mat) .s true, .obj (.view1D .vec) .s true, .obj (.view1D .vec) .s false]),
  (.blas_axpyz, [.scal .s, .obj (.view1D .mat) .s true, .obj (.view1D .vec) .s true, .obj (.view1D .mat) .s false]),
  (.blas_axpyz, [.scal .s, .obj (.view1D .mat) .s true, .obj (.view1D .vec) .s true, .obj (.view1D .ten) .s false]),
  (.blas_axpyz, [.scal .s, .obj (.view1D .mat) .s true, .obj (.view1D .mat) .s true, .obj .vector .s false]),
  (.blas_axpyz, [.scal .s, .obj (.view1D .mat) .s true, .obj (.view1D .mat) .s true, .obj (.view1D .vec) .s false]),
  (.blas_axpyz, [.scal .s, .obj (.view1D .mat) .s true, .obj (.view1D .mat) .s true, .obj (.view1D .mat) .s false]),
  (.blas_axpyz, [.scal .s, .obj (.view1D .mat) .s true, .obj (.view1D .mat) .s true, .obj (.view1D .ten) .s false]),
  (.blas_axpyz, [.scal .s, .obj (.view1D .mat) .s true, .obj (.view1D .ten) .s true, .obj .vector .s false]),
  (.blas_axpyz, [.scal .s, .obj (.view1D .mat) .s true, .obj (.view1D .ten) .s true, .obj (.view1D .vec) .s false]),
  (.blas_axpyz, [.scal .s, .obj (.view1D .mat) .s true, .obj (.view1D .ten) .s true, .obj (.view1D .mat) .s false]),
  (.blas_axpyz, [.scal .s, .obj (.view1D .mat) .s true, .obj (.view1D .ten) .s true, .obj (.view1D .ten) .s false]),
  (.blas_axpyz, [.scal .s, .obj (.view1D .ten) .s true, .obj .vector .s true, .obj .vector .s false]),
  (.blas_axpyz, [.scal .s, .obj (.view1D .ten) .s true, .obj .vector .s true, .obj (.view1D .vec) .s false]),
  (.blas_axpyz, [.scal .s, .obj (.view1D .ten) .s true, .obj .vector .s true, .obj (.view1D .mat) .s false]),
  (.blas_axpyz, [.scal .s, .obj (.view1D .ten) .s true, .obj .vector .s true, .obj (.view1D .ten) .s false]),
  (.blas_axpyz, [.scal .s, .obj (.view1D .ten) .s true, .obj (.view1D .vec) .s true, .obj .vector .s false]),
  (.blas_axpyz, [.scal .s, .obj (.view1D .ten) .s true, .obj (.view1D .vec) .s true, .obj (.view1D .vec) .s false]),
  (.blas_axpyz, [.scal .s, .obj (.view1D .ten) .s true, .obj (.view1D .vec) .s true, .obj (.view1D .mat) .s false]),
  (.blas_axpyz, [.scal .s, .obj (.view1D .ten) .s true, .obj (.view1D .vec) .s true, .obj (.view1D .ten) .s false]),
  (.blas_axpyz, [.scal .s, .obj (.view1D .ten) .s true, .obj (.view1D .mat) .s true, .obj .vector .s false]),
  (.blas_axpyz, [.scal .s, .obj (.view1D .ten) .s true, .obj (.view1D .mat) .s true, .obj (.view1D .vec) .s false]),
  (.blas_axpyz, [.scal .s, .obj (.view1D .ten) .s true, .obj (.view1D .mat) .s true, .obj (.view1D .mat) .s false]),
  (.blas_axpyz, [.scal .s, .obj (.view1D .ten) .s true, .obj (.view1D .mat) .s true, .obj (.view1D .ten) .s false]),
  (.blas_axpyz, [.scal .s, .obj (.view1D .ten) .s true, .obj (.view1D .ten) .s true, .obj .vector .s false]),
  (.blas_axpyz, [.scal .s, .obj (.view1D .ten) .s true, .obj (.view1D .ten) .s true, .obj (.view1D .vec) .s false]),
  (.blas_axpyz, [.scal .s, .obj (.view1D .ten) .s true, .obj (.view1D .ten) .s true, .obj (.view1D .mat) .s false]),
  (.blas_axpyz, [.scal .s, .obj (.view1D .ten) .s true, .obj (.view1D .ten) .s true, .obj (.view1D .ten) .s false]),
  (.blas_scal, [.scal .d, .obj .vector .d false]),
  (.blas_scal, [.scal .d, .obj (.view1D .vec) .d false]),
  (.blas_scal, [.scal .d, .obj (.view1D .mat) .d false]),
  (.blas_scal, [.scal .d, .obj (.view1D .ten) .d false]),
  (.blas_scal, [.scal .s, .obj .vector .s false]),
  (.blas_scal, [.scal .s, .obj (.view1D .vec) .s false]),
  (.blas_scal, [.scal .s, .obj (.view1D .mat) .s false]),
  (.blas_scal, [.scal .s, .obj (.view1D .ten) .s false]),
  (.blas_xpay, [.scal .d, .obj .vector .d true, .obj .vector .d false]),
  (.blas_xpay, [.scal .d, .obj .vector .d true, .obj (.view1D .vec) .d false]),
  (.blas_xpay, [.scal .d, .obj .vector .d true, .obj (.view1D .mat) .d false]),
  (.blas_xpay, [.scal .d, .obj .vector .d true, .obj (.view1D .ten) .d false]),
  (.blas_xpay, [.scal .d, .obj (.view1D .vec) .d true, .obj .vector .d false]),
  (.blas_xpay, [.scal .d, .obj (.view1D .vec) .d true, .obj (.view1D .vec) .d false]),
  (.blas_xpay, [.scal .d, .obj (.view1D .vec) .d true, .obj (.view1D .mat) .d false]),
  (.blas_xpay, [.scal .d, .obj (.view1D .vec) .d true, .obj (.view1D .ten) .d false]),
  (.blas_xpay, [.scal .d, .obj (.view1D .mat) .d true, .obj .vector .d false]),
  (.blas_xpay, [.scal .d, .obj (.view1D .mat) .d true, .obj (.view1D .vec) .d false]),
  (.blas_xpay, [.scal .d, .obj (.view1D .mat) .d true, .obj (.view1D .mat) .d false]),
  (.blas_xpay, [.scal .d, .obj (.view1D .mat) .d true, .obj (.view1D .ten) .d false]),
  (.blas_xpay, [.scal .d, .obj (.view1D .ten) .d true, .obj .vector .d false]),
  (.blas_xpay, [.scal .d, .obj (.view1D .ten) .d true, .obj (.view1D .vec) .d false]),
  (.blas_xpay, [.scal .d, .obj (.view1D .ten) .d true, .obj (.view1D .mat) .d false]),
  (.blas_xpay, [.scal .d, .obj (.view1D .ten) .d true, .obj (.view1D .ten) .d false]),
  (.blas_xpay, [.scal .s, .obj .vector .s true, .obj .vector .s false]),
  (.blas_xpay, [.scal .s, .obj .vector .s true, .obj (.view1D .vec) .s false]),
  (.blas_xpay, [.scal .s, .obj .vector .s true, .obj (.view1D .mat) .s false]),
  (.blas_xpay, [.scal .s, .obj .vector .s true, .obj (.view1D .ten) .s false]),
  (.blas_xpay, [.scal .s, .obj (.view1D .vec) .s true, .obj .vector .s false]),
  (.blas_xpay, [.scal .s, .obj (.view1D .vec) .s true, .obj (.view1D .vec) .s false]),
  (.blas_xpay, [.scal .s, .obj (.view1D .vec) .s true, .obj (.view1D .mat) .s false]),
  (.blas_xpay, [.scal .s, .obj (.view1D .vec) .s true, .obj (.view1D .ten) .s false])]

/-- the overloads of `tBlasVec_8` that are declared -/
def hBlasVec_8 : List (Fn × List Par) := [
  (.blas_xpay, [.scal .s, .obj (.view1D .mat) .s true, .obj .vector .s false]),
  (.blas_xpay, [.scal .s, .obj (.view1D .mat) .s true, .obj (.view1D .vec) .s false]),
  (.blas_xpay, [.scal .s, .obj (.view1D .mat) .s true, .obj (.view1D .mat) .s false]),
  (.blas_xpay, [.scal .s, .obj (.view1D .mat) .s true, .obj (.view1D .ten) .s false]),
  (.blas_xpay, [.scal .s, .obj (.view1D .ten) .s true, .obj .vector .s false]),
  (.blas_xpay, [.scal .s, .obj (.view1D .ten) .s true, .obj (.view1D .vec) .s false]),
  (.blas_xpay, [.scal .s, .obj (.view1D .ten) .s true, .obj (.view1D .mat) .s false]),
  (.blas_xpay, [.scal .s, .obj (.view1D .ten) .s true, .obj (.view1D .ten) .s false])]

/-- the overloads of `tBlasMatAddSub_0` that are declared -/
def hBlasMatAddSub_0 : List (Fn × List Par) := [
  (.blas_matadd, [.obj .dense .d true, .obj .dense .d true, .obj .dense .d false]),
  (.blas_matadd, [.obj .dense .d true, .obj .dense .d true, .obj (.viewDense .vec) .d false]),
  (.blas_matadd, [.obj .dense .d true, .obj .dense .d true, .obj (.viewDense .mat) .d false]),
  (.blas_matadd, [.obj .dense .d true, .obj .dense .d true, .obj (.viewDense .ten) .d false]),
  (.blas_matadd, [.obj .dense .d true, .obj (.viewDense .vec) .d true, .obj .dense .d false]),
  (.blas_matadd, [.obj .dense .d true, .obj (.viewDense .vec) .d true, .obj (.viewDense .vec) .d false]),
  (.blas_matadd, [.obj .dense .d true, .obj (.viewDense .vec) .d true, .obj (.viewDense .mat) .d false]),
  (.blas_matadd, [.obj .dense .d true, .obj (.viewDense .vec) .d true, .obj (.viewDense .ten) .d false]),
  (.blas_matadd, [.obj .dense .d true, .obj (.viewDense .mat) .d true, .obj .dense .d false]),
  (.blas_matadd, [.obj .dense .d true, .obj (.viewDense .mat) .d true, .obj (.viewDense .vec) .d false]),
  (.blas_matadd, [.obj .dense .d true, .obj (.viewDense .mat) .d true, .obj (.viewDense .mat) .d false]),
  (.blas_matadd, [.obj .dense .d true, .obj (.viewDense .mat) .d true, .obj (.viewDense .ten) .d false]),
  (.blas_matadd, [.obj .dense .d true, .obj (.viewDense .ten) .d true, .obj .dense .d false]),
  (.blas_matadd, [.obj .dense .d true, .obj (.viewDense .ten) .d true, .obj (.viewDense .vec) .d false]),
  (.blas_matadd, [.obj .dense .d true, .obj (.viewDense .ten) .d true, .obj (.viewDense .mat) .d false]),
  (.blas_matadd, [.obj .dense .d true, .obj (.viewDense .ten) .d true, .obj (.viewDense .ten) .d false]),
  (.blas_matadd, [.obj (.viewDense .vec) .d true, .obj .dense .d true, .obj .dense .d false]),
  (.blas_matadd, [.obj (.viewDense .vec) .d true, .obj .dense .d true, .obj (.viewDense .vec) .d false]),
  (.blas_matadd, [.obj (.viewDense .vec) .d true, .obj .dense .d true, .obj (.viewDense .mat) .d false]),
  (.blas_matadd, [.obj (.viewDense .vec) .d true, .obj .dense .d true, .obj (.viewDense .ten) .d false]),
  (.blas_matadd, [.obj (.viewDense .vec) .d true, .obj (.viewDense .vec) .d true, .obj .dense .d false]),
  (.blas_matadd, [.obj (.viewDense .vec) .d true, .obj (.viewDense .vec) .d true, .obj (.viewDense .vec) .d false]),
  (.blas_matadd, [.obj (.viewDense .vec) .d true, .obj (.viewDense .vec) .d true, .obj (.viewDense .mat) .d false]),
  (.blas_matadd, [.obj (.viewDense .vec) .d true, .obj (.viewDense .vec) .d true, .obj (.viewDense .ten) .d false]),
  (.blas_matadd, [.obj (.viewDense .vec) .d true, .obj (.viewDense .mat) .d true, .obj .dense .d false]),
  (.blas_matadd, [.obj (.viewDense .vec) .d true, .obj (.viewDense .mat) .d true, .obj (.viewDense .vec) .d false]),
  (.blas_matadd, [.obj (.viewDense .vec) .d true, .obj (.viewDense .mat) .d true, .obj (.viewDense .mat) .d false]),
  (.blas_matadd, [.obj (.viewDense .vec) .d true, .obj (.viewDense .mat) .d true, .obj (.viewDense .ten) .d false]),
  (.blas_matadd, [.obj (.viewDense .vec) .d true, .obj (.viewDense .ten) .d true, .obj .dense .d false]),
  (.blas_matadd, [.obj (.viewDense .vec) .d true, .obj (.viewDense .ten) .d true, .obj (.viewDense .vec) .d false]),
  (.blas_matadd, [.obj (.viewDense .vec) .d true, .obj (.viewDense .ten) .d true, .obj (.viewDense .mat) .d false]),
  (.blas_matadd, [.obj (.viewDense .vec) .d true, .obj (.viewDense .ten) .d true, .obj (.viewDense .ten) .d false]),
  (.blas_matadd, [.obj (.viewDense .mat) .d true, .obj .dense .d true, .obj .dense .d false]),
  (.blas_matadd, [.obj (.viewDense .mat) .d true, .obj .dense .d true, .obj (.viewDense .vec) .d false]),
  (.blas_matadd, [.obj (.viewDense .mat) .d true, .obj .dense .d true, .obj (.viewDense .mat) .d false]),
  (.blas_matadd, [.obj (.viewDense .mat) .d true, .obj .dense .d true, .obj (.viewDense .ten) .d false]),
  (.blas_matadd, [.obj (.viewDense .mat) .d true, .obj (.viewDense .vec) .d true, .obj .dense .d false]),
  (.blas_matadd, [.obj (.viewDense .mat) .d true, .obj (.viewDense .vec) .d true, .obj (.viewDense .vec) .d false]),
  (.blas_matadd, [.obj (.viewDense .mat) .d true, .obj (.viewDense .vec) .d true, .obj (.viewDense .mat) .d false]),
  (.blas_matadd, [.obj (.viewDense .mat) .d true, .obj (.viewDense .vec) .d true, .obj (.viewDense .ten) .d false]),
  (.blas_matadd, [.obj (.viewDense .mat) .d true, .obj (.viewDense .mat) .d true, .obj .dense .d false]),
  (.blas_matadd, [.obj (.viewDense .mat) .d true, .obj (.viewDense .mat) .d true, .obj (.viewDense .vec) .d false]),
  (.blas_matadd, [.obj (.viewDense .mat) .d true, .obj (.viewDense .mat) .d true, .obj (.viewDense .mat) .d false]),
  (.blas_matadd, [.obj (.viewDense .mat) .d true, .obj (.viewDense .mat) .d true, .obj (.viewDense .ten) .d false]),
  (.blas_matadd, [.obj (.viewDense .mat) .d true, .obj (.viewDense .ten) .d true, .obj .dense .d false]),
  (.blas_matadd, [.obj (.viewDense .mat) .d true, .obj (.viewDense .ten) .d true, .obj (.viewDense .vec) .d false]),
  (.blas_matadd, [.obj (.viewDense .mat) .d true, .obj (.viewDense .ten) .d true, .obj (.viewDense .mat) .d false]),
  (.blas_matadd, [.obj (.viewDense .mat) .d true, .obj (.viewDense .ten) .d true, .obj (.viewDense .ten) .d false]),
  (.blas_matadd, [.obj (.viewDense .ten) .d true, .obj .dense .d true, .obj .dense .d false]),
  (.blas_matadd, [.obj (.viewDense .ten) .d true, .obj .dense .d true, .obj (.viewDense .vec) .d false]),
  (.blas_matadd, [.obj (.viewDense .ten) .d true, .obj .dense .d true, .obj (.viewDense .mat) .d false]),
  (.blas_matadd, [.obj (.viewDense .ten) .d true, .obj .dense .d true, .obj (.viewDense .ten) .d false]),
  (.blas_matadd, [.obj (.viewDense .ten) .d true, .obj (.viewDense .vec) .d true, .obj .dense .d false]),
  (.blas_matadd, [.obj (.viewDense .ten) .d true, .obj (.viewDense .vec) .d true, .obj (.viewDense .vec) .d false]),
  (.blas_matadd, [.obj (.viewDense .ten) .d true, .obj (.viewDense .vec) .d true, .obj (.viewDense .mat) .d false]),
  (.blas_matadd, [.obj (.viewDense .ten) .d true, .obj (.viewDense .vec) .d true, .obj (.viewDense .ten) .d false]),
  (.blas_matadd, [.obj (.viewDense .ten) .d true, .obj (.viewDense .mat) .d true, .obj .dense .d false]),
  (.blas_matadd, [.obj (.viewDense .ten) .d true, .obj (.viewDense .mat) .d true, .obj (.viewDense .vec) .d false]),
  (.blas_matadd, [.obj (.viewDense .ten) .d true, .obj (.viewDense .mat) .d true, .obj (.viewDense .mat) .d false]),
  (.blas_matadd, [.obj (.viewDense .ten) .d true, .obj (.viewDense .mat) .d true, .obj (.viewDense .ten) .d false]),
  (.blas_matadd, [.obj (.viewDense .ten) .d true, .obj (.viewDense .ten) .d true, .obj .dense .d false]),
  (.blas_matadd, [.obj (.viewDense .ten) .d true, .obj (.viewDense .ten) .d true, .obj (.viewDense .vec) .d false]),
  (.blas_matadd, [.obj (.viewDense .ten) .d true, .obj (.viewDense .ten) .d true, .obj (.viewDense .mat) .d false]),
  (.blas_matadd, [.obj (.viewDense .ten) .d true, .obj (.viewDense .ten) .d true, .obj (.viewDense .ten) .d false]),
  (.blas_matadd, [.obj .dense .s true, .obj .dense .s true, .obj .dense .s false]),
  (.blas_matadd, [.obj .dense .s true, .obj .dense .s true, .obj (.viewDense .vec) .s false]),
  (.blas_matadd, [.obj .dense .s true, .obj .dense .s true, .obj (.viewDense .mat) .s false]),
  (.blas_matadd, [.obj .dense .s true, .obj .dense .s true, .obj (.viewDense .ten) .s false]),
  (.blas_matadd, [.obj .dense .s true, .obj (.viewDense .vec) .s true, .obj .dense .s false]),
  (.blas_matadd, [.obj .dense .s true, .obj (.viewDense .vec) .s true, .obj (.viewDense .vec) .s false]),
  (.blas_matadd, [.obj .dense .s true, .obj (.viewDense .vec) .s true, .obj (.viewDense .mat) .s false]),
  (.blas_matadd, [.obj .dense .s true, .obj (.viewDense .vec) .s true, .obj (.viewDense .ten) .s false]),
  (.blas_matadd, [.obj .dense .s true, .obj (.viewDense .mat) .s true, .obj .dense .s false]),
  (.blas_matadd, [.obj .dense .s true, .obj (.viewDense .mat) .s true, .obj (.viewDense .vec) .s false]),
  (.blas_matadd, [.obj .dense .s true, .obj (.viewDense .mat) .s true, .obj (.viewDense .mat) .s false]),
  (.blas_matadd, [.obj .dense .s true, .obj (.viewDense .mat) .s true, .obj (.viewDense .ten) .s false]),
  (.blas_matadd, [.obj .dense .s true, .obj (.viewDense .ten) .s true, .obj .dense .s false]),
  (.blas_matadd, [.obj .dense .s true, .obj (.viewDense .ten) .s true, .obj (.viewDense .vec) .s false]),
  (.blas_matadd, [.obj .dense .s true, .obj (.viewDense .ten) .s true, .obj (.viewDense .mat) .s false]),
  (.blas_matadd, [.obj .dense .s true, .obj (.viewDense .ten) .s true, .obj (.viewDense .ten) .s false])]

/-- the overloads of `tBlasMatAddSub_1` that are declared -/
def hBlasMatAddSub_1 : List (Fn × List Par) := [
  (.blas_matadd, [.obj (.viewDense .vec) .s true, .obj .dense .s true, .obj .dense .s false]),
  (.blas_matadd, [.obj (.viewDense .vec) .s true, .obj .dense .s true, .obj (.viewDense .vec) .s false]),
  (.blas_matadd, [.obj (.viewDense .vec) .s true, .obj .dense .s true, .obj (.viewDense .mat) .s false]),
  (.blas_matadd, [.obj (.viewDense .vec) .s true, .obj .dense .s true, .obj (.viewDense .ten) .s false]),
  (.blas_matadd, [.obj (.viewDense .vec) .s true, .obj (.viewDense .vec) .s true, .obj .dense .s false]),
  (.blas_matadd, [.obj (.viewDense .vec) .s true, .obj (.viewDense .vec) .s true, .obj (.viewDense .vec) .s false]),
  (.blas_matadd, [.obj (.viewDense .vec) .s true, .obj (.viewDense .vec) .s true, .obj (.viewDense .mat) .s false]),
  (.blas_matadd, [.obj (.viewDense .vec) .s true, .obj (.viewDense .vec) .s true, .obj (.viewDense .ten) .s false]),
  (.blas_matadd, [.obj (.viewDense .vec) .s true, .obj (.viewDense .mat) .s true, .obj .dense .s false]),
  (.blas_matadd, [.obj (.viewDense .vec) .s true, .obj (.viewDense .mat) .s true, .obj (.viewDense .vec) .s false]),
  (.blas_matadd, [.obj (.viewDense .vec) .s true, .obj (.viewDense .mat) .s true, .obj (.viewDense .mat) .s false]),
  (.blas_matadd, [.obj (.viewDense .vec) .s true, .obj (.viewDense .mat) .s true, .obj (.viewDense .ten) .s false]),
  (.blas_matadd, [.obj (.viewDense .vec) .s true, .obj (.viewDense .ten) .s true, .obj .dense .s false]),
  (.blas_matadd, [.obj (.viewDense .vec) .s true, .obj (.viewDense .ten) .s true, .obj (.viewDense .vec) .s false]),
  (.blas_matadd, [.obj (.viewDense .vec) .s true, .obj (.viewDense .ten) .s true, .obj (.viewDense .mat) .s false]),
  (.blas_matadd, [.obj (.viewDense .vec) .s true, .obj (.viewDense .ten) .s true, .obj (.viewDense .ten) .s false]),
  (.blas_matadd, [.obj (.viewDense .mat) .s true, .obj .dense .s true, .obj .dense .s false]),
  (.blas_matadd, [.obj (.viewDense .mat) .s true, .obj .dense .s true, .obj (.viewDense .vec) .s false]),
  (.blas_matadd, [.obj (.viewDense .mat) .s true, .obj .dense .s true, .obj (.viewDense .mat) .s false]),
  (.blas_matadd, [.obj (.viewDense .mat) .s true, .obj .dense .s true, .obj (.viewDense .ten) .s false]),
  (.blas_matadd, [.obj (.viewDense .mat) .s true, .obj (.viewDense .vec) .s true, .obj .dense .s false]),
  (.blas_matadd, [.obj (.viewDense .mat) .s true, .obj (.viewDense .vec) .s true, .obj (.viewDense .vec) .s false]),
  (.blas_matadd, [.obj (.viewDense .mat) .s true, .obj (.viewDense .vec) .s true, .obj (.viewDense .mat) .s false]),
  (.blas_matadd, [.obj (.viewDense .mat) .s true, .obj (.viewDense .vec) .s true, .obj (.viewDense .ten) .s false]),
  (.blas_matadd, [.obj (.viewDense .mat) .s true, .obj (.viewDense .mat) .s true, .obj .dense .s false]),
  (.blas_matadd, [.obj (.viewDense .mat) .s true, .obj (.viewDense .mat) .s true, .obj (.viewDense .vec) .s false]),
  (.blas_matadd, [.obj (.viewDense .mat) .s true, .obj (.viewDense .mat) .s true, .obj (.viewDense .mat) .s false]),
  (.blas_matadd, [.obj (.viewDense .mat) .s true, .obj (.viewDense .mat) .s true, .obj (.viewDense .ten) .s false]),
  (.blas_matadd, [.obj (.viewDense .mat) .s true, .obj (.viewDense .ten) .s true, .obj .dense .s false]),
  (.blas_matadd, [.obj (.viewDense .mat) .s true, .obj (.viewDense .ten) .s true, .obj (.viewDense .vec) .s false]),
  (.blas_matadd, [.obj (.viewDense .mat) .s true, .obj (.viewDense .ten) .s true, .obj (.viewDense .mat) .s false]),
  (.blas_matadd, [.obj (.viewDense .mat) .s true, .obj (.viewDense .ten) .s true, .obj (.viewDense .ten) .s false]),
  (.blas_matadd, [.obj (.viewDense .ten) .s true, .obj .dense .s true, .obj .dense .s false]),
  (.blas_matadd, [.obj (.viewDense .ten) .s true, .obj .dense .s true, .obj (.viewDense .vec) .s false]),
  (.blas_matadd, [.obj (.viewDense .ten) .s true, .obj .dense .s true, .obj (.viewDense .mat) .s false]),
  (.blas_matadd, [.obj (.viewDense .ten) .s true, .obj .dense .s true, .obj (.viewDense .ten) .s false]),
  (.blas_matadd, [.obj (.viewDense .ten) .s true, .obj (.viewDense .vec) .s true, .obj .dense .s false]),
  (.blas_matadd, [.obj (.viewDense .ten) .s true, .obj (.viewDense .vec) .s true, .obj (.viewDense .vec) .s false]),
  (.blas_matadd, [.obj (.viewDense .ten) .s true, .obj (.viewDense .vec) .s true, .obj (.viewDense .mat) .s false]),
  (.blas_matadd, [.obj (.viewDense .ten) .s true, .obj (.viewDense .vec) .s true, .obj (.viewDense .ten) .s false]),
  (.blas_matadd, [.obj (.viewDense .ten) .s true, .obj (.viewDense .mat) .s true, .obj .dense .s false]),
  (.blas_matadd, [.obj (.viewDense .ten) .s true, .obj (.viewDense .mat) .s true, .obj (.viewDense .vec) .s false]),
  (.blas_matadd, [.obj (.viewDense .ten) .s true, .obj (.viewDense .mat) .s true, .obj (.viewDense .mat) .s false]),
  (.blas_matadd, [.obj (.viewDense .ten) .s true, .obj (.viewDense .mat) .s true, .obj (.viewDense .ten) .s false]),
  (.blas_matadd, [.obj (.viewDense .ten) .s true, .obj (.viewDense .ten) .s true, .obj .dense .s false]),
  (.blas_matadd, [.obj (.viewDense .ten) .s true, .obj (.viewDense .ten) .s true, .obj (.viewDense .vec) .s false]),
  (.blas_matadd, [.obj (.viewDense .ten) .s true, .obj (.viewDense .ten) .s true, .obj (.viewDense .mat) .s false]),
  (.blas_matadd, [.obj (.viewDense .ten) .s true, .obj (.viewDense .ten) .s true, .obj (.viewDense .ten) .s false]),
  (.blas_matadd, [.obj .crs .d true, .obj .crs .d true, .obj .crs .d false]),
  (.blas_matadd, [.obj .crs .s true, .obj .crs .s true, .obj .crs .s false]),
  (.blas_matsub, [.obj .dense .d true, .obj .dense .d true, .obj .dense .d false]),
  (.blas_matsub, [.obj .dense .d true, .obj .dense .d true, .obj (.viewDense .vec) .d false]),
  (.blas_matsub, [.obj .dense .d true, .obj .dense .d true, .obj (.viewDense .mat) .d false]),
  (.blas_matsub, [.obj .dense .d true, .obj .dense .d true, .obj (.viewDense .ten) .d false]),
  (.blas_matsub, [.obj .dense .d true, .obj (.viewDense .vec) .d true, .obj .dense .d false]),
  (.blas_matsub, [.obj .dense .d true, .obj (.viewDense .vec) .d true, .obj (.viewDense .vec) .d false]),
  (.blas_matsub, [.obj .dense .d true, .obj (.viewDense .vec) .d true, .obj (.viewDense .mat) .d false]),
  (.blas_matsub, [.obj .dense .d true, .obj (.viewDense .vec) .d true, .obj (.viewDense .ten) .d false]),
  (.blas_matsub, [.obj .dense .d true, .obj (.viewDense .mat) .d true, .obj .dense .d false]),
  (.blas_matsub, [.obj .dense .d true, .obj (.viewDense .mat) .d true, .obj (.viewDense .vec) .d false]),
  (.blas_matsub, [.obj .dense .d true, .obj (.viewDense .mat) .d true, .obj (.viewDense .mat) .d false]),
  (.blas_matsub, [.obj .dense .d true, .obj (.viewDense .mat) .d true, .obj (.viewDense .ten) .d false]),
  (.blas_matsub, [.obj .dense .d true, .obj (.viewDense .ten) .d true, .obj .dense .d false]),
  (.blas_matsub, [.obj .dense .d true, .obj (.viewDense .ten) .d true, .obj (.viewDense .vec) .d false]),
  (.blas_matsub, [.obj .dense .d true, .obj (.viewDense .ten) .d true, .obj (.viewDense .mat) .d false]),
  (.blas_matsub, [.obj .dense .d true, .obj (.viewDense .ten) .d true, .obj (.viewDense .ten) .d false]),
  (.blas_matsub, [.obj (.viewDense .vec) .d true, .obj .dense .d true, .obj .dense .d false]),
  (.blas_matsub, [.obj (.viewDense .vec) .d true, .obj .dense .d true, .obj (.viewDense .vec) .d false]),
  (.blas_matsub, [.obj (.viewDense .vec) .d true, .obj .dense .d true, .obj (.viewDense .mat) .d false]),
  (.blas_matsub, [.obj (.viewDense .vec) .d true, .obj .dense .d true, .obj (.viewDense .ten) .d false]),
  (.blas_matsub, [.obj (.viewDense .vec) .d true, .obj (.viewDense .vec) .d true, .obj .dense .d false]),
  (.blas_matsub, [.obj (.viewDense .vec) .d true, .obj (.viewDense .vec) .d true, .obj (.viewDense .vec) .d false]),
  (.blas_matsub, [.obj (.viewDense .vec) .d true, .obj (.viewDense .vec) .d true, .obj (.viewDense .mat) .d false]),
  (.blas_matsub, [.obj (.viewDense .vec) .d true, .obj (.viewDense .vec) .d true, .obj (.viewDense .ten) .d false]),
  (.blas_matsub, [.obj (.viewDense .vec) .d true, .obj (.viewDense .mat) .d true, .obj .dense .d false]),
  (.blas_matsub, [.obj (.viewDense .vec) .d true, .obj (.viewDense .mat) .d true, .obj (.viewDense .vec) .d false]),
  (.blas_matsub, [.obj (.viewDense .vec) .d true, .obj (.viewDense .mat) .d true, .obj (.viewDense .mat) .d false]),
  (.blas_matsub, [.obj (.viewDense .vec) .d true, .obj (.viewDense .mat) .d true, .obj (.viewDense .ten) .d false]),
  (.blas_matsub, [.obj (.viewDense .vec) .d true, .obj (.viewDense .ten) .d true, .obj .dense .d false]),
  (.blas_matsub, [.obj (.viewDense .vec) .d true, .obj (.viewDense .ten) .d true, .obj (.viewDense .vec) .d false])]

/-- the overloads of `tBlasMatAddSub_2` that are declared -/
def hBlasMatAddSub_2 : List (Fn × List Par) := [
  (.blas_matsub, [.obj (.viewDense .vec) .d true, .obj (.viewDense .ten) .d true, .obj (.viewDense .mat) .d false]),
  (.blas_matsub, [.obj (.viewDense .vec) .d true, .obj (.viewDense .ten) .d true, .obj (.viewDense .ten) .d false]),
  (.blas_matsub, [.obj (.viewDense .mat) .d true, .obj .dense .d true, .obj .dense .d false]),
  (.blas_matsub, [.obj (.viewDense .mat) .d true, .obj .dense .d true, .obj (.viewDense .vec) .d false]),
  (.blas_matsub, [.obj (.viewDense .mat) .d true, .obj .dense .d true, .obj (.viewDense .mat) .d false]),
  (.blas_matsub, [.obj (.viewDense .mat) .d true, .obj .dense .d true, .obj (.viewDense .ten) .d false]),
  (.blas_matsub, [.obj (.viewDense .mat) .d true, .obj (.viewDense .vec) .d true, .obj .dense .d false]),
  (.blas_matsub, [.obj (.viewDense .mat) .d true, .obj (.viewDense .vec) .d true, .obj (.viewDense .vec) .d false]),
  (.blas_matsub, [.obj (.viewDense .mat) .d true, .obj (.viewDense .vec) .d true, .obj (.viewDense .mat) .d false]),
  (.blas_matsub, [.obj (.viewDense .mat) .d true, .obj (.viewDense .vec) .d true, .obj (.viewDense .ten) .d false]),
  (.blas_matsub, [.obj (.viewDense .mat) .d true, .obj (.viewDense .mat) .d true, .obj .dense .d false]),
  (.blas_matsub, [.obj (.viewDense .mat) .d true, .obj (.viewDense .mat) .d true, .obj (.viewDense .vec) .d false]),
  (.blas_matsub, [.obj (.viewDense .mat) .d true, .obj (.viewDense .mat) .d true, .obj (.viewDense .mat) .d false]),
  (.blas_matsub, [.obj (.viewDense .mat) .d true, .obj (.viewDense .mat) .d true, .obj (.viewDense .ten) .d false]),
  (.blas_matsub, [.obj (.viewDense .mat) .d true, .obj (.viewDense .ten) .d true, .obj .dense .d false]),
  (.blas_matsub, [.obj (.viewDense .mat) .d true, .obj (.viewDense .ten) .d true, .obj (.viewDense .vec) .d false]),
  (.blas_matsub, [.obj (.viewDense .mat) .d true, .obj (.viewDense .ten) .d true, .obj (.viewDense .mat) .d false]),
  (.blas_matsub, [.obj (.viewDense .mat) .d true, .obj (.viewDense .ten) .d true, .obj (.viewDense .ten) .d false]),
  (.blas_matsub, [.obj (.viewDense .ten) .d true, .obj .dense .d true, .obj .dense .d false]),
  (.blas_matsub, [.obj (.viewDense .ten) .d true, .obj .dense .d true, .obj (.viewDense .vec) .d false]),
  (.blas_matsub, [.obj (.viewDense .ten) .d true, .obj .dense .d true, .obj (.viewDense .mat) .d false]),
  (.blas_matsub, [.obj (.viewDense .ten) .d true, .obj .dense .d true, .obj (.viewDense .ten) .d false]),
  (.blas_matsub, [.obj (.viewDense .ten) .d true, .obj (.viewDense .vec) .d true, .obj .dense .d false]),
  (.blas_matsub, [.obj (.viewDense .ten) .d true, .obj (.viewDense .vec) .d true, .obj (.viewDense .vec) .d false]),
  (.blas_matsub, [.obj (.viewDense .ten) .d true, .obj (.viewDense .vec) .d true, .obj (.viewDense .mat) .d false]),
  (.blas_matsub, [.obj (.viewDense .ten) .d true, .obj (.viewDense .vec) .d true, .obj (.viewDense .ten) .d false]),
  (.blas_matsub, [.obj (.viewDense .ten) .d true, .obj (.viewDense .mat) .d true, .obj .dense .d false]),
  (.blas_matsub, [.obj (.viewDense .ten) .d true, .obj (.viewDense .mat) .d true, .obj (.viewDense .vec) .d false]),
  (.blas_matsub, [.obj (.viewDense .ten) .d true, .obj (.viewDense .mat) .d true, .obj (.viewDense .mat) .d false]),
  (.blas_matsub, [.obj (.viewDense .ten) .d true, .obj (.viewDense .mat) .d true, .obj (.viewDense .ten) .d false]),
  (.blas_matsub, [.obj (.viewDense .ten) .d true, .obj (.viewDense .ten) .d true, .obj .dense .d false]),
  (.blas_matsub, [.obj (.viewDense .ten) .d true, .obj (.viewDense .ten) .d true, .obj (.viewDense .vec) .d false]),
  (.blas_matsub, [.obj (.viewDense .ten) .d true, .obj (.viewDense .ten) .d true, .obj (.viewDense .mat) .d false]),
  (.blas_matsub, [.obj (.viewDense .ten) .d true, .obj (.viewDense .ten) .d true, .obj (.viewDense .ten) .d false]),
  (.blas_matsub, [.obj .dense .s true, .obj .dense .s true, .obj .dense .s false]),
  (.blas_matsub, [.obj .dense .s true, .obj .dense .s true, .obj (.viewDense .vec) .s false]),
  (.blas_matsub, [.obj .dense .s true, .obj .dense .s true, .obj (.viewDense .mat) .s false]),
  (.blas_matsub, [.obj .dense .s true, .obj .dense .s true, .obj (.viewDense .ten) .s false]),
  (.blas_matsub, [.obj .dense .s true, .obj (.viewDense .vec) .s true, .obj .dense .s false]),
  (.blas_matsub, [.obj .dense .s true, .obj (.viewDense .vec) .s true, .obj (.viewDense .vec) .s false]),
  (.blas_matsub, [.obj .dense .s true, .obj (.viewDense .vec) .s true, .obj (.viewDense .mat) .s false]),
  (.blas_matsub, [.obj .dense .s true, .obj (.viewDense .vec) .s true, .obj (.viewDense .ten) .s false]),
  (.blas_matsub, [.obj .dense .s true, .obj (.viewDense .mat) .s true, .obj .dense .s false]),
  (.blas_matsub, [.obj .dense .s true, .obj (.viewDense .mat) .s true, .obj (.viewDense .vec) .s false]),
  (.blas_matsub, [.obj .dense .s true, .obj (.viewDense .mat) .s true, .obj (.viewDense .mat) .s false]),
  (.blas_matsub, [.obj .dense .s true, .obj (.viewDense .mat) .s true, .obj (.viewDense .ten) .s false]),
  (.blas_matsub, [.obj .dense .s true, .obj (.viewDense .ten) .s true, .obj .dense .s false]),
  (.blas_matsub, [.obj .dense .s true, .obj (.viewDense .ten) .s true, .obj (.viewDense .vec) .s false]),
  (.blas_matsub, [.obj .dense .s true, .obj (.viewDense .ten) .s true, .obj (.viewDense .mat) .s false]),
  (.blas_matsub, [.obj .dense .s true, .obj (.viewDense .ten) .s true, .obj (.viewDense .ten) .s false]),
  (.blas_matsub, [.obj (.viewDense .vec) .s true, .obj .dense .s true, .obj .dense .s false]),
  (.blas_matsub, [.obj (.viewDense .vec) .s true, .obj .dense .s true, .obj (.viewDense .vec) .s false]),
  (.blas_matsub, [.obj (.viewDense .vec) .s true, .obj .dense .s true, .obj (.viewDense .mat) .s false]),
  (.blas_matsub, [.obj (.viewDense .vec) .s true, .obj .dense .s true, .obj (.viewDense .ten) .s false]),
  (.blas_matsub, [.obj (.viewDense .vec) .s true, .obj (.viewDense .vec) .s true, .obj .dense .s false]),
  (.blas_matsub, [.obj (.viewDense .vec) .s true, .obj (.viewDense .vec) .s true, .obj (.viewDense .vec) .s false]),
  (.blas_matsub, [.obj (.viewDense .vec) .s true, .obj (.viewDense .vec) .s true, .obj (.viewDense .mat) .s false]),
  (.blas_matsub, [.obj (.viewDense .vec) .s true, .obj (.viewDense .vec) .s true, .obj (.viewDense .ten) .s false]),
  (.blas_matsub, [.obj (.viewDense .vec) .s true, .obj (.viewDense .mat) .s true, .obj .dense .s false]),
  (.blas_matsub, [.obj (.viewDense .vec) .s true, .obj (.viewDense .mat) .s true, .obj (.viewDense .vec) .s false]),
  (.blas_matsub, [.obj (.viewDense .vec) .s true, .obj (.viewDense .mat) .s true, .obj (.viewDense .mat) .s false]),
  (.blas_matsub, [.obj (.viewDense .vec) .s true, .obj (.viewDense .mat) .s true, .obj (.viewDense .ten) .s false]),
  (.blas_matsub, [.obj (.viewDense .vec) .s true, .obj (.viewDense .ten) .s true, .obj .dense .s false]),
  (.blas_matsub, [.obj (.viewDense .vec) .s true, .obj (.viewDense .ten) .s true, .obj (.viewDense .vec) .s false]),
  (.blas_matsub, [.obj (.viewDense .vec) .s true, .obj (.viewDense .ten) .s true, .obj (.viewDense .mat) .s false]),
  (.blas_matsub, [.obj (.viewDense .vec) .s true, .obj (.viewDense .ten) .s true, .obj (.viewDense .ten) .s false]),
  (.blas_matsub, [.obj (.viewDense .mat) .s true, .obj .dense .s true, .obj .dense .s false]),
  (.blas_matsub, [.obj (.viewDense .mat) .s true, .obj .dense .s true, .obj (.viewDense .vec) .s false]),
  (.blas_matsub, [.obj (.viewDense .mat) .s true, .obj .dense .s true, .obj (.viewDense .mat) .s false]),
  (.blas_matsub, [.obj (.viewDense .mat) .s true, .obj .dense .s true, .obj (.viewDense .ten) .s false]),
  (.blas_matsub, [.obj (.viewDense .mat) .s true, .obj (.viewDense .vec) .s true, .obj .dense .s false]),
  (.blas_matsub, [.obj (.viewDense .mat) .s true, .obj (.viewDense .vec) .s true, .obj (.viewDense .vec) .s false]),
  (.blas_matsub, [.obj (.viewDense .mat) .s true, .obj (.viewDense .vec) .s true, .obj (.viewDense .mat) .s false]),
  (.blas_matsub, [.obj (.viewDense .mat) .s true, .obj (.viewDense .vec) .s true, .obj (.viewDense .ten) .s false]),
  (.blas_matsub, [.obj (.viewDense .mat) .s true, .obj (.viewDense .mat) .s true, .obj .dense .s false]),
  (.blas_matsub, [.obj (.viewDense .mat) .s true, .obj (.viewDense .mat) .s true, .obj (.viewDense .vec) .s false]),
  (.blas_matsub, [.obj (.viewDense .mat) .s true, .obj (.viewDense .mat) .s true, .obj (.viewDense .mat) .s false]),
  (.blas_matsub, [.obj (.viewDense .mat) .s true, .obj (.viewDense .mat) .s true, .obj (.viewDense .ten) .s false]),
  (.blas_matsub, [.obj (.viewDense .mat) .s true, .obj (.viewDense .ten) .s true, .obj .dense .s false]),
  (.blas_matsub, [.obj (.viewDense .mat) .s true, .obj (.viewDense .ten) .s true, .obj (.viewDense .vec) .s false])]

/-- the overloads of `tBlasMatAddSub_3` that are declared -/
def hBlasMatAddSub_3 : List (Fn × List Par) := [
  (.blas_matsub, [.obj (.viewDense .mat) .s true, .obj (.viewDense .ten) .s true, .obj (.viewDense .mat) .s false]),
  (.blas_matsub, [.obj (.viewDense .mat) .s true, .obj (.viewDense .ten) .s true, .obj (.viewDense .ten) .s false]),
  (.blas_matsub, [.obj (.viewDense .ten) .s true, .obj .dense .s true, .obj .dense .s false]),
  (.blas_matsub, [.obj (.viewDense .ten) .s true, .obj .dense .s true, .obj (.viewDense .vec) .s false]),
  (.blas_matsub, [.obj (.viewDense .ten) .s true, .obj .dense .s true, .obj (.viewDense .mat) .s false]),
  (.blas_matsub, [.obj (.viewDense .ten) .s true, .obj .dense .s true, .obj (.viewDense .ten) .s false]),
  (.blas_matsub, [.obj (.viewDense .ten) .s true, .obj (.viewDense .vec) .s true, .obj .dense .s false]),
  (.blas_matsub, [.obj (.viewDense .ten) .s true, .obj (.viewDense .vec) .s true, .obj (.viewDense .vec) .s false]),
  (.blas_matsub, [.obj (.viewDense .ten) .s true, .obj (.viewDense .vec) .s true, .obj (.viewDense .mat) .s false]),
  (.blas_matsub, [.obj (.viewDense .ten) .s true, .obj (.viewDense .vec) .s true, .obj (.viewDense .ten) .s false]),
  (.blas_matsub, [.obj (.viewDense .ten) .s true, .obj (.viewDense .mat) .s true, .obj .dense .s false]),
  (.blas_matsub, [.obj (.viewDense .ten) .s true, .obj (.viewDense .mat) .s true, .obj (.viewDense .vec) .s false]),
  (.blas_matsub, [.obj (.viewDense .ten) .s true, .obj (.viewDense .mat) .s true, .obj (.viewDense .mat) .s false]),
  (.blas_matsub, [.obj (.viewDense .ten) .s true, .obj (.viewDense .mat) .s true, .obj (.viewDense .ten) .s false]),
  (.blas_matsub, [.obj (.viewDense .ten) .s true, .obj (.viewDense .ten) .s true, .obj .dense .s false]),
  (.blas_matsub, [.obj (.viewDense .ten) .s true, .obj (.viewDense .ten) .s true, .obj (.viewDense .vec) .s false]),
  (.blas_matsub, [.obj (.viewDense .ten) .s true, .obj (.viewDense .ten) .s true, .obj (.viewDense .mat) .s false]),
  (.blas_matsub, [.obj (.viewDense .ten) .s true, .obj (.viewDense .ten) .s true, .obj (.viewDense .ten) .s false]),
  (.blas_matsub, [.obj .crs .d true, .obj .crs .d true, .obj .crs .d false]),
  (.blas_matsub, [.obj .crs .s true, .obj .crs .s true, .obj .crs .s false])]

/-- the overloads of `tBlasMatTimes_0` that are declared -/
def hBlasMatTimes_0 : List (Fn × List Par) := [
  (.blas_times, [.scal .d, .obj .dense .d true, .obj .dense .d false]),
  (.blas_times, [.scal .d, .obj .dense .d true, .obj (.viewDense .vec) .d false]),
  (.blas_times, [.scal .d, .obj .dense .d true, .obj (.viewDense .mat) .d false]),
  (.blas_times, [.scal .d, .obj .dense .d true, .obj (.viewDense .ten) .d false]),
  (.blas_times, [.scal .d, .obj (.viewDense .vec) .d true, .obj .dense .d false]),
  (.blas_times, [.scal .d, .obj (.viewDense .vec) .d true, .obj (.viewDense .vec) .d false]),
  (.blas_times, [.scal .d, .obj (.viewDense .vec) .d true, .obj (.viewDense .mat) .d false]),
  (.blas_times, [.scal .d, .obj (.viewDense .vec) .d true, .obj (.viewDense .ten) .d false]),
  (.blas_times, [.scal .d, .obj (.viewDense .mat) .d true, .obj .dense .d false]),
  (.blas_times, [.scal .d, .obj (.viewDense .mat) .d true, .obj (.viewDense .vec) .d false]),
  (.blas_times, [.scal .d, .obj (.viewDense .mat) .d true, .obj (.viewDense .mat) .d false]),
  (.blas_times, [.scal .d, .obj (.viewDense .mat) .d true, .obj (.viewDense .ten) .d false]),
  (.blas_times, [.scal .d, .obj (.viewDense .ten) .d true, .obj .dense .d false]),
  (.blas_times, [.scal .d, .obj (.viewDense .ten) .d true, .obj (.viewDense .vec) .d false]),
  (.blas_times, [.scal .d, .obj (.viewDense .ten) .d true, .obj (.viewDense .mat) .d false]),
  (.blas_times, [.scal .d, .obj (.viewDense .ten) .d true, .obj (.viewDense .ten) .d false]),
  (.blas_times, [.scal .d, .obj .crs .d true, .obj .crs .d false]),
  (.blas_times, [.scal .s, .obj .dense .s true, .obj .dense .s false]),
  (.blas_times, [.scal .s, .obj .dense .s true, .obj (.viewDense .vec) .s false]),
  (.blas_times, [.scal .s, .obj .dense .s true, .obj (.viewDense .mat) .s false]),
  (.blas_times, [.scal .s, .obj .dense .s true, .obj (.viewDense .ten) .s false]),
  (.blas_times, [.scal .s, .obj (.viewDense .vec) .s true, .obj .dense .s false]),
  (.blas_times, [.scal .s, .obj (.viewDense .vec) .s true, .obj (.viewDense .vec) .s false]),
  (.blas_times, [.scal .s, .obj (.viewDense .vec) .s true, .obj (.viewDense .mat) .s false]),
  (.blas_times, [.scal .s, .obj (.viewDense .vec) .s true, .obj (.viewDense .ten) .s false]),
  (.blas_times, [.scal .s, .obj (.viewDense .mat) .s true, .obj .dense .s false]),
  (.blas_times, [.scal .s, .obj (.viewDense .mat) .s true, .obj (.viewDense .vec) .s false]),
  (.blas_times, [.scal .s, .obj (.viewDense .mat) .s true, .obj (.viewDense .mat) .s false]),
  (.blas_times, [.scal .s, .obj (.viewDense .mat) .s true, .obj (.viewDense .ten) .s false]),
  (.blas_times, [.scal .s, .obj (.viewDense .ten) .s true, .obj .dense .s false]),
  (.blas_times, [.scal .s, .obj (.viewDense .ten) .s true, .obj (.viewDense .vec) .s false]),
  (.blas_times, [.scal .s, .obj (.viewDense .ten) .s true, .obj (.viewDense .mat) .s false]),
  (.blas_times, [.scal .s, .obj (.viewDense .ten) .s true, .obj (.viewDense .ten) .s false]),
  (.blas_times, [.scal .s, .obj .crs .s true, .obj .crs .s false])]

/-- the overloads of `tBlasMatAdds_0` that are declared -/
def hBlasMatAdds_0 : List (Fn × List Par) := [
  (.blas_adds, [.scal .d, .obj .dense .d true, .obj .dense .d false]),
  (.blas_adds, [.scal .d, .obj .dense .d true, .obj (.viewDense .vec) .d false]),
  (.blas_adds, [.scal .d, .obj .dense .d true, .obj (.viewDense .mat) .d false]),
  (.blas_adds, [.scal .d, .obj .dense .d true, .obj (.viewDense .ten) .d false]),
  (.blas_adds, [.scal .d, .obj (.viewDense .vec) .d true, .obj .dense .d false]),
  (.blas_adds, [.scal .d, .obj (.viewDense .vec) .d true, .obj (.viewDense .vec) .d false]),
  (.blas_adds, [.scal .d, .obj (.viewDense .vec) .d true, .obj (.viewDense .mat) .d false]),
  (.blas_adds, [.scal .d, .obj (.viewDense .vec) .d true, .obj (.viewDense .ten) .d false]),
  (.blas_adds, [.scal .d, .obj (.viewDense .mat) .d true, .obj .dense .d false]),
  (.blas_adds, [.scal .d, .obj (.viewDense .mat) .d true, .obj (.viewDense .vec) .d false]),
  (.blas_adds, [.scal .d, .obj (.viewDense .mat) .d true, .obj (.viewDense .mat) .d false]),
  (.blas_adds, [.scal .d, .obj (.viewDense .mat) .d true, .obj (.viewDense .ten) .d false]),
  (.blas_adds, [.scal .d, .obj (.viewDense .ten) .d true, .obj .dense .d false]),
  (.blas_adds, [.scal .d, .obj (.viewDense .ten) .d true, .obj (.viewDense .vec) .d false]),
  (.blas_adds, [.scal .d, .obj (.viewDense .ten) .d true, .obj (.viewDense .mat) .d false]),
  (.blas_adds, [.scal .d, .obj (.viewDense .ten) .d true, .obj (.viewDense .ten) .d false]),
  (.blas_adds, [.scal .s, .obj .dense .s true, .obj .dense .s false]),
  (.blas_adds, [.scal .s, .obj .dense .s true, .obj (.viewDense .vec) .s false]),
  (.blas_adds, [.scal .s, .obj .dense .s true, .obj (.viewDense .mat) .s false]),
  (.blas_adds, [.scal .s, .obj .dense .s true, .obj (.viewDense .ten) .s false]),
  (.blas_adds, [.scal .s, .obj (.viewDense .vec) .s true, .obj .dense .s false]),
  (.blas_adds, [.scal .s, .obj (.viewDense .vec) .s true, .obj (.viewDense .vec) .s false]),
  (.blas_adds, [.scal .s, .obj (.viewDense .vec) .s true, .obj (.viewDense .mat) .s false]),
  (.blas_adds, [.scal .s, .obj (.viewDense .vec) .s true, .obj (.viewDense .ten) .s false]),
  (.blas_adds, [.scal .s, .obj (.viewDense .mat) .s true, .obj .dense .s false]),
  (.blas_adds, [.scal .s, .obj (.viewDense .mat) .s true, .obj (.viewDense .vec) .s false]),
  (.blas_adds, [.scal .s, .obj (.viewDense .mat) .s true, .obj (.viewDense .mat) .s false]),
  (.blas_adds, [.scal .s, .obj (.viewDense .mat) .s true, .obj (.viewDense .ten) .s false]),
  (.blas_adds, [.scal .s, .obj (.viewDense .ten) .s true, .obj .dense .s false]),
  (.blas_adds, [.scal .s, .obj (.viewDense .ten) .s true, .obj (.viewDense .vec) .s false]),
  (.blas_adds, [.scal .s, .obj (.viewDense .ten) .s true, .obj (.viewDense .mat) .s false]),
  (.blas_adds, [.scal .s, .obj (.viewDense .ten) .s true, .obj (.viewDense .ten) .s false])]

/-- the overloads of `tBlasMatScal_0` that are declared -/
def hBlasMatScal_0 : List (Fn × List Par) := [
  (.blas_mscal, [.scal .d, .obj .dense .d false]),
  (.blas_mscal, [.scal .d, .obj (.viewDense .vec) .d false]),
  (.blas_mscal, [.scal .d, .obj (.viewDense .mat) .d false]),
  (.blas_mscal, [.scal .d, .obj (.viewDense .ten) .d false]),
  (.blas_mscal, [.scal .s, .obj .dense .s false]),
  (.blas_mscal, [.scal .s, .obj (.viewDense .vec) .s false]),
  (.blas_mscal, [.scal .s, .obj (.viewDense .mat) .s false]),
  (.blas_mscal, [.scal .s, .obj (.viewDense .ten) .s false]),
  (.blas_mscal, [.scal .d, .obj .crs .d false]),
  (.blas_mscal, [.scal .s, .obj .crs .s false])]

/-- the overloads of `tBlasMatCopy_0` that are declared -/
def hBlasMatCopy_0 : List (Fn × List Par) := [
  (.blas_copy, [.obj .dense .d true, .obj .dense .d false]),
  (.blas_copy, [.obj .dense .d true, .obj (.viewDense .vec) .d false]),
  (.blas_copy, [.obj .dense .d true, .obj (.viewDense .mat) .d false]),
  (.blas_copy, [.obj .dense .d true, .obj (.viewDense .ten) .d false]),
  (.blas_copy, [.obj (.viewDense .vec) .d true, .obj .dense .d false]),
  (.blas_copy, [.obj (.viewDense .vec) .d true, .obj (.viewDense .vec) .d false]),
  (.blas_copy, [.obj (.viewDense .vec) .d true, .obj (.viewDense .mat) .d false]),
  (.blas_copy, [.obj (.viewDense .vec) .d true, .obj (.viewDense .ten) .d false]),
  (.blas_copy, [.obj (.viewDense .mat) .d true, .obj .dense .d false]),
  (.blas_copy, [.obj (.viewDense .mat) .d true, .obj (.viewDense .vec) .d false]),
  (.blas_copy, [.obj (.viewDense .mat) .d true, .obj (.viewDense .mat) .d false]),
  (.blas_copy, [.obj (.viewDense .mat) .d true, .obj (.viewDense .ten) .d false]),
  (.blas_copy, [.obj (.viewDense .ten) .d true, .obj .dense .d false]),
  (.blas_copy, [.obj (.viewDense .ten) .d true, .obj (.viewDense .vec) .d false]),
  (.blas_copy, [.obj (.viewDense .ten) .d true, .obj (.viewDense .mat) .d false]),
  (.blas_copy, [.obj (.viewDense .ten) .d true, .obj (.viewDense .ten) .d false]),
  (.blas_copy, [.obj .dense .s true, .obj .dense .s false]),
  (.blas_copy, [.obj .dense .s true, .obj (.viewDense .vec) .s false]),
  (.blas_copy, [.obj .dense .s true, .obj (.viewDense .mat) .s false]),
  (.blas_copy, [.obj .dense .s true, .obj (.viewDense .ten) .s false]),
  (.blas_copy, [.obj (.viewDense .vec) .s true, .obj .dense .s false]),
  (.blas_copy, [.obj (.viewDense .vec) .s true, .obj (.viewDense .vec) .s false]),
  (.blas_copy, [.obj (.viewDense .vec) .s true, .obj (.viewDense .mat) .s false]),
  (.blas_copy, [.obj (.viewDense .vec) .s true, .obj (.viewDense .ten) .s false]),
  (.blas_copy, [.obj (.viewDense .mat) .s true, .obj .dense .s false]),
  (.blas_copy, [.obj (.viewDense .mat) .s true, .obj (.viewDense .vec) .s false]),
  (.blas_copy, [.obj (.viewDense .mat) .s true, .obj (.viewDense .mat) .s false]),
  (.blas_copy, [.obj (.viewDense .mat) .s true, .obj (.viewDense .ten) .s false]),
  (.blas_copy, [.obj (.viewDense .ten) .s true, .obj .dense .s false]),
  (.blas_copy, [.obj (.viewDense .ten) .s true, .obj (.viewDense .vec) .s false]),
  (.blas_copy, [.obj (.viewDense .ten) .s true, .obj (.viewDense .mat) .s false]),
  (.blas_copy, [.obj (.viewDense .ten) .s true, .obj (.viewDense .ten) .s false]),
  (.blas_copy, [.obj .crs .d true, .obj .crs .d false]),
  (.blas_copy, [.obj .crs .s true, .obj .crs .s false])]

/-- the overloads of `tBlasTenAddSub_0` that are declared -/
def hBlasTenAddSub_0 : List (Fn × List Par) := [
  (.blas_tensadd, [.obj .tdense .d true, .obj .tdense .d true, .obj .tdense .d false]),
  (.blas_tensadd, [.obj .tdense .d true, .obj .tdense .d true, .obj (.viewTDense .vec) .d false]),
  (.blas_tensadd, [.obj .tdense .d true, .obj .tdense .d true, .obj (.viewTDense .mat) .d false]),
  (.blas_tensadd, [.obj .tdense .d true, .obj .tdense .d true, .obj (.viewTDense .ten) .d false]),
  (.blas_tensadd, [.obj .tdense .d true, .obj (.viewTDense .vec) .d true, .obj .tdense .d false]),
  (.blas_tensadd, [.obj .tdense .d true, .obj (.viewTDense .vec) .d true, .obj (.viewTDense .vec) .d false]),
  (.blas_tensadd, [.obj .tdense .d true, .obj (.viewTDense .vec) .d true, .obj (.viewTDense .mat) .d false]),
  (.blas_tensadd, [.obj .tdense .d true, .obj (.viewTDense .vec) .d true, .obj (.viewTDense .ten) .d false]),
  (.blas_tensadd, [.obj .tdense .d true, .obj (.viewTDense .mat) .d true, .obj .tdense .d false]),
  (.blas_tensadd, [.obj .tdense .d true, .obj (.viewTDense .mat) .d true, .obj (.viewTDense .vec) .d false]),
  (.blas_tensadd, [.obj .tdense .d true, .obj (.viewTDense .mat) .d true, .obj (.viewTDense .mat) .d false]),
  (.blas_tensadd, [.obj .tdense .d true, .obj (.viewTDense .mat) .d true, .obj (.viewTDense .ten) .d false]),
  (.blas_tensadd, [.obj .tdense .d true, .obj (.viewTDense .ten) .d true, .obj .tdense .d false]),
  (.blas_tensadd, [.obj .tdense .d true, .obj (.viewTDense .ten) .d true, .obj (.viewTDense .vec) .d false]),
  (.blas_tensadd, [.obj .tdense .d true, .obj (.viewTDense .ten) .d true, .obj (.viewTDense .mat) .d false]),
  (.blas_tensadd, [.obj .tdense .d true, .obj (.viewTDense .ten) .d true, .obj (.viewTDense .ten) .d false]),
  (.blas_tensadd, [.obj (.viewTDense .vec) .d true, .obj .tdense .d true, .obj .tdense .d false]),
  (.blas_tensadd, [.obj (.viewTDense .vec) .d true, .obj .tdense .d true, .obj (.viewTDense .vec) .d false]),
  (.blas_tensadd, [.obj (.viewTDense .vec) .d true, .obj .tdense .d true, .obj (.viewTDense .mat) .d false]),
  (.blas_tensadd, [.obj (.viewTDense .vec) .d true, .obj .tdense .d true, .obj (.viewTDense .ten) .d false]),
  (.blas_tensadd, [.obj (.viewTDense .vec) .d true, .obj (.viewTDense .vec) .d true, .obj .tdense .d false]),
  (.blas_tensadd, [.obj (.viewTDense .vec) .d true, .obj (.viewTDense .vec) .d true, .obj (.viewTDense .vec) .d false]),
  (.blas_tensadd, [.obj (.viewTDense .vec) .d true, .obj (.viewTDense .vec) .d true, .obj (.viewTDense .mat) .d false]),
  (.blas_tensadd, [.obj (.viewTDense .vec) .d true, .obj (.viewTDense .vec) .d true, .obj (.viewTDense .ten) .d false]),
  (.blas_tensadd, [.obj (.viewTDense .vec) .d true, .obj (.viewTDense .mat) .d true, .obj .tdense .d false]),
  (.blas_tensadd, [.obj (.viewTDense .vec) .d true, .obj (.viewTDense .mat) .d true, .obj (.viewTDense .vec) .d false]),
  (.blas_tensadd, [.obj (.viewTDense .vec) .d true, .obj (.viewTDense .mat) .d true, .obj (.viewTDense .mat) .d false]),
  (.blas_tensadd, [.obj (.viewTDense .vec) .d true, .obj (.viewTDense .mat) .d true, .obj (.viewTDense .ten) .d false]),
  (.blas_tensadd, [.obj (.viewTDense .vec) .d true, .obj (.viewTDense .ten) .d true, .obj .tdense .d false]),
  (.blas_tensadd, [.obj (.viewTDense .vec) .d true, .obj (.viewTDense .ten) .d true, .obj (.viewTDense .vec) .d false]),
  (.blas_tensadd, [.obj (.viewTDense .vec) .d true, .obj (.viewTDense .ten) .d true, .obj (.viewTDense .mat) .d false]),
  (.blas_tensadd, [.obj (.viewTDense .vec) .d true, .obj (.viewTDense .ten) .d true, .obj (.viewTDense .ten) .d false]),
  (.blas_tensadd, [.obj (.viewTDense .mat) .d true, .obj .tdense .d true, .obj .tdense .d false]),
  (.blas_tensadd, [.obj (.viewTDense .mat) .d true, .obj .tdense .d true, .obj (.viewTDense .vec) .d false]),
  (.blas_tensadd, [.obj (.viewTDense .mat) .d true, .obj .tdense .d true, .obj (.viewTDense .mat) .d false]),
  (.blas_tensadd, [.obj (.viewTDense .mat) .d true, .obj .tdense .d true, .obj (.viewTDense .ten) .d false]),
  (.blas_tensadd, [.obj (.viewTDense .mat) .d true, .obj (.viewTDense .vec) .d true, .obj .tdense .d false]),
  (.blas_tensadd, [.obj (.viewTDense .mat) .d true, .obj (.viewTDense .vec) .d true, .obj (.viewTDense .vec) .d false]),
  (.blas_tensadd, [.obj (.viewTDense .mat) .d true, .obj (.viewTDense .vec) .d true, .obj (.viewTDense .mat) .d false]),
  (.blas_tensadd, [.obj (.viewTDense .mat) .d true, .obj (.viewTDense .vec) .d true, .obj (.viewTDense .ten) .d false]),
  (.blas_tensadd, [.obj (.viewTDense .mat) .d true, .obj (.viewTDense .mat) .d true, .obj .tdense .d false]),
  (.blas_tensadd, [.obj (.viewTDense .mat) .d true, .obj (.viewTDense .mat) .d true, .obj (.viewTDense .vec) .d false]),
  (.blas_tensadd, [.obj (.viewTDense .mat) .d true, .obj (.viewTDense .mat) .d true, .obj (.viewTDense .mat) .d false]),
  (.blas_tensadd, [.obj (.viewTDense .mat) .d true, .obj (.viewTDense .mat) .d true, .obj (.viewTDense .ten) .d false]),
  (.blas_tensadd, [.obj (.viewTDense .mat) .d true, .obj (.viewTDense .ten) .d true, .obj .tdense .d false]),
  (.blas_tensadd, [.obj (.viewTDense .mat) .d true, .obj (.viewTDense .ten) .d true, .obj (.viewTDense .vec) .d false]),
  (.blas_tensadd, [.obj (.viewTDense .mat) .d true, .obj (.viewTDense .ten) .d true, .obj (.viewTDense .mat) .d false]),
  (.blas_tensadd, [.obj (.viewTDense .mat) .d true, .obj (.viewTDense .ten) .d true, .obj (.viewTDense .ten) .d false]),
  (.blas_tensadd, [.obj (.viewTDense .ten) .d true, .obj .tdense .d true, .obj .tdense .d false]),
  (.blas_tensadd, [.obj (.viewTDense .ten) .d true, .obj .tdense .d true, .obj (.viewTDense .vec) .d false]),
  (.blas_tensadd, [.obj (.viewTDense .ten) .d true, .obj .tdense .d true, .obj (.viewTDense .mat) .d false]),
  (.blas_tensadd, [.obj (.viewTDense .ten) .d true, .obj .tdense .d true, .obj (.viewTDense .ten) .d false]),
  (.blas_tensadd, [.obj (.viewTDense .ten) .d true, .obj (.viewTDense .vec) .d true, .obj .tdense .d false]),
  (.blas_tensadd, [.obj (.viewTDense .ten) .d true, .obj (.viewTDense .vec) .d true, .obj (.viewTDense .vec) .d false]),
  (.blas_tensadd, [.obj (.viewTDense .ten) .d true, .obj (.viewTDense .vec) .d true, .obj (.viewTDense .mat) .d false]),
  (.blas_tensadd, [.obj (.viewTDense .ten) .d true, .obj (.viewTDense .vec) .d true, .obj (.viewTDense .ten) .d false]),
  (.blas_tensadd, [.obj (.viewTDense .ten) .d true, .obj (.viewTDense .mat) .d true, .obj .tdense .d false]),
  (.blas_tensadd, [.obj (.viewTDense .ten) .d true, .obj (.viewTDense .mat) .d true, .obj (.viewTDense .vec) .d false]),
  (.blas_tensadd, [.obj (.viewTDense .ten) .d true, .obj (.viewTDense .mat) .d true, .obj (.viewTDense .mat) .d false]),
  (.blas_tensadd, [.obj (.viewTDense .ten) .d true, .obj (.viewTDense .mat) .d true, .obj (.viewTDense .ten) .d false]),
  (.blas_tensadd, [.obj (.viewTDense .ten) .d true, .obj (.viewTDense .ten) .d true, .obj .tdense .d false]),
  (.blas_tensadd, [.obj (.viewTDense .ten) .d true, .obj (.viewTDense .ten) .d true, .obj (.viewTDense .vec) .d false]),
  (.blas_tensadd, [.obj (.viewTDense .ten) .d true, .obj (.viewTDense .ten) .d true, .obj (.viewTDense .mat) .d false]),
  (.blas_tensadd, [.obj (.viewTDense .ten) .d true, .obj (.viewTDense .ten) .d true, .obj (.viewTDense .ten) .d false]),
  (.blas_tensadd, [.obj .tdense .s true, .obj .tdense .s true, .obj .tdense .s false]),
  (.blas_tensadd, [.obj .tdense .s true, .obj .tdense .s true, .obj (.viewTDense .vec) .s false]),
  (.blas_tensadd, [.obj .tdense .s true, .obj .tdense .s true, .obj (.viewTDense .mat) .s false]),
  (.blas_tensadd, [.obj .tdense .s true, .obj .tdense .s true, .obj (.viewTDense .ten) .s false]),
  (.blas_tensadd, [.obj .tdense .s true, .obj (.viewTDense .vec) .s true, .obj .tdense .s false]),
  (.blas_tensadd, [.obj .tdense .s true, .obj (.viewTDense .vec) .s true, .obj (.viewTDense .vec) .s false]),
  (.blas_tensadd, [.obj .tdense .s true, .obj (.viewTDense .vec) .s true, .obj (.viewTDense .mat) .s false]),
  (.blas_tensadd, [.obj .tdense .s true, .obj (.viewTDense .vec) .s true, .obj (.viewTDense .ten) .s false]),
  (.blas_tensadd, [.obj .tdense .s true, .obj (.viewTDense .mat) .s true, .obj .tdense .s false]),
  (.blas_tensadd, [.obj .tdense .s true, .obj (.viewTDense .mat) .s true, .obj (.viewTDense .vec) .s false]),
  (.blas_tensadd, [.obj .tdense .s true, .obj (.viewTDense .mat) .s true, .obj (.viewTDense .mat) .s false]),
  (.blas_tensadd, [.obj .tdense .s true, .obj (.viewTDense .mat) .s true, .obj (.viewTDense .ten) .s false]),
  (.blas_tensadd, [.obj .tdense .s true, .obj (.viewTDense .ten) .s true, .obj .tdense .s false]),
  (.blas_tensadd, [.obj .tdense .s true, .obj (.viewTDense .ten) .s true, .obj (.viewTDense .vec) .s false]),
  (.blas_tensadd, [.obj .tdense .s true, .obj (.viewTDense .ten) .s true, .obj (.viewTDense .mat) .s false]),
  (.blas_tensadd, [.obj .tdense .s true, .obj (.viewTDense .ten) .s true, .obj (.viewTDense .ten) .s false])]

/-- the overloads of `tBlasTenAddSub_1` that are declared -/
def hBlasTenAddSub_1 : List (Fn × List Par) := [
  (.blas_tensadd, [.obj (.viewTDense .vec) .s true, .obj .tdense .s true, .obj .tdense .s false]),
  (.blas_tensadd, [.obj (.viewTDense .vec) .s true, .obj .tdense .s true, .obj (.viewTDense .vec) .s false]),
  (.blas_tensadd, [.obj (.viewTDense .vec) .s true, .obj .tdense .s true, .obj (.viewTDense .mat) .s false]),
  (.blas_tensadd, [.obj (.viewTDense .vec) .s true, .obj .tdense .s true, .obj (.viewTDense .ten) .s false]),
  (.blas_tensadd, [.obj (.viewTDense .vec) .s true, .obj (.viewTDense .vec) .s true, .obj .tdense .s false]),
  (.blas_tensadd, [.obj (.viewTDense .vec) .s true, .obj (.viewTDense .vec) .s true, .obj (.viewTDense .vec) .s false]),
  (.blas_tensadd, [.obj (.viewTDense .vec) .s true, .obj (.viewTDense .vec) .s true, .obj (.viewTDense .mat) .s false]),
  (.blas_tensadd, [.obj (.viewTDense .vec) .s true, .obj (.viewTDense .vec) .s true, .obj (.viewTDense .ten) .s false]),
  (.blas_tensadd, [.obj (.viewTDense .vec) .s true, .obj (.viewTDense .mat) .s true, .obj .tdense .s false]),
  (.blas_tensadd, [.obj (.viewTDense .vec) .s true, .obj (.viewTDense .mat) .s true, .obj (.viewTDense .vec) .s false]),
  (.blas_tensadd, [.obj (.viewTDense .vec) .s true, .obj (.viewTDense .mat) .s true, .obj (.viewTDense .mat) .s false]),
  (.blas_tensadd, [.obj (.viewTDense .vec) .s true, .obj (.viewTDense .mat) .s true, .obj (.viewTDense .ten) .s false]),
  (.blas_tensadd, [.obj (.viewTDense .vec) .s true, .obj (.viewTDense .ten) .s true, .obj .tdense .s false]),
  (.blas_tensadd, [.obj (.viewTDense .vec) .s true, .obj (.viewTDense .ten) .s true, .obj (.viewTDense .vec) .s false]),
  (.blas_tensadd, [.obj (.viewTDense .vec) .s true, .obj (.viewTDense .ten) .s true, .obj (.viewTDense .mat) .s false]),
  (.blas_tensadd, [.obj (.viewTDense .vec) .s true, .obj (.viewTDense .ten) .s true, .obj (.viewTDense .ten) .s false]),
  (.blas_tensadd, [.obj (.viewTDense .mat) .s true, .obj .tdense .s true, .obj .tdense .s false]),
  (.blas_tensadd, [.obj (.viewTDense .mat) .s true, .obj .tdense .s true, .obj (.viewTDense .vec) .s false]),
  (.blas_tensadd, [.obj (.viewTDense .mat) .s true, .obj .tdense .s true, .obj (.viewTDense .mat) .s false]),
  (.blas_tensadd, [.obj (.viewTDense .mat) .s true, .obj .tdense .s true, .obj (.viewTDense .ten) .s false]),
  (.blas_tensadd, [.obj (.viewTDense .mat) .s true, .obj (.viewTDense .vec) .s true, .obj .tdense .s false]),
  (.blas_tensadd, [.obj (.viewTDense .mat) .s true, .obj (.viewTDense .vec) .s true, .obj (.viewTDense .vec) .s false]),
  (.blas_tensadd, [.obj (.viewTDense .mat) .s true, .obj (.viewTDense .vec) .s true, .obj (.viewTDense .mat) .s false]),
  (.blas_tensadd, [.obj (.viewTDense .mat) .s true, .obj (.viewTDense .vec) .s true, .obj (.viewTDense .ten) .s false]),
  (.blas_tensadd, [.obj (.viewTDense .mat) .s true, .obj (.viewTDense .mat) .s true, .obj .tdense .s false]),
  (.blas_tensadd, [.obj (.viewTDense .mat) .s true, .obj (.viewTDense .mat) .s true, .obj (.viewTDense .vec) .s false]),
  (.blas_tensadd, [.obj (.viewTDense .mat) .s true, .obj (.viewTDense .mat) .s true, .obj (.viewTDense .mat) .s false]),
  (.blas_tensadd, [.obj (.viewTDense .mat) .s true, .obj (.viewTDense .mat) .s true, .obj (.viewTDense .ten) .s false]),
  (.blas_tensadd, [.obj (.viewTDense .mat) .s true, .obj (.viewTDense .ten) .s true, .obj .tdense .s false]),
  (.blas_tensadd, [.obj (.viewTDense .mat) .s true, .obj (.viewTDense .ten) .s true, .obj (.viewTDense .vec) .s false]),
  (.blas_tensadd, [.obj (.viewTDense .mat) .s true, .obj (.viewTDense .ten) .s true, .obj (.viewTDense .mat) .s false]),
  (.blas_tensadd, [.obj (.viewTDense .mat) .s true, .obj (.viewTDense .ten) .s true, .obj (.viewTDense .ten) .s false]),
  (.blas_tensadd, [.obj (.viewTDense .ten) .s true, .obj .tdense .s true, .obj .tdense .s false]),
  (.blas_tensadd, [.obj (.viewTDense .ten) .s true, .obj .tdense .s true, .obj (.viewTDense .vec) .s false]),
  (.blas_tensadd, [.obj (.viewTDense .ten) .s true, .obj .tdense .s true, .obj (.viewTDense .mat) .s false]),
  (.blas_tensadd, [.obj (.viewTDense .ten) .s true, .obj .tdense .s true, .obj (.viewTDense .ten) .s false]),
  (.blas_tensadd, [.obj (.viewTDense .ten) .s true, .obj (.viewTDense .vec) .s true, .obj .tdense .s false]),
  (.blas_tensadd, [.obj (.viewTDense .ten) .s true, .obj (.viewTDense .vec) .s true, .obj (.viewTDense .vec) .s false]),
  (.blas_tensadd, [.obj (.viewTDense .ten) .s true, .obj (.viewTDense .vec) .s true, .obj (.viewTDense .mat) .s false]),
  (.blas_tensadd, [.obj (.viewTDense .ten) .s true, .obj (.viewTDense .vec) .s true, .obj (.viewTDense .ten) .s false]),
  (.blas_tensadd, [.obj (.viewTDense .ten) .s true, .obj (.viewTDense .mat) .s true, .obj .tdense .s false]),
  (.blas_tensadd, [.obj (.viewTDense .ten) .s true, .obj (.viewTDense .mat) .s true, .obj (.viewTDense .vec) .s false]),
  (.blas_tensadd, [.obj (.viewTDense .ten) .s true, .obj (.viewTDense .mat) .s true, .obj (.viewTDense .mat) .s false]),
  (.blas_tensadd, [.obj (.viewTDense .ten) .s true, .obj (.viewTDense .mat) .s true, .obj (.viewTDense .ten) .s false]),
  (.blas_tensadd, [.obj (.viewTDense .ten) .s true, .obj (.viewTDense .ten) .s true, .obj .tdense .s false]),
  (.blas_tensadd, [.obj (.viewTDense .ten) .s true, .obj (.viewTDense .ten) .s true, .obj (.viewTDense .vec) .s false]),
  (.blas_tensadd, [.obj (.viewTDense .ten) .s true, .obj (.viewTDense .ten) .s true, .obj (.viewTDense .mat) .s false]),
  (.blas_tensadd, [.obj (.viewTDense .ten) .s true, .obj (.viewTDense .ten) .s true, .obj (.viewTDense .ten) .s false]),
  (.blas_tensadd, [.obj .tcrs .d true, .obj .tcrs .d true, .obj .tcrs .d false]),
  (.blas_tensadd, [.obj .tcrs .s true, .obj .tcrs .s true, .obj .tcrs .s false]),
  (.blas_tenssub, [.obj .tdense .d true, .obj .tdense .d true, .obj .tdense .d false]),
  (.blas_tenssub, [.obj .tdense .d true, .obj .tdense .d true, .obj (.viewTDense .vec) .d false]),
  (.blas_tenssub, [.obj .tdense .d true, .obj .tdense .d true, .obj (.viewTDense .mat) .d false]),
  (.blas_tenssub, [.obj .tdense .d true, .obj .tdense .d true, .obj (.viewTDense .ten) .d false]),
  (.blas_tenssub, [.obj .tdense .d true, .obj (.viewTDense .vec) .d true, .obj .tdense .d false]),
  (.blas_tenssub, [.obj .tdense .d true, .obj (.viewTDense .vec) .d true, .obj (.viewTDense .vec) .d false]),
  (.blas_tenssub, [.obj .tdense .d true, .obj (.viewTDense .vec) .d true, .obj (.viewTDense .mat) .d false]),
  (.blas_tenssub, [.obj .tdense .d true, .obj (.viewTDense .vec) .d true, .obj (.viewTDense .ten) .d false]),
  (.blas_tenssub, [.obj .tdense .d true, .obj (.viewTDense .mat) .d true, .obj .tdense .d false]),
  (.blas_tenssub, [.obj .tdense .d true, .obj (.viewTDense .mat) .d true, .obj (.viewTDense .vec) .d false]),
  (.blas_tenssub, [.obj .tdense .d true, .obj (.viewTDense .mat) .d true, .obj (.viewTDense .mat) .d false]),
  (.blas_tenssub, [.obj .tdense .d true, .obj (.viewTDense .mat) .d true, .obj (.viewTDense .ten) .d false]),
  (.blas_tenssub, [.obj .tdense .d true, .obj (.viewTDense .ten) .d true, .obj .tdense .d false]),
  (.blas_tenssub, [.obj .tdense .d true, .obj (.viewTDense .ten) .d true, .obj (.viewTDense .vec) .d false]),
  (.blas_tenssub, [.obj .tdense .d true, .obj (.viewTDense .ten) .d true, .obj (.viewTDense .mat) .d false]),
  (.blas_tenssub, [.obj .tdense .d true, .obj (.viewTDense .ten) .d true, .obj (.viewTDense .ten) .d false]),
  (.blas_tenssub, [.obj (.viewTDense .vec) .d true, .obj .tdense .d true, .obj .tdense .d false]),
  (.blas_tenssub, [.obj (.viewTDense .vec) .d true, .obj .tdense .d true, .obj (.viewTDense .vec) .d false]),
  (.blas_tenssub, [.obj (.viewTDense .vec) .d true, .obj .tdense .d true, .obj (.viewTDense .mat) .d false]),
  (.blas_tenssub, [.obj (.viewTDense .vec) .d true, .obj .tdense .d true, .obj (.viewTDense .ten) .d false]),
  (.blas_tenssub, [.obj (.viewTDense .vec) .d true, .obj (.viewTDense .vec) .d true, .obj .tdense .d false]),
  (.blas_tenssub, [.obj (.viewTDense .vec) .d true, .obj (.viewTDense .vec) .d true, .obj (.viewTDense .vec) .d false]),
  (.blas_tenssub, [.obj (.viewTDense .vec) .d true, .obj (.viewTDense .vec) .d true, .obj (.viewTDense .mat) .d false]),
  (.blas_tenssub, [.obj (.viewTDense .vec) .d true, .obj (.viewTDense .vec) .d true, .obj (.viewTDense .ten) .d false]),
  (.blas_tenssub, [.obj (.viewTDense .vec) .d true, .obj (.viewTDense .mat) .d true, .obj .tdense .d false]),
  (.blas_tenssub, [.obj (.viewTDense .vec) .d true, .obj (.viewTDense .mat) .d true, .obj (.viewTDense .vec) .d false]),
  (.blas_tenssub, [.obj (.viewTDense .vec) .d true, .obj (.viewTDense .mat) .d true, .obj (.viewTDense .mat) .d false]),
  (.blas_tenssub, [.obj (.viewTDense .vec) .d true, .obj (.viewTDense .mat) .d true, .obj (.viewTDense .ten) .d false]),
  (.blas_tenssub, [.obj (.viewTDense .vec) .d true, .obj (.viewTDense .ten) .d true, .obj .tdense .d false]),
  (.blas_tenssub, [.obj (.viewTDense .vec) .d true, .obj (.viewTDense .ten) .d true, .obj (.viewTDense .vec) .d false])]

/-- the overloads of `tBlasTenAddSub_2` that are declared -/
def hBlasTenAddSub_2 : List (Fn × List Par) := [
  (.blas_tenssub, [.obj (.viewTDense .vec) .d true, .obj (.viewTDense .ten) .d true, .obj (.viewTDense .mat) .d false]),
  (.blas_tenssub, [.obj (.viewTDense .vec) .d true, .obj (.viewTDense .ten) .d true, .obj (.viewTDense .ten) .d false]),
  (.blas_tenssub, [.obj (.viewTDense .mat) .d true, .obj .tdense .d true, .obj .tdense .d false]),
  (.blas_tenssub, [.obj (.viewTDense .mat) .d true, .obj .tdense .d true, .obj (.viewTDense .vec) .d false]),
  (.blas_tenssub, [.obj (.viewTDense .mat) .d true, .obj .tdense .d true, .obj (.viewTDense .mat) .d false]),
  (.blas_tenssub, [.obj (.viewTDense .mat) .d true, .obj .tdense .d true, .obj (.viewTDense .ten) .d false]),
  (.blas_tenssub, [.obj (.viewTDense .mat) .d true, .obj (.viewTDense .vec) .d true, .obj .tdense .d false]),
  (.blas_tenssub, [.obj (.viewTDense .mat) .d true, .obj (.viewTDense .vec) .d true, .obj (.viewTDense .vec) .d false]),
  (.blas_tenssub, [.obj (.viewTDense .mat) .d true, .obj (.viewTDense .vec) .d true, .obj (.viewTDense .mat) .d false]),
  (.blas_tenssub, [.obj (.viewTDense .mat) .d true, .obj (.viewTDense .vec) .d true, .obj (.viewTDense .ten) .d false]),
  (.blas_tenssub, [.obj (.viewTDense .mat) .d true, .obj (.viewTDense .mat) .d true, .obj .tdense .d false]),
  (.blas_tenssub, [.obj (.viewTDense .mat) .d true, .obj (.viewTDense .mat) .d true, .obj (.viewTDense .vec) .d false]),
  (.blas_tenssub, [.obj (.viewTDense .mat) .d true, .obj (.viewTDense .mat) .d true, .obj (.viewTDense .mat) .d false]),
  (.blas_tenssub, [.obj (.viewTDense .mat) .d true, .obj (.viewTDense .mat) .d true, .obj (.viewTDense .ten) .d false]),
  (.blas_tenssub, [.obj (.viewTDense .mat) .d true, .obj (.viewTDense .ten) .d true, .obj .tdense .d false]),
  (.blas_tenssub, [.obj (.viewTDense .mat) .d true, .obj (.viewTDense .ten) .d true, .obj (.viewTDense .vec) .d false]),
  (.blas_tenssub, [.obj (.viewTDense .mat) .d true, .obj (.viewTDense .ten) .d true, .obj (.viewTDense .mat) .d false]),
  (.blas_tenssub, [.obj (.viewTDense .mat) .d true, .obj (.viewTDense .ten) .d true, .obj (.viewTDense .ten) .d false]),
  (.blas_tenssub, [.obj (.viewTDense .ten) .d true, .obj .tdense .d true, .obj .tdense .d false]),
  (.blas_tenssub, [.obj (.viewTDense .ten) .d true, .obj .tdense .d true, .obj (.viewTDense .vec) .d false]),
  (.blas_tenssub, [.obj (.viewTDense .ten) .d true, .obj .tdense .d true, .obj (.viewTDense .mat) .d false]),
  (.blas_tenssub, [.obj (.viewTDense .ten) .d true, .obj .tdense .d true, .obj (.viewTDense .ten) .d false]),
  (.blas_tenssub, [.obj (.viewTDense .ten) .d true, .obj (.viewTDense .vec) .d true, .obj .tdense .d false]),
  (.blas_tenssub, [.obj (.viewTDense .ten) .d true, .obj (.viewTDense .vec) .d true, .obj (.viewTDense .vec) .d false]),
  (.blas_tenssub, [.obj (.viewTDense .ten) .d true, .obj (.viewTDense .vec) .d true, .obj (.viewTDense .mat) .d false]),
  (.blas_tenssub, [.obj (.viewTDense .ten) .d true, .obj (.viewTDense .vec) .d true, .obj (.viewTDense .ten) .d false]),
  (.blas_tenssub, [.obj (.viewTDense .ten) .d true, .obj (.viewTDense .mat) .d true, .obj .tdense .d false]),
  (.blas_tenssub, [.obj (.viewTDense .ten) .d true, .obj (.viewTDense .mat) .d true, .obj (.viewTDense .vec) .d false]),
  (.blas_tenssub, [.obj (.viewTDense .ten) .d true, .obj (.viewTDense .mat) .d true, .obj (.viewTDense .mat) .d false]),
  (.blas_tenssub, [.obj (.viewTDense .ten) .d true, .obj (.viewTDense .mat) .d true, .obj (.viewTDense .ten) .d false]),
  (.blas_tenssub, [.obj (.viewTDense .ten) .d true, .obj (.viewTDense .ten) .d true, .obj .tdense .d false]),
  (.blas_tenssub, [.obj (.viewTDense .ten) .d true, .obj (.viewTDense .ten) .d true, .obj (.viewTDense .vec) .d false]),
  (.blas_tenssub, [.obj (.viewTDense .ten) .d true, .obj (.viewTDense .ten) .d true, .obj (.viewTDense .mat) .d false]),
  (.blas_tenssub, [.obj (.viewTDense .ten) .d true, .obj (.viewTDense .ten) .d true, .obj (.viewTDense .ten) .d false]),
  (.blas_tenssub, [.obj .tdense .s true, .obj .tdense .s true, .obj .tdense .s false]),
  (.blas_tenssub, [.obj .tdense .s true, .obj .tdense .s true, .obj (.viewTDense .vec) .s false]),
  (.blas_tenssub, [.obj .tdense .s true, .obj .tdense .s true, .obj (.viewTDense .mat) .s false]),
  (.blas_tenssub, [.obj .tdense .s true, .obj .tdense .s true, .obj (.viewTDense .ten) .s false]),
  (.blas_tenssub, [.obj .tdense .s true, .obj (.viewTDense .vec) .s true, .obj .tdense .s false]),
  (.blas_tenssub, [.obj .tdense .s true, .obj (.viewTDense .vec) .s true, .obj (.viewTDense .vec) .s false]),
  (.blas_tenssub, [.obj .tdense .s true, .obj (.viewTDense .vec) .s true, .obj (.viewTDense .mat) .s false]),
  (.blas_tenssub, [.obj .tdense .s true, .obj (.viewTDense .vec) .s true, .obj (.viewTDense .ten) .s false]),
  (.blas_tenssub, [.obj .tdense .s true, .obj (.viewTDense .mat) .s true, .obj .tdense .s false]),
  (.blas_tenssub, [.obj .tdense .s true, .obj (.viewTDense .mat) .s true, .obj (.viewTDense .vec) .s false]),
  (.blas_tenssub, [.obj .tdense .s true, .obj (.viewTDense .mat) .s true, .obj (.viewTDense .mat) .s false]),
  (.blas_tenssub, [.obj .tdense .s true, .obj (.viewTDense .mat) .s true, .obj (.viewTDense .ten) .s false]),
  (.blas_tenssub, [.obj .tdense .s true, .obj (.viewTDense .ten) .s true, .obj .tdense .s false]),
  (.blas_tenssub, [.obj .tdense .s true, .obj (.viewTDense .ten) .s true, .obj (.viewTDense .vec) .s false]),
  (.blas_tenssub, [.obj .tdense .s true, .obj (.viewTDense .ten) .s true, .obj (.viewTDense .mat) .s false]),
  (.blas_tenssub, [.obj .tdense .s true, .obj (.viewTDense .ten) .s true, .obj (.viewTDense .ten) .s false]),
  (.blas_tenssub, [.obj (.viewTDense .vec) .s true, .obj .tdense .s true, .obj .tdense .s false]),
  (.blas_tenssub, [.obj (.viewTDense .vec) .s true, .obj .tdense .s true, .obj (.viewTDense .vec) .s false]),
  (.blas_tenssub, [.obj (.viewTDense .vec) .s true, .obj .tdense .s true, .obj (.viewTDense .mat) .s false]),
  (.blas_tenssub, [.obj (.viewTDense .vec) .s true, .obj .tdense .s true, .obj (.viewTDense .ten) .s false]),
  (.blas_tenssub, [.obj (.viewTDense .vec) .s true, .obj (.viewTDense .vec) .s true, .obj .tdense .s false]),
  (.blas_tenssub, [.obj (.viewTDense .vec) .s true, .obj (.viewTDense .vec) .s true, .obj (.viewTDense .vec) .s false]),
  (.blas_tenssub, [.obj (.viewTDense .vec) .s true, .obj (.viewTDense .vec) .s true, .obj (.viewTDense .mat) .s false]),
  (.blas_tenssub, [.obj (.viewTDense .vec) .s true, .obj (.viewTDense .vec) .s true, .obj (.viewTDense .ten) .s false]),
  (.blas_tenssub, [.obj (.viewTDense .vec) .s true, .obj (.viewTDense .mat) .s true, .obj .tdense .s false]),
  (.blas_tenssub, [.obj (.viewTDense .vec) .s true, .obj (.viewTDense .mat) .s true, .obj (.viewTDense .vec) .s false]),
  (.blas_tenssub, [.obj (.viewTDense .vec) .s true, .obj (.viewTDense .mat) .s true, .obj (.viewTDense .mat) .s false]),
  (.blas_tenssub, [.obj (.viewTDense .vec) .s true, .obj (.viewTDense .mat) .s true, .obj (.viewTDense .ten) .s false]),
  (.blas_tenssub, [.obj (.viewTDense .vec) .s true, .obj (.viewTDense .ten) .s true, .obj .tdense .s false]),
  (.blas_tenssub, [.obj (.viewTDense .vec) .s true, .obj (.viewTDense .ten) .s true, .obj (.viewTDense .vec) .s false]),
  (.blas_tenssub, [.obj (.viewTDense .vec) .s true, .obj (.viewTDense .ten) .s true, .obj (.viewTDense .mat) .s false]),
  (.blas_tenssub, [.obj (.viewTDense .vec) .s true, .obj (.viewTDense .ten) .s true, .obj (.viewTDense .ten) .s false]),
  (.blas_tenssub, [.obj (.viewTDense .mat) .s true, .obj .tdense .s true, .obj .tdense .s false]),
  (.blas_tenssub, [.obj (.viewTDense .mat) .s true, .obj .tdense .s true, .obj (.viewTDense .vec) .s false]),
  (.blas_tenssub, [.obj (.viewTDense .mat) .s true, .obj .tdense .s true, .obj (.viewTDense .mat) .s false]),
  (.blas_tenssub, [.obj (.viewTDense .mat) .s true, .obj .tdense .s true, .obj (.viewTDense .ten) .s false]),
  (.blas_tenssub, [.obj (.viewTDense .mat) .s true, .obj (.viewTDense .vec) .s true, .obj .tdense .s false]),
  (.blas_tenssub, [.obj (.viewTDense .mat) .s true, .obj (.viewTDense .vec) .s true, .obj (.viewTDense .vec) .s false]),
  (.blas_tenssub, [.obj (.viewTDense .mat) .s true, .obj (.viewTDense .vec) .s true, .obj (.viewTDense .mat) .s false]),
  (.blas_tenssub, [.obj (.viewTDense .mat) .s true, .obj (.viewTDense .vec) .s true, .obj (.viewTDense .ten) .s false]),
  (.blas_tenssub, [.obj (.viewTDense .mat) .s true, .obj (.viewTDense .mat) .s true, .obj .tdense .s false]),
  (.blas_tenssub, [.obj (.viewTDense .mat) .s true, .obj (.viewTDense .mat) .s true, .obj (.viewTDense .vec) .s false]),
  (.blas_tenssub, [.obj (.viewTDense .mat) .s true, .obj (.viewTDense .mat) .s true, .obj (.viewTDense .mat) .s false]),
  (.blas_tenssub, [.obj (.viewTDense .mat) .s true, .obj (.viewTDense .mat) .s true, .obj (.viewTDense .ten) .s false]),
  (.blas_tenssub, [.obj (.viewTDense .mat) .s true, .obj (.viewTDense .ten) .s true, .obj .tdense .s false]),
  (.blas_tenssub, [.obj (.viewTDense .mat) .s true, .obj (.viewTDense .ten) .s true, .obj (.viewTDense .vec) .s false])]

/-- the overloads of `tBlasTenAddSub_3` that are declared -/
def hBlasTenAddSub_3 : List (Fn × List Par) := [
  (.blas_tenssub, [.obj (.viewTDense .mat) .s true, .obj (.viewTDense .ten) .s true, .obj (.viewTDense .mat) .s false]),
  (.blas_tenssub, [.obj (.viewTDense .mat) .s true, .obj (.viewTDense .ten) .s true, .obj (.viewTDense .ten) .s false]),
  (.blas_tenssub, [.obj (.viewTDense .ten) .s true, .obj .tdense .s true, .obj .tdense .s false]),
  (.blas_tenssub, [.obj (.viewTDense .ten) .s true, .obj .tdense .s true, .obj (.viewTDense .vec) .s false]),
  (.blas_tenssub, [.obj (.viewTDense .ten) .s true, .obj .tdense .s true, .obj (.viewTDense .mat) .s false]),
  (.blas_tenssub, [.obj (.viewTDense .ten) .s true, .obj .tdense .s true, .obj (.viewTDense .ten) .s false]),
  (.blas_tenssub, [.obj (.viewTDense .ten) .s true, .obj (.viewTDense .vec) .s true, .obj .tdense .s false]),
  (.blas_tenssub, [.obj (.viewTDense .ten) .s true, .obj (.viewTDense .vec) .s true, .obj (.viewTDense .vec) .s false]),
  (.blas_tenssub, [.obj (.viewTDense .ten) .s true, .obj (.viewTDense .vec) .s true, .obj (.viewTDense .mat) .s false]),
  (.blas_tenssub, [.obj (.viewTDense .ten) .s true, .obj (.viewTDense .vec) .s true, .obj (.viewTDense .ten) .s false]),
  (.blas_tenssub, [.obj (.viewTDense .ten) .s true, .obj (.viewTDense .mat) .s true, .obj .tdense .s false]),
  (.blas_tenssub, [.obj (.viewTDense .ten) .s true, .obj (.viewTDense .mat) .s true, .obj (.viewTDense .vec) .s false]),
  (.blas_tenssub, [.obj (.viewTDense .ten) .s true, .obj (.viewTDense .mat) .s true, .obj (.viewTDense .mat) .s false]),
  (.blas_tenssub, [.obj (.viewTDense .ten) .s true, .obj (.viewTDense .mat) .s true, .obj (.viewTDense .ten) .s false]),
  (.blas_tenssub, [.obj (.viewTDense .ten) .s true, .obj (.viewTDense .ten) .s true, .obj .tdense .s false]),
  (.blas_tenssub, [.obj (.viewTDense .ten) .s true, .obj (.viewTDense .ten) .s true, .obj (.viewTDense .vec) .s false]),
  (.blas_tenssub, [.obj (.viewTDense .ten) .s true, .obj (.viewTDense .ten) .s true, .obj (.viewTDense .mat) .s false]),
  (.blas_tenssub, [.obj (.viewTDense .ten) .s true, .obj (.viewTDense .ten) .s true, .obj (.viewTDense .ten) .s false]),
  (.blas_tenssub, [.obj .tcrs .d true, .obj .tcrs .d true, .obj .tcrs .d false]),
  (.blas_tenssub, [.obj .tcrs .s true, .obj .tcrs .s true, .obj .tcrs .s false])]

/-- the overloads of `tBlasTenScal_0` that are declared -/
def hBlasTenScal_0 : List (Fn × List Par) := [
  (.blas_tscal, [.scal .d, .obj .tdense .d false]),
  (.blas_tscal, [.scal .d, .obj (.viewTDense .vec) .d false]),
  (.blas_tscal, [.scal .d, .obj (.viewTDense .mat) .d false]),
  (.blas_tscal, [.scal .d, .obj (.viewTDense .ten) .d false]),
  (.blas_tscal, [.scal .s, .obj .tdense .s false]),
  (.blas_tscal, [.scal .s, .obj (.viewTDense .vec) .s false]),
  (.blas_tscal, [.scal .s, .obj (.viewTDense .mat) .s false]),
  (.blas_tscal, [.scal .s, .obj (.viewTDense .ten) .s false]),
  (.blas_tscal, [.scal .d, .obj .tcrs .d false]),
  (.blas_tscal, [.scal .s, .obj .tcrs .s false])]

/-- the overloads of `tBlasTenCopy_0` that are declared -/
def hBlasTenCopy_0 : List (Fn × List Par) := [
  (.blas_copy, [.obj .tdense .d true, .obj .tdense .d false]),
  (.blas_copy, [.obj .tdense .d true, .obj (.viewTDense .vec) .d false]),
  (.blas_copy, [.obj .tdense .d true, .obj (.viewTDense .mat) .d false]),
  (.blas_copy, [.obj .tdense .d true, .obj (.viewTDense .ten) .d false]),
  (.blas_copy, [.obj (.viewTDense .vec) .d true, .obj .tdense .d false]),
  (.blas_copy, [.obj (.viewTDense .vec) .d true, .obj (.viewTDense .vec) .d false]),
  (.blas_copy, [.obj (.viewTDense .vec) .d true, .obj (.viewTDense .mat) .d false]),
  (.blas_copy, [.obj (.viewTDense .vec) .d true, .obj (.viewTDense .ten) .d false]),
  (.blas_copy, [.obj (.viewTDense .mat) .d true, .obj .tdense .d false]),
  (.blas_copy, [.obj (.viewTDense .mat) .d true, .obj (.viewTDense .vec) .d false]),
  (.blas_copy, [.obj (.viewTDense .mat) .d true, .obj (.viewTDense .mat) .d false]),
  (.blas_copy, [.obj (.viewTDense .mat) .d true, .obj (.viewTDense .ten) .d false]),
  (.blas_copy, [.obj (.viewTDense .ten) .d true, .obj .tdense .d false]),
  (.blas_copy, [.obj (.viewTDense .ten) .d true, .obj (.viewTDense .vec) .d false]),
  (.blas_copy, [.obj (.viewTDense .ten) .d true, .obj (.viewTDense .mat) .d false]),
  (.blas_copy, [.obj (.viewTDense .ten) .d true, .obj (.viewTDense .ten) .d false]),
  (.blas_copy, [.obj .tdense .s true, .obj .tdense .s false]),
  (.blas_copy, [.obj .tdense .s true, .obj (.viewTDense .vec) .s false]),
  (.blas_copy, [.obj .tdense .s true, .obj (.viewTDense .mat) .s false]),
  (.blas_copy, [.obj .tdense .s true, .obj (.viewTDense .ten) .s false]),
  (.blas_copy, [.obj (.viewTDense .vec) .s true, .obj .tdense .s false]),
  (.blas_copy, [.obj (.viewTDense .vec) .s true, .obj (.viewTDense .vec) .s false]),
  (.blas_copy, [.obj (.viewTDense .vec) .s true, .obj (.viewTDense .mat) .s false]),
  (.blas_copy, [.obj (.viewTDense .vec) .s true, .obj (.viewTDense .ten) .s false]),
  (.blas_copy, [.obj (.viewTDense .mat) .s true, .obj .tdense .s false]),
  (.blas_copy, [.obj (.viewTDense .mat) .s true, .obj (.viewTDense .vec) .s false]),
  (.blas_copy, [.obj (.viewTDense .mat) .s true, .obj (.viewTDense .mat) .s false]),
  (.blas_copy, [.obj (.viewTDense .mat) .s true, .obj (.viewTDense .ten) .s false]),
  (.blas_copy, [.obj (.viewTDense .ten) .s true, .obj .tdense .s false]),
  (.blas_copy, [.obj (.viewTDense .ten) .s true, .obj (.viewTDense .vec) .s false]),
  (.blas_copy, [.obj (.viewTDense .ten) .s true, .obj (.viewTDense .mat) .s false]),
  (.blas_copy, [.obj (.viewTDense .ten) .s true, .obj (.viewTDense .ten) .s false]),
  (.blas_copy, [.obj .tcrs .d true, .obj .tcrs .d false]),
  (.blas_copy, [.obj .tcrs .s true, .obj .tcrs .s false])]

/-- declared without a definition -/
def hExtra : List (Fn × List Par) := []

/-- all declarations (1322), table by table -/
def declared : List (List (Fn × List Par)) :=
  [hBlasVec_0, hBlasVec_1, hBlasVec_2, hBlasVec_3, hBlasVec_4, hBlasVec_5, hBlasVec_6, hBlasVec_7, hBlasVec_8, hBlasMatAddSub_0, hBlasMatAddSub_1, hBlasMatAddSub_2, hBlasMatAddSub_3, hBlasMatTimes_0, hBlasMatAdds_0, hBlasMatScal_0, hBlasMatCopy_0, hBlasTenAddSub_0, hBlasTenAddSub_1, hBlasTenAddSub_2, hBlasTenAddSub_3, hBlasTenScal_0, hBlasTenCopy_0, hExtra]

end Verif.Dispatch.HeaderBlas
