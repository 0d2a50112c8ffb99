import Verif.Model.ProductSrc

/-!
Generated by tools/header_gen.py from /repo/include/monolish/{blas,vml}/*.hpp: declared product functions. Do not edit.
-/

namespace Verif.Product

/-- the overloads of `tMatvec_0` that are declared -/
def hMatvec_0 : List (Fn × List Dispatch.Par) := [
  (.matvec, [.obj .dense .d true, .obj .vector .d true, .obj .vector .d false]),
  (.matvec, [.scal .d, .obj .dense .d true, .obj .vector .d true, .scal .d, .obj .vector .d false]),
  (.matvec, [.obj .dense .d true, .obj .vector .d true, .obj (.view1D .vec) .d false]),
  (.matvec, [.scal .d, .obj .dense .d true, .obj .vector .d true, .scal .d, .obj (.view1D .vec) .d false]),
  (.matvec, [.obj .dense .d true, .obj .vector .d true, .obj (.view1D .mat) .d false]),
  (.matvec, [.scal .d, .obj .dense .d true, .obj .vector .d true, .scal .d, .obj (.view1D .mat) .d false]),
  (.matvec, [.obj .dense .d true, .obj .vector .d true, .obj (.view1D .ten) .d false]),
  (.matvec, [.scal .d, .obj .dense .d true, .obj .vector .d true, .scal .d, .obj (.view1D .ten) .d false]),
  (.matvec, [.obj .dense .d true, .obj (.view1D .vec) .d true, .obj .vector .d false]),
  (.matvec, [.scal .d, .obj .dense .d true, .obj (.view1D .vec) .d true, .scal .d, .obj .vector .d false]),
  (.matvec, [.obj .dense .d true, .obj (.view1D .vec) .d true, .obj (.view1D .vec) .d false]),
  (.matvec, [.scal .d, .obj .dense .d true, .obj (.view1D .vec) .d true, .scal .d, .obj (.view1D .vec) .d false]),
  (.matvec, [.obj .dense .d true, .obj (.view1D .vec) .d true, .obj (.view1D .mat) .d false]),
  (.matvec, [.scal .d, .obj .dense .d true, .obj (.view1D .vec) .d true, .scal .d, .obj (.view1D .mat) .d false]),
  (.matvec, [.obj .dense .d true, .obj (.view1D .vec) .d true, .obj (.view1D .ten) .d false]),
  (.matvec, [.scal .d, .obj .dense .d true, .obj (.view1D .vec) .d true, .scal .d, .obj (.view1D .ten) .d false]),
  (.matvec, [.obj .dense .d true, .obj (.view1D .mat) .d true, .obj .vector .d false]),
  (.matvec, [.scal .d, .obj .dense .d true, .obj (.view1D .mat) .d true, .scal .d, .obj .vector .d false]),
  (.matvec, [.obj .dense .d true, .obj (.view1D .mat) .d true, .obj (.view1D .vec) .d false]),
  (.matvec, [.scal .d, .obj .dense .d true, .obj (.view1D .mat) .d true, .scal .d, .obj (.view1D .vec) .d false])]

/-- the overloads of `tMatvec_1` that are declared -/
def hMatvec_1 : List (Fn × List Dispatch.Par) := [
  (.matvec, [.obj .dense .d true, .obj (.view1D .mat) .d true, .obj (.view1D .mat) .d false]),
  (.matvec, [.scal .d, .obj .dense .d true, .obj (.view1D .mat) .d true, .scal .d, .obj (.view1D .mat) .d false]),
  (.matvec, [.obj .dense .d true, .obj (.view1D .mat) .d true, .obj (.view1D .ten) .d false]),
  (.matvec, [.scal .d, .obj .dense .d true, .obj (.view1D .mat) .d true, .scal .d, .obj (.view1D .ten) .d false]),
  (.matvec, [.obj .dense .d true, .obj (.view1D .ten) .d true, .obj .vector .d false]),
  (.matvec, [.scal .d, .obj .dense .d true, .obj (.view1D .ten) .d true, .scal .d, .obj .vector .d false]),
  (.matvec, [.obj .dense .d true, .obj (.view1D .ten) .d true, .obj (.view1D .vec) .d false]),
  (.matvec, [.scal .d, .obj .dense .d true, .obj (.view1D .ten) .d true, .scal .d, .obj (.view1D .vec) .d false]),
  (.matvec, [.obj .dense .d true, .obj (.view1D .ten) .d true, .obj (.view1D .mat) .d false]),
  (.matvec, [.scal .d, .obj .dense .d true, .obj (.view1D .ten) .d true, .scal .d, .obj (.view1D .mat) .d false]),
  (.matvec, [.obj .dense .d true, .obj (.view1D .ten) .d true, .obj (.view1D .ten) .d false]),
  (.matvec, [.scal .d, .obj .dense .d true, .obj (.view1D .ten) .d true, .scal .d, .obj (.view1D .ten) .d false]),
  (.matvec, [.obj .dense .s true, .obj .vector .s true, .obj .vector .s false]),
  (.matvec, [.scal .s, .obj .dense .s true, .obj .vector .s true, .scal .s, .obj .vector .s false]),
  (.matvec, [.obj .dense .s true, .obj .vector .s true, .obj (.view1D .vec) .s false]),
  (.matvec, [.scal .s, .obj .dense .s true, .obj .vector .s true, .scal .s, .obj (.view1D .vec) .s false]),
  (.matvec, [.obj .dense .s true, .obj .vector .s true, .obj (.view1D .mat) .s false]),
  (.matvec, [.scal .s, .obj .dense .s true, .obj .vector .s true, .scal .s, .obj (.view1D .mat) .s false]),
  (.matvec, [.obj .dense .s true, .obj .vector .s true, .obj (.view1D .ten) .s false]),
  (.matvec, [.scal .s, .obj .dense .s true, .obj .vector .s true, .scal .s, .obj (.view1D .ten) .s false])]

/-- the overloads of `tMatvec_2` that are declared -/
def hMatvec_2 : List (Fn × List Dispatch.Par) := [
  (.matvec, [.obj .dense .s true, .obj (.view1D .vec) .s true, .obj .vector .s false]),
  (.matvec, [.scal .s, .obj .dense .s true, .obj (.view1D .vec) .s true, .scal .s, .obj .vector .s false]),
  (.matvec, [.obj .dense .s true, .obj (.view1D .vec) .s true, .obj (.view1D .vec) .s false]),
  (.matvec, [.scal .s, .obj .dense .s true, .obj (.view1D .vec) .s true, .scal .s, .obj (.view1D .vec) .s false]),
  (.matvec, [.obj .dense .s true, .obj (.view1D .vec) .s true, .obj (.view1D .mat) .s false]),
  (.matvec, [.scal .s, .obj .dense .s true, .obj (.view1D .vec) .s true, .scal .s, .obj (.view1D .mat) .s false]),
  (.matvec, [.obj .dense .s true, .obj (.view1D .vec) .s true, .obj (.view1D .ten) .s false]),
  (.matvec, [.scal .s, .obj .dense .s true, .obj (.view1D .vec) .s true, .scal .s, .obj (.view1D .ten) .s false]),
  (.matvec, [.obj .dense .s true, .obj (.view1D .mat) .s true, .obj .vector .s false]),
  (.matvec, [.scal .s, .obj .dense .s true, .obj (.view1D .mat) .s true, .scal .s, .obj .vector .s false]),
  (.matvec, [.obj .dense .s true, .obj (.view1D .mat) .s true, .obj (.view1D .vec) .s false]),
  (.matvec, [.scal .s, .obj .dense .s true, .obj (.view1D .mat) .s true, .scal .s, .obj (.view1D .vec) .s false]),
  (.matvec, [.obj .dense .s true, .obj (.view1D .mat) .s true, .obj (.view1D .mat) .s false]),
  (.matvec, [.scal .s, .obj .dense .s true, .obj (.view1D .mat) .s true, .scal .s, .obj (.view1D .mat) .s false]),
  (.matvec, [.obj .dense .s true, .obj (.view1D .mat) .s true, .obj (.view1D .ten) .s false]),
  (.matvec, [.scal .s, .obj .dense .s true, .obj (.view1D .mat) .s true, .scal .s, .obj (.view1D .ten) .s false]),
  (.matvec, [.obj .dense .s true, .obj (.view1D .ten) .s true, .obj .vector .s false]),
  (.matvec, [.scal .s, .obj .dense .s true, .obj (.view1D .ten) .s true, .scal .s, .obj .vector .s false]),
  (.matvec, [.obj .dense .s true, .obj (.view1D .ten) .s true, .obj (.view1D .vec) .s false]),
  (.matvec, [.scal .s, .obj .dense .s true, .obj (.view1D .ten) .s true, .scal .s, .obj (.view1D .vec) .s false])]

/-- the overloads of `tMatvec_3` that are declared -/
def hMatvec_3 : List (Fn × List Dispatch.Par) := [
  (.matvec, [.obj .dense .s true, .obj (.view1D .ten) .s true, .obj (.view1D .mat) .s false]),
  (.matvec, [.scal .s, .obj .dense .s true, .obj (.view1D .ten) .s true, .scal .s, .obj (.view1D .mat) .s false]),
  (.matvec, [.obj .dense .s true, .obj (.view1D .ten) .s true, .obj (.view1D .ten) .s false]),
  (.matvec, [.scal .s, .obj .dense .s true, .obj (.view1D .ten) .s true, .scal .s, .obj (.view1D .ten) .s false]),
  (.matvec_N, [.obj .dense .d true, .obj .vector .d true, .obj .vector .d false]),
  (.matvec_N, [.scal .d, .obj .dense .d true, .obj .vector .d true, .scal .d, .obj .vector .d false]),
  (.matvec_N, [.obj .dense .d true, .obj .vector .d true, .obj (.view1D .vec) .d false]),
  (.matvec_N, [.scal .d, .obj .dense .d true, .obj .vector .d true, .scal .d, .obj (.view1D .vec) .d false]),
  (.matvec_N, [.obj .dense .d true, .obj .vector .d true, .obj (.view1D .mat) .d false]),
  (.matvec_N, [.scal .d, .obj .dense .d true, .obj .vector .d true, .scal .d, .obj (.view1D .mat) .d false]),
  (.matvec_N, [.obj .dense .d true, .obj .vector .d true, .obj (.view1D .ten) .d false]),
  (.matvec_N, [.scal .d, .obj .dense .d true, .obj .vector .d true, .scal .d, .obj (.view1D .ten) .d false]),
  (.matvec_N, [.obj .dense .d true, .obj (.view1D .vec) .d true, .obj .vector .d false]),
  (.matvec_N, [.scal .d, .obj .dense .d true, .obj (.view1D .vec) .d true, .scal .d, .obj .vector .d false]),
  (.matvec_N, [.obj .dense .d true, .obj (.view1D .vec) .d true, .obj (.view1D .vec) .d false]),
  (.matvec_N, [.scal .d, .obj .dense .d true, .obj (.view1D .vec) .d true, .scal .d, .obj (.view1D .vec) .d false]),
  (.matvec_N, [.obj .dense .d true, .obj (.view1D .vec) .d true, .obj (.view1D .mat) .d false]),
  (.matvec_N, [.scal .d, .obj .dense .d true, .obj (.view1D .vec) .d true, .scal .d, .obj (.view1D .mat) .d false]),
  (.matvec_N, [.obj .dense .d true, .obj (.view1D .vec) .d true, .obj (.view1D .ten) .d false]),
  (.matvec_N, [.scal .d, .obj .dense .d true, .obj (.view1D .vec) .d true, .scal .d, .obj (.view1D .ten) .d false])]

/-- the overloads of `tMatvec_4` that are declared -/
def hMatvec_4 : List (Fn × List Dispatch.Par) := [
  (.matvec_N, [.obj .dense .d true, .obj (.view1D .mat) .d true, .obj .vector .d false]),
  (.matvec_N, [.scal .d, .obj .dense .d true, .obj (.view1D .mat) .d true, .scal .d, .obj .vector .d false]),
  (.matvec_N, [.obj .dense .d true, .obj (.view1D .mat) .d true, .obj (.view1D .vec) .d false]),
  (.matvec_N, [.scal .d, .obj .dense .d true, .obj (.view1D .mat) .d true, .scal .d, .obj (.view1D .vec) .d false]),
  (.matvec_N, [.obj .dense .d true, .obj (.view1D .mat) .d true, .obj (.view1D .mat) .d false]),
  (.matvec_N, [.scal .d, .obj .dense .d true, .obj (.view1D .mat) .d true, .scal .d, .obj (.view1D .mat) .d false]),
  (.matvec_N, [.obj .dense .d true, .obj (.view1D .mat) .d true, .obj (.view1D .ten) .d false]),
  (.matvec_N, [.scal .d, .obj .dense .d true, .obj (.view1D .mat) .d true, .scal .d, .obj (.view1D .ten) .d false]),
  (.matvec_N, [.obj .dense .d true, .obj (.view1D .ten) .d true, .obj .vector .d false]),
  (.matvec_N, [.scal .d, .obj .dense .d true, .obj (.view1D .ten) .d true, .scal .d, .obj .vector .d false]),
  (.matvec_N, [.obj .dense .d true, .obj (.view1D .ten) .d true, .obj (.view1D .vec) .d false]),
  (.matvec_N, [.scal .d, .obj .dense .d true, .obj (.view1D .ten) .d true, .scal .d, .obj (.view1D .vec) .d false]),
  (.matvec_N, [.obj .dense .d true, .obj (.view1D .ten) .d true, .obj (.view1D .mat) .d false]),
  (.matvec_N, [.scal .d, .obj .dense .d true, .obj (.view1D .ten) .d true, .scal .d, .obj (.view1D .mat) .d false]),
  (.matvec_N, [.obj .dense .d true, .obj (.view1D .ten) .d true, .obj (.view1D .ten) .d false]),
  (.matvec_N, [.scal .d, .obj .dense .d true, .obj (.view1D .ten) .d true, .scal .d, .obj (.view1D .ten) .d false]),
  (.matvec_N, [.obj .dense .s true, .obj .vector .s true, .obj .vector .s false]),
  (.matvec_N, [.scal .s, .obj .dense .s true, .obj .vector .s true, .scal .s, .obj .vector .s false]),
  (.matvec_N, [.obj .dense .s true, .obj .vector .s true, .obj (.view1D .vec) .s false]),
  (.matvec_N, [.scal .s, .obj .dense .s true, .obj .vector .s true, .scal .s, .obj (.view1D .vec) .s false])]

/-- the overloads of `tMatvec_5` that are declared -/
def hMatvec_5 : List (Fn × List Dispatch.Par) := [
  (.matvec_N, [.obj .dense .s true, .obj .vector .s true, .obj (.view1D .mat) .s false]),
  (.matvec_N, [.scal .s, .obj .dense .s true, .obj .vector .s true, .scal .s, .obj (.view1D .mat) .s false]),
  (.matvec_N, [.obj .dense .s true, .obj .vector .s true, .obj (.view1D .ten) .s false]),
  (.matvec_N, [.scal .s, .obj .dense .s true, .obj .vector .s true, .scal .s, .obj (.view1D .ten) .s false]),
  (.matvec_N, [.obj .dense .s true, .obj (.view1D .vec) .s true, .obj .vector .s false]),
  (.matvec_N, [.scal .s, .obj .dense .s true, .obj (.view1D .vec) .s true, .scal .s, .obj .vector .s false]),
  (.matvec_N, [.obj .dense .s true, .obj (.view1D .vec) .s true, .obj (.view1D .vec) .s false]),
  (.matvec_N, [.scal .s, .obj .dense .s true, .obj (.view1D .vec) .s true, .scal .s, .obj (.view1D .vec) .s false]),
  (.matvec_N, [.obj .dense .s true, .obj (.view1D .vec) .s true, .obj (.view1D .mat) .s false]),
  (.matvec_N, [.scal .s, .obj .dense .s true, .obj (.view1D .vec) .s true, .scal .s, .obj (.view1D .mat) .s false]),
  (.matvec_N, [.obj .dense .s true, .obj (.view1D .vec) .s true, .obj (.view1D .ten) .s false]),
  (.matvec_N, [.scal .s, .obj .dense .s true, .obj (.view1D .vec) .s true, .scal .s, .obj (.view1D .ten) .s false]),
  (.matvec_N, [.obj .dense .s true, .obj (.view1D .mat) .s true, .obj .vector .s false]),
  (.matvec_N, [.scal .s, .obj .dense .s true, .obj (.view1D .mat) .s true, .scal .s, .obj .vector .s false]),
  (.matvec_N, [.obj .dense .s true, .obj (.view1D .mat) .s true, .obj (.view1D .vec) .s false]),
  (.matvec_N, [.scal .s, .obj .dense .s true, .obj (.view1D .mat) .s true, .scal .s, .obj (.view1D .vec) .s false]),
  (.matvec_N, [.obj .dense .s true, .obj (.view1D .mat) .s true, .obj (.view1D .mat) .s false]),
  (.matvec_N, [.scal .s, .obj .dense .s true, .obj (.view1D .mat) .s true, .scal .s, .obj (.view1D .mat) .s false]),
  (.matvec_N, [.obj .dense .s true, .obj (.view1D .mat) .s true, .obj (.view1D .ten) .s false]),
  (.matvec_N, [.scal .s, .obj .dense .s true, .obj (.view1D .mat) .s true, .scal .s, .obj (.view1D .ten) .s false])]

/-- the overloads of `tMatvec_6` that are declared -/
def hMatvec_6 : List (Fn × List Dispatch.Par) := [
  (.matvec_N, [.obj .dense .s true, .obj (.view1D .ten) .s true, .obj .vector .s false]),
  (.matvec_N, [.scal .s, .obj .dense .s true, .obj (.view1D .ten) .s true, .scal .s, .obj .vector .s false]),
  (.matvec_N, [.obj .dense .s true, .obj (.view1D .ten) .s true, .obj (.view1D .vec) .s false]),
  (.matvec_N, [.scal .s, .obj .dense .s true, .obj (.view1D .ten) .s true, .scal .s, .obj (.view1D .vec) .s false]),
  (.matvec_N, [.obj .dense .s true, .obj (.view1D .ten) .s true, .obj (.view1D .mat) .s false]),
  (.matvec_N, [.scal .s, .obj .dense .s true, .obj (.view1D .ten) .s true, .scal .s, .obj (.view1D .mat) .s false]),
  (.matvec_N, [.obj .dense .s true, .obj (.view1D .ten) .s true, .obj (.view1D .ten) .s false]),
  (.matvec_N, [.scal .s, .obj .dense .s true, .obj (.view1D .ten) .s true, .scal .s, .obj (.view1D .ten) .s false]),
  (.matvec_T, [.obj .dense .d true, .obj .vector .d true, .obj .vector .d false]),
  (.matvec_T, [.scal .d, .obj .dense .d true, .obj .vector .d true, .scal .d, .obj .vector .d false]),
  (.matvec_T, [.obj .dense .d true, .obj .vector .d true, .obj (.view1D .vec) .d false]),
  (.matvec_T, [.scal .d, .obj .dense .d true, .obj .vector .d true, .scal .d, .obj (.view1D .vec) .d false]),
  (.matvec_T, [.obj .dense .d true, .obj .vector .d true, .obj (.view1D .mat) .d false]),
  (.matvec_T, [.scal .d, .obj .dense .d true, .obj .vector .d true, .scal .d, .obj (.view1D .mat) .d false]),
  (.matvec_T, [.obj .dense .d true, .obj .vector .d true, .obj (.view1D .ten) .d false]),
  (.matvec_T, [.scal .d, .obj .dense .d true, .obj .vector .d true, .scal .d, .obj (.view1D .ten) .d false]),
  (.matvec_T, [.obj .dense .d true, .obj (.view1D .vec) .d true, .obj .vector .d false]),
  (.matvec_T, [.scal .d, .obj .dense .d true, .obj (.view1D .vec) .d true, .scal .d, .obj .vector .d false]),
  (.matvec_T, [.obj .dense .d true, .obj (.view1D .vec) .d true, .obj (.view1D .vec) .d false]),
  (.matvec_T, [.scal .d, .obj .dense .d true, .obj (.view1D .vec) .d true, .scal .d, .obj (.view1D .vec) .d false])]

/-- the overloads of `tMatvec_7` that are declared -/
def hMatvec_7 : List (Fn × List Dispatch.Par) := [
  (.matvec_T, [.obj .dense .d true, .obj (.view1D .vec) .d true, .obj (.view1D .mat) .d false]),
  (.matvec_T, [.scal .d, .obj .dense .d true, .obj (.view1D .vec) .d true, .scal .d, .obj (.view1D .mat) .d false]),
  (.matvec_T, [.obj .dense .d true, .obj (.view1D .vec) .d true, .obj (.view1D .ten) .d false]),
  (.matvec_T, [.scal .d, .obj .dense .d true, .obj (.view1D .vec) .d true, .scal .d, .obj (.view1D .ten) .d false]),
  (.matvec_T, [.obj .dense .d true, .obj (.view1D .mat) .d true, .obj .vector .d false]),
  (.matvec_T, [.scal .d, .obj .dense .d true, .obj (.view1D .mat) .d true, .scal .d, .obj .vector .d false]),
  (.matvec_T, [.obj .dense .d true, .obj (.view1D .mat) .d true, .obj (.view1D .vec) .d false]),
  (.matvec_T, [.scal .d, .obj .dense .d true, .obj (.view1D .mat) .d true, .scal .d, .obj (.view1D .vec) .d false]),
  (.matvec_T, [.obj .dense .d true, .obj (.view1D .mat) .d true, .obj (.view1D .mat) .d false]),
  (.matvec_T, [.scal .d, .obj .dense .d true, .obj (.view1D .mat) .d true, .scal .d, .obj (.view1D .mat) .d false]),
  (.matvec_T, [.obj .dense .d true, .obj (.view1D .mat) .d true, .obj (.view1D .ten) .d false]),
  (.matvec_T, [.scal .d, .obj .dense .d true, .obj (.view1D .mat) .d true, .scal .d, .obj (.view1D .ten) .d false]),
  (.matvec_T, [.obj .dense .d true, .obj (.view1D .ten) .d true, .obj .vector .d false]),
  (.matvec_T, [.scal .d, .obj .dense .d true, .obj (.view1D .ten) .d true, .scal .d, .obj .vector .d false]),
  (.matvec_T, [.obj .dense .d true, .obj (.view1D .ten) .d true, .obj (.view1D .vec) .d false]),
  (.matvec_T, [.scal .d, .obj .dense .d true, .obj (.view1D .ten) .d true, .scal .d, .obj (.view1D .vec) .d false]),
  (.matvec_T, [.obj .dense .d true, .obj (.view1D .ten) .d true, .obj (.view1D .mat) .d false]),
  (.matvec_T, [.scal .d, .obj .dense .d true, .obj (.view1D .ten) .d true, .scal .d, .obj (.view1D .mat) .d false]),
  (.matvec_T, [.obj .dense .d true, .obj (.view1D .ten) .d true, .obj (.view1D .ten) .d false]),
  (.matvec_T, [.scal .d, .obj .dense .d true, .obj (.view1D .ten) .d true, .scal .d, .obj (.view1D .ten) .d false])]

/-- the overloads of `tMatvec_8` that are declared -/
def hMatvec_8 : List (Fn × List Dispatch.Par) := [
  (.matvec_T, [.obj .dense .s true, .obj .vector .s true, .obj .vector .s false]),
  (.matvec_T, [.scal .s, .obj .dense .s true, .obj .vector .s true, .scal .s, .obj .vector .s false]),
  (.matvec_T, [.obj .dense .s true, .obj .vector .s true, .obj (.view1D .vec) .s false]),
  (.matvec_T, [.scal .s, .obj .dense .s true, .obj .vector .s true, .scal .s, .obj (.view1D .vec) .s false]),
  (.matvec_T, [.obj .dense .s true, .obj .vector .s true, .obj (.view1D .mat) .s false]),
  (.matvec_T, [.scal .s, .obj .dense .s true, .obj .vector .s true, .scal .s, .obj (.view1D .mat) .s false]),
  (.matvec_T, [.obj .dense .s true, .obj .vector .s true, .obj (.view1D .ten) .s false]),
  (.matvec_T, [.scal .s, .obj .dense .s true, .obj .vector .s true, .scal .s, .obj (.view1D .ten) .s false]),
  (.matvec_T, [.obj .dense .s true, .obj (.view1D .vec) .s true, .obj .vector .s false]),
  (.matvec_T, [.scal .s, .obj .dense .s true, .obj (.view1D .vec) .s true, .scal .s, .obj .vector .s false]),
  (.matvec_T, [.obj .dense .s true, .obj (.view1D .vec) .s true, .obj (.view1D .vec) .s false]),
  (.matvec_T, [.scal .s, .obj .dense .s true, .obj (.view1D .vec) .s true, .scal .s, .obj (.view1D .vec) .s false]),
  (.matvec_T, [.obj .dense .s true, .obj (.view1D .vec) .s true, .obj (.view1D .mat) .s false]),
  (.matvec_T, [.scal .s, .obj .dense .s true, .obj (.view1D .vec) .s true, .scal .s, .obj (.view1D .mat) .s false]),
  (.matvec_T, [.obj .dense .s true, .obj (.view1D .vec) .s true, .obj (.view1D .ten) .s false]),
  (.matvec_T, [.scal .s, .obj .dense .s true, .obj (.view1D .vec) .s true, .scal .s, .obj (.view1D .ten) .s false]),
  (.matvec_T, [.obj .dense .s true, .obj (.view1D .mat) .s true, .obj .vector .s false]),
  (.matvec_T, [.scal .s, .obj .dense .s true, .obj (.view1D .mat) .s true, .scal .s, .obj .vector .s false]),
  (.matvec_T, [.obj .dense .s true, .obj (.view1D .mat) .s true, .obj (.view1D .vec) .s false]),
  (.matvec_T, [.scal .s, .obj .dense .s true, .obj (.view1D .mat) .s true, .scal .s, .obj (.view1D .vec) .s false])]

/-- the overloads of `tMatvec_9` that are declared -/
def hMatvec_9 : List (Fn × List Dispatch.Par) := [
  (.matvec_T, [.obj .dense .s true, .obj (.view1D .mat) .s true, .obj (.view1D .mat) .s false]),
  (.matvec_T, [.scal .s, .obj .dense .s true, .obj (.view1D .mat) .s true, .scal .s, .obj (.view1D .mat) .s false]),
  (.matvec_T, [.obj .dense .s true, .obj (.view1D .mat) .s true, .obj (.view1D .ten) .s false]),
  (.matvec_T, [.scal .s, .obj .dense .s true, .obj (.view1D .mat) .s true, .scal .s, .obj (.view1D .ten) .s false]),
  (.matvec_T, [.obj .dense .s true, .obj (.view1D .ten) .s true, .obj .vector .s false]),
  (.matvec_T, [.scal .s, .obj .dense .s true, .obj (.view1D .ten) .s true, .scal .s, .obj .vector .s false]),
  (.matvec_T, [.obj .dense .s true, .obj (.view1D .ten) .s true, .obj (.view1D .vec) .s false]),
  (.matvec_T, [.scal .s, .obj .dense .s true, .obj (.view1D .ten) .s true, .scal .s, .obj (.view1D .vec) .s false]),
  (.matvec_T, [.obj .dense .s true, .obj (.view1D .ten) .s true, .obj (.view1D .mat) .s false]),
  (.matvec_T, [.scal .s, .obj .dense .s true, .obj (.view1D .ten) .s true, .scal .s, .obj (.view1D .mat) .s false]),
  (.matvec_T, [.obj .dense .s true, .obj (.view1D .ten) .s true, .obj (.view1D .ten) .s false]),
  (.matvec_T, [.scal .s, .obj .dense .s true, .obj (.view1D .ten) .s true, .scal .s, .obj (.view1D .ten) .s false]),
  (.matvec, [.obj .crs .d true, .obj .vector .d true, .obj .vector .d false]),
  (.matvec, [.scal .d, .obj .crs .d true, .obj .vector .d true, .scal .d, .obj .vector .d false]),
  (.matvec, [.obj .crs .d true, .obj .vector .d true, .obj (.view1D .vec) .d false]),
  (.matvec, [.scal .d, .obj .crs .d true, .obj .vector .d true, .scal .d, .obj (.view1D .vec) .d false]),
  (.matvec, [.obj .crs .d true, .obj .vector .d true, .obj (.view1D .mat) .d false]),
  (.matvec, [.scal .d, .obj .crs .d true, .obj .vector .d true, .scal .d, .obj (.view1D .mat) .d false]),
  (.matvec, [.obj .crs .d true, .obj .vector .d true, .obj (.view1D .ten) .d false]),
  (.matvec, [.scal .d, .obj .crs .d true, .obj .vector .d true, .scal .d, .obj (.view1D .ten) .d false]),
  (.matvec, [.obj .crs .d true, .obj (.view1D .vec) .d true, .obj .vector .d false]),
  (.matvec, [.scal .d, .obj .crs .d true, .obj (.view1D .vec) .d true, .scal .d, .obj .vector .d false]),
  (.matvec, [.obj .crs .d true, .obj (.view1D .vec) .d true, .obj (.view1D .vec) .d false]),
  (.matvec, [.scal .d, .obj .crs .d true, .obj (.view1D .vec) .d true, .scal .d, .obj (.view1D .vec) .d false]),
  (.matvec, [.obj .crs .d true, .obj (.view1D .vec) .d true, .obj (.view1D .mat) .d false]),
  (.matvec, [.scal .d, .obj .crs .d true, .obj (.view1D .vec) .d true, .scal .d, .obj (.view1D .mat) .d false]),
  (.matvec, [.obj .crs .d true, .obj (.view1D .vec) .d true, .obj (.view1D .ten) .d false]),
  (.matvec, [.scal .d, .obj .crs .d true, .obj (.view1D .vec) .d true, .scal .d, .obj (.view1D .ten) .d false]),
  (.matvec, [.obj .crs .d true, .obj (.view1D .mat) .d true, .obj .vector .d false]),
  (.matvec, [.scal .d, .obj .crs .d true, .obj (.view1D .mat) .d true, .scal .d, .obj .vector .d false]),
  (.matvec, [.obj .crs .d true, .obj (.view1D .mat) .d true, .obj (.view1D .vec) .d false]),
  (.matvec, [.scal .d, .obj .crs .d true, .obj (.view1D .mat) .d true, .scal .d, .obj (.view1D .vec) .d false]),
  (.matvec, [.obj .crs .d true, .obj (.view1D .mat) .d true, .obj (.view1D .mat) .d false]),
  (.matvec, [.scal .d, .obj .crs .d true, .obj (.view1D .mat) .d true, .scal .d, .obj (.view1D .mat) .d false]),
  (.matvec, [.obj .crs .d true, .obj (.view1D .mat) .d true, .obj (.view1D .ten) .d false]),
  (.matvec, [.scal .d, .obj .crs .d true, .obj (.view1D .mat) .d true, .scal .d, .obj (.view1D .ten) .d false]),
  (.matvec, [.obj .crs .d true, .obj (.view1D .ten) .d true, .obj .vector .d false]),
  (.matvec, [.scal .d, .obj .crs .d true, .obj (.view1D .ten) .d true, .scal .d, .obj .vector .d false]),
  (.matvec, [.obj .crs .d true, .obj (.view1D .ten) .d true, .obj (.view1D .vec) .d false]),
  (.matvec, [.scal .d, .obj .crs .d true, .obj (.view1D .ten) .d true, .scal .d, .obj (.view1D .vec) .d false]),
  (.matvec, [.obj .crs .d true, .obj (.view1D .ten) .d true, .obj (.view1D .mat) .d false]),
  (.matvec, [.scal .d, .obj .crs .d true, .obj (.view1D .ten) .d true, .scal .d, .obj (.view1D .mat) .d false]),
  (.matvec, [.obj .crs .d true, .obj (.view1D .ten) .d true, .obj (.view1D .ten) .d false]),
  (.matvec, [.scal .d, .obj .crs .d true, .obj (.view1D .ten) .d true, .scal .d, .obj (.view1D .ten) .d false])]

/-- the overloads of `tMatvec_10` that are declared -/
def hMatvec_10 : List (Fn × List Dispatch.Par) := [
  (.matvec, [.obj .crs .s true, .obj .vector .s true, .obj .vector .s false]),
  (.matvec, [.scal .s, .obj .crs .s true, .obj .vector .s true, .scal .s, .obj .vector .s false]),
  (.matvec, [.obj .crs .s true, .obj .vector .s true, .obj (.view1D .vec) .s false]),
  (.matvec, [.scal .s, .obj .crs .s true, .obj .vector .s true, .scal .s, .obj (.view1D .vec) .s false]),
  (.matvec, [.obj .crs .s true, .obj .vector .s true, .obj (.view1D .mat) .s false]),
  (.matvec, [.scal .s, .obj .crs .s true, .obj .vector .s true, .scal .s, .obj (.view1D .mat) .s false]),
  (.matvec, [.obj .crs .s true, .obj .vector .s true, .obj (.view1D .ten) .s false]),
  (.matvec, [.scal .s, .obj .crs .s true, .obj .vector .s true, .scal .s, .obj (.view1D .ten) .s false]),
  (.matvec, [.obj .crs .s true, .obj (.view1D .vec) .s true, .obj .vector .s false]),
  (.matvec, [.scal .s, .obj .crs .s true, .obj (.view1D .vec) .s true, .scal .s, .obj .vector .s false]),
  (.matvec, [.obj .crs .s true, .obj (.view1D .vec) .s true, .obj (.view1D .vec) .s false]),
  (.matvec, [.scal .s, .obj .crs .s true, .obj (.view1D .vec) .s true, .scal .s, .obj (.view1D .vec) .s false]),
  (.matvec, [.obj .crs .s true, .obj (.view1D .vec) .s true, .obj (.view1D .mat) .s false]),
  (.matvec, [.scal .s, .obj .crs .s true, .obj (.view1D .vec) .s true, .scal .s, .obj (.view1D .mat) .s false]),
  (.matvec, [.obj .crs .s true, .obj (.view1D .vec) .s true, .obj (.view1D .ten) .s false]),
  (.matvec, [.scal .s, .obj .crs .s true, .obj (.view1D .vec) .s true, .scal .s, .obj (.view1D .ten) .s false]),
  (.matvec, [.obj .crs .s true, .obj (.view1D .mat) .s true, .obj .vector .s false]),
  (.matvec, [.scal .s, .obj .crs .s true, .obj (.view1D .mat) .s true, .scal .s, .obj .vector .s false]),
  (.matvec, [.obj .crs .s true, .obj (.view1D .mat) .s true, .obj (.view1D .vec) .s false]),
  (.matvec, [.scal .s, .obj .crs .s true, .obj (.view1D .mat) .s true, .scal .s, .obj (.view1D .vec) .s false]),
  (.matvec, [.obj .crs .s true, .obj (.view1D .mat) .s true, .obj (.view1D .mat) .s false]),
  (.matvec, [.scal .s, .obj .crs .s true, .obj (.view1D .mat) .s true, .scal .s, .obj (.view1D .mat) .s false]),
  (.matvec, [.obj .crs .s true, .obj (.view1D .mat) .s true, .obj (.view1D .ten) .s false]),
  (.matvec, [.scal .s, .obj .crs .s true, .obj (.view1D .mat) .s true, .scal .s, .obj (.view1D .ten) .s false]),
  (.matvec, [.obj .crs .s true, .obj (.view1D .ten) .s true, .obj .vector .s false]),
  (.matvec, [.scal .s, .obj .crs .s true, .obj (.view1D .ten) .s true, .scal .s, .obj .vector .s false]),
  (.matvec, [.obj .crs .s true, .obj (.view1D .ten) .s true, .obj (.view1D .vec) .s false]),
  (.matvec, [.scal .s, .obj .crs .s true, .obj (.view1D .ten) .s true, .scal .s, .obj (.view1D .vec) .s false]),
  (.matvec, [.obj .crs .s true, .obj (.view1D .ten) .s true, .obj (.view1D .mat) .s false]),
  (.matvec, [.scal .s, .obj .crs .s true, .obj (.view1D .ten) .s true, .scal .s, .obj (.view1D .mat) .s false]),
  (.matvec, [.obj .crs .s true, .obj (.view1D .ten) .s true, .obj (.view1D .ten) .s false]),
  (.matvec, [.scal .s, .obj .crs .s true, .obj (.view1D .ten) .s true, .scal .s, .obj (.view1D .ten) .s false]),
  (.matvec_N, [.obj .crs .d true, .obj .vector .d true, .obj .vector .d false]),
  (.matvec_N, [.scal .d, .obj .crs .d true, .obj .vector .d true, .scal .d, .obj .vector .d false]),
  (.matvec_N, [.obj .crs .d true, .obj .vector .d true, .obj (.view1D .vec) .d false]),
  (.matvec_N, [.scal .d, .obj .crs .d true, .obj .vector .d true, .scal .d, .obj (.view1D .vec) .d false]),
  (.matvec_N, [.obj .crs .d true, .obj .vector .d true, .obj (.view1D .mat) .d false]),
  (.matvec_N, [.scal .d, .obj .crs .d true, .obj .vector .d true, .scal .d, .obj (.view1D .mat) .d false]),
  (.matvec_N, [.obj .crs .d true, .obj .vector .d true, .obj (.view1D .ten) .d false]),
  (.matvec_N, [.scal .d, .obj .crs .d true, .obj .vector .d true, .scal .d, .obj (.view1D .ten) .d false]),
  (.matvec_N, [.obj .crs .d true, .obj (.view1D .vec) .d true, .obj .vector .d false]),
  (.matvec_N, [.scal .d, .obj .crs .d true, .obj (.view1D .vec) .d true, .scal .d, .obj .vector .d false]),
  (.matvec_N, [.obj .crs .d true, .obj (.view1D .vec) .d true, .obj (.view1D .vec) .d false]),
  (.matvec_N, [.scal .d, .obj .crs .d true, .obj (.view1D .vec) .d true, .scal .d, .obj (.view1D .vec) .d false]),
  (.matvec_N, [.obj .crs .d true, .obj (.view1D .vec) .d true, .obj (.view1D .mat) .d false]),
  (.matvec_N, [.scal .d, .obj .crs .d true, .obj (.view1D .vec) .d true, .scal .d, .obj (.view1D .mat) .d false]),
  (.matvec_N, [.obj .crs .d true, .obj (.view1D .vec) .d true, .obj (.view1D .ten) .d false]),
  (.matvec_N, [.scal .d, .obj .crs .d true, .obj (.view1D .vec) .d true, .scal .d, .obj (.view1D .ten) .d false]),
  (.matvec_N, [.obj .crs .d true, .obj (.view1D .mat) .d true, .obj .vector .d false]),
  (.matvec_N, [.scal .d, .obj .crs .d true, .obj (.view1D .mat) .d true, .scal .d, .obj .vector .d false]),
  (.matvec_N, [.obj .crs .d true, .obj (.view1D .mat) .d true, .obj (.view1D .vec) .d false]),
  (.matvec_N, [.scal .d, .obj .crs .d true, .obj (.view1D .mat) .d true, .scal .d, .obj (.view1D .vec) .d false]),
  (.matvec_N, [.obj .crs .d true, .obj (.view1D .mat) .d true, .obj (.view1D .mat) .d false]),
  (.matvec_N, [.scal .d, .obj .crs .d true, .obj (.view1D .mat) .d true, .scal .d, .obj (.view1D .mat) .d false]),
  (.matvec_N, [.obj .crs .d true, .obj (.view1D .mat) .d true, .obj (.view1D .ten) .d false]),
  (.matvec_N, [.scal .d, .obj .crs .d true, .obj (.view1D .mat) .d true, .scal .d, .obj (.view1D .ten) .d false]),
  (.matvec_N, [.obj .crs .d true, .obj (.view1D .ten) .d true, .obj .vector .d false]),
  (.matvec_N, [.scal .d, .obj .crs .d true, .obj (.view1D .ten) .d true, .scal .d, .obj .vector .d false]),
  (.matvec_N, [.obj .crs .d true, .obj (.view1D .ten) .d true, .obj (.view1D .vec) .d false]),
  (.matvec_N, [.scal .d, .obj .crs .d true, .obj (.view1D .ten) .d true, .scal .d, .obj (.view1D .vec) .d false]),
  (.matvec_N, [.obj .crs .d true, .obj (.view1D .ten) .d true, .obj (.view1D .mat) .d false]),
  (.matvec_N, [.scal .d, .obj .crs .d true, .obj (.view1D .ten) .d true, .scal .d, .obj (.view1D .mat) .d false]),
  (.matvec_N, [.obj .crs .d true, .obj (.view1D .ten) .d true, .obj (.view1D .ten) .d false]),
  (.matvec_N, [.scal .d, .obj .crs .d true, .obj (.view1D .ten) .d true, .scal .d, .obj (.view1D .ten) .d false]),
  (.matvec_N, [.obj .crs .s true, .obj .vector .s true, .obj .vector .s false]),
  (.matvec_N, [.scal .s, .obj .crs .s true, .obj .vector .s true, .scal .s, .obj .vector .s false]),
  (.matvec_N, [.obj .crs .s true, .obj .vector .s true, .obj (.view1D .vec) .s false]),
  (.matvec_N, [.scal .s, .obj .crs .s true, .obj .vector .s true, .scal .s, .obj (.view1D .vec) .s false]),
  (.matvec_N, [.obj .crs .s true, .obj .vector .s true, .obj (.view1D .mat) .s false]),
  (.matvec_N, [.scal .s, .obj .crs .s true, .obj .vector .s true, .scal .s, .obj (.view1D .mat) .s false]),
  (.matvec_N, [.obj .crs .s true, .obj .vector .s true, .obj (.view1D .ten) .s false]),
  (.matvec_N, [.scal .s, .obj .crs .s true, .obj .vector .s true, .scal .s, .obj (.view1D .ten) .s false]),
  (.matvec_N, [.obj .crs .s true, .obj (.view1D .vec) .s true, .obj .vector .s false]),
  (.matvec_N, [.scal .s, .obj .crs .s true, .obj (.view1D .vec) .s true, .scal .s, .obj .vector .s false]),
  (.matvec_N, [.obj .crs .s true, .obj (.view1D .vec) .s true, .obj (.view1D .vec) .s false]),
  (.matvec_N, [.scal .s, .obj .crs .s true, .obj (.view1D .vec) .s true, .scal .s, .obj (.view1D .vec) .s false]),
  (.matvec_N, [.obj .crs .s true, .obj (.view1D .vec) .s true, .obj (.view1D .mat) .s false]),
  (.matvec_N, [.scal .s, .obj .crs .s true, .obj (.view1D .vec) .s true, .scal .s, .obj (.view1D .mat) .s false]),
  (.matvec_N, [.obj .crs .s true, .obj (.view1D .vec) .s true, .obj (.view1D .ten) .s false]),
  (.matvec_N, [.scal .s, .obj .crs .s true, .obj (.view1D .vec) .s true, .scal .s, .obj (.view1D .ten) .s false])]

/-- the overloads of `tMatvec_11` that are declared -/
def hMatvec_11 : List (Fn × List Dispatch.Par) := [
  (.matvec_N, [.obj .crs .s true, .obj (.view1D .mat) .s true, .obj .vector .s false]),
  (.matvec_N, [.scal .s, .obj .crs .s true, .obj (.view1D .mat) .s true, .scal .s, .obj .vector .s false]),
  (.matvec_N, [.obj .crs .s true, .obj (.view1D .mat) .s true, .obj (.view1D .vec) .s false]),
  (.matvec_N, [.scal .s, .obj .crs .s true, .obj (.view1D .mat) .s true, .scal .s, .obj (.view1D .vec) .s false]),
  (.matvec_N, [.obj .crs .s true, .obj (.view1D .mat) .s true, .obj (.view1D .mat) .s false]),
  (.matvec_N, [.scal .s, .obj .crs .s true, .obj (.view1D .mat) .s true, .scal .s, .obj (.view1D .mat) .s false]),
  (.matvec_N, [.obj .crs .s true, .obj (.view1D .mat) .s true, .obj (.view1D .ten) .s false]),
  (.matvec_N, [.scal .s, .obj .crs .s true, .obj (.view1D .mat) .s true, .scal .s, .obj (.view1D .ten) .s false]),
  (.matvec_N, [.obj .crs .s true, .obj (.view1D .ten) .s true, .obj .vector .s false]),
  (.matvec_N, [.scal .s, .obj .crs .s true, .obj (.view1D .ten) .s true, .scal .s, .obj .vector .s false]),
  (.matvec_N, [.obj .crs .s true, .obj (.view1D .ten) .s true, .obj (.view1D .vec) .s false]),
  (.matvec_N, [.scal .s, .obj .crs .s true, .obj (.view1D .ten) .s true, .scal .s, .obj (.view1D .vec) .s false]),
  (.matvec_N, [.obj .crs .s true, .obj (.view1D .ten) .s true, .obj (.view1D .mat) .s false]),
  (.matvec_N, [.scal .s, .obj .crs .s true, .obj (.view1D .ten) .s true, .scal .s, .obj (.view1D .mat) .s false]),
  (.matvec_N, [.obj .crs .s true, .obj (.view1D .ten) .s true, .obj (.view1D .ten) .s false]),
  (.matvec_N, [.scal .s, .obj .crs .s true, .obj (.view1D .ten) .s true, .scal .s, .obj (.view1D .ten) .s false]),
  (.matvec_T, [.obj .crs .d true, .obj .vector .d true, .obj .vector .d false]),
  (.matvec_T, [.scal .d, .obj .crs .d true, .obj .vector .d true, .scal .d, .obj .vector .d false]),
  (.matvec_T, [.obj .crs .d true, .obj .vector .d true, .obj (.view1D .vec) .d false]),
  (.matvec_T, [.scal .d, .obj .crs .d true, .obj .vector .d true, .scal .d, .obj (.view1D .vec) .d false]),
  (.matvec_T, [.obj .crs .d true, .obj .vector .d true, .obj (.view1D .mat) .d false]),
  (.matvec_T, [.scal .d, .obj .crs .d true, .obj .vector .d true, .scal .d, .obj (.view1D .mat) .d false]),
  (.matvec_T, [.obj .crs .d true, .obj .vector .d true, .obj (.view1D .ten) .d false]),
  (.matvec_T, [.scal .d, .obj .crs .d true, .obj .vector .d true, .scal .d, .obj (.view1D .ten) .d false]),
  (.matvec_T, [.obj .crs .d true, .obj (.view1D .vec) .d true, .obj .vector .d false]),
  (.matvec_T, [.scal .d, .obj .crs .d true, .obj (.view1D .vec) .d true, .scal .d, .obj .vector .d false]),
  (.matvec_T, [.obj .crs .d true, .obj (.view1D .vec) .d true, .obj (.view1D .vec) .d false]),
  (.matvec_T, [.scal .d, .obj .crs .d true, .obj (.view1D .vec) .d true, .scal .d, .obj (.view1D .vec) .d false]),
  (.matvec_T, [.obj .crs .d true, .obj (.view1D .vec) .d true, .obj (.view1D .mat) .d false]),
  (.matvec_T, [.scal .d, .obj .crs .d true, .obj (.view1D .vec) .d true, .scal .d, .obj (.view1D .mat) .d false]),
  (.matvec_T, [.obj .crs .d true, .obj (.view1D .vec) .d true, .obj (.view1D .ten) .d false]),
  (.matvec_T, [.scal .d, .obj .crs .d true, .obj (.view1D .vec) .d true, .scal .d, .obj (.view1D .ten) .d false]),
  (.matvec_T, [.obj .crs .d true, .obj (.view1D .mat) .d true, .obj .vector .d false]),
  (.matvec_T, [.scal .d, .obj .crs .d true, .obj (.view1D .mat) .d true, .scal .d, .obj .vector .d false]),
  (.matvec_T, [.obj .crs .d true, .obj (.view1D .mat) .d true, .obj (.view1D .vec) .d false]),
  (.matvec_T, [.scal .d, .obj .crs .d true, .obj (.view1D .mat) .d true, .scal .d, .obj (.view1D .vec) .d false]),
  (.matvec_T, [.obj .crs .d true, .obj (.view1D .mat) .d true, .obj (.view1D .mat) .d false]),
  (.matvec_T, [.scal .d, .obj .crs .d true, .obj (.view1D .mat) .d true, .scal .d, .obj (.view1D .mat) .d false]),
  (.matvec_T, [.obj .crs .d true, .obj (.view1D .mat) .d true, .obj (.view1D .ten) .d false]),
  (.matvec_T, [.scal .d, .obj .crs .d true, .obj (.view1D .mat) .d true, .scal .d, .obj (.view1D .ten) .d false]),
  (.matvec_T, [.obj .crs .d true, .obj (.view1D .ten) .d true, .obj .vector .d false]),
  (.matvec_T, [.scal .d, .obj .crs .d true, .obj (.view1D .ten) .d true, .scal .d, .obj .vector .d false]),
  (.matvec_T, [.obj .crs .d true, .obj (.view1D .ten) .d true, .obj (.view1D .vec) .d false]),
  (.matvec_T, [.scal .d, .obj .crs .d true, .obj (.view1D .ten) .d true, .scal .d, .obj (.view1D .vec) .d false]),
  (.matvec_T, [.obj .crs .d true, .obj (.view1D .ten) .d true, .obj (.view1D .mat) .d false]),
  (.matvec_T, [.scal .d, .obj .crs .d true, .obj (.view1D .ten) .d true, .scal .d, .obj (.view1D .mat) .d false]),
  (.matvec_T, [.obj .crs .d true, .obj (.view1D .ten) .d true, .obj (.view1D .ten) .d false]),
  (.matvec_T, [.scal .d, .obj .crs .d true, .obj (.view1D .ten) .d true, .scal .d, .obj (.view1D .ten) .d false]),
  (.matvec_T, [.obj .crs .s true, .obj .vector .s true, .obj .vector .s false]),
  (.matvec_T, [.scal .s, .obj .crs .s true, .obj .vector .s true, .scal .s, .obj .vector .s false]),
  (.matvec_T, [.obj .crs .s true, .obj .vector .s true, .obj (.view1D .vec) .s false]),
  (.matvec_T, [.scal .s, .obj .crs .s true, .obj .vector .s true, .scal .s, .obj (.view1D .vec) .s false]),
  (.matvec_T, [.obj .crs .s true, .obj .vector .s true, .obj (.view1D .mat) .s false]),
  (.matvec_T, [.scal .s, .obj .crs .s true, .obj .vector .s true, .scal .s, .obj (.view1D .mat) .s false]),
  (.matvec_T, [.obj .crs .s true, .obj .vector .s true, .obj (.view1D .ten) .s false]),
  (.matvec_T, [.scal .s, .obj .crs .s true, .obj .vector .s true, .scal .s, .obj (.view1D .ten) .s false]),
  (.matvec_T, [.obj .crs .s true, .obj (.view1D .vec) .s true, .obj .vector .s false]),
  (.matvec_T, [.scal .s, .obj .crs .s true, .obj (.view1D .vec) .s true, .scal .s, .obj .vector .s false]),
  (.matvec_T, [.obj .crs .s true, .obj (.view1D .vec) .s true, .obj (.view1D .vec) .s false]),
  (.matvec_T, [.scal .s, .obj .crs .s true, .obj (.view1D .vec) .s true, .scal .s, .obj (.view1D .vec) .s false]),
  (.matvec_T, [.obj .crs .s true, .obj (.view1D .vec) .s true, .obj (.view1D .mat) .s false]),
  (.matvec_T, [.scal .s, .obj .crs .s true, .obj (.view1D .vec) .s true, .scal .s, .obj (.view1D .mat) .s false]),
  (.matvec_T, [.obj .crs .s true, .obj (.view1D .vec) .s true, .obj (.view1D .ten) .s false]),
  (.matvec_T, [.scal .s, .obj .crs .s true, .obj (.view1D .vec) .s true, .scal .s, .obj (.view1D .ten) .s false]),
  (.matvec_T, [.obj .crs .s true, .obj (.view1D .mat) .s true, .obj .vector .s false]),
  (.matvec_T, [.scal .s, .obj .crs .s true, .obj (.view1D .mat) .s true, .scal .s, .obj .vector .s false]),
  (.matvec_T, [.obj .crs .s true, .obj (.view1D .mat) .s true, .obj (.view1D .vec) .s false]),
  (.matvec_T, [.scal .s, .obj .crs .s true, .obj (.view1D .mat) .s true, .scal .s, .obj (.view1D .vec) .s false]),
  (.matvec_T, [.obj .crs .s true, .obj (.view1D .mat) .s true, .obj (.view1D .mat) .s false]),
  (.matvec_T, [.scal .s, .obj .crs .s true, .obj (.view1D .mat) .s true, .scal .s, .obj (.view1D .mat) .s false]),
  (.matvec_T, [.obj .crs .s true, .obj (.view1D .mat) .s true, .obj (.view1D .ten) .s false]),
  (.matvec_T, [.scal .s, .obj .crs .s true, .obj (.view1D .mat) .s true, .scal .s, .obj (.view1D .ten) .s false]),
  (.matvec_T, [.obj .crs .s true, .obj (.view1D .ten) .s true, .obj .vector .s false]),
  (.matvec_T, [.scal .s, .obj .crs .s true, .obj (.view1D .ten) .s true, .scal .s, .obj .vector .s false]),
  (.matvec_T, [.obj .crs .s true, .obj (.view1D .ten) .s true, .obj (.view1D .vec) .s false]),
  (.matvec_T, [.scal .s, .obj .crs .s true, .obj (.view1D .ten) .s true, .scal .s, .obj (.view1D .vec) .s false]),
  (.matvec_T, [.obj .crs .s true, .obj (.view1D .ten) .s true, .obj (.view1D .mat) .s false]),
  (.matvec_T, [.scal .s, .obj .crs .s true, .obj (.view1D .ten) .s true, .scal .s, .obj (.view1D .mat) .s false]),
  (.matvec_T, [.obj .crs .s true, .obj (.view1D .ten) .s true, .obj (.view1D .ten) .s false]),
  (.matvec_T, [.scal .s, .obj .crs .s true, .obj (.view1D .ten) .s true, .scal .s, .obj (.view1D .ten) .s false])]

/-- the overloads of `tMatmul_0` that are declared -/
def hMatmul_0 : List (Fn × List Dispatch.Par) := [
  (.matmul, [.obj .dense .d true, .obj .dense .d true, .obj .dense .d false]),
  (.matmul, [.scal .d, .obj .dense .d true, .obj .dense .d true, .scal .d, .obj .dense .d false]),
  (.matmul, [.obj .dense .d true, .obj .dense .d true, .obj (.viewDense .vec) .d false]),
  (.matmul, [.scal .d, .obj .dense .d true, .obj .dense .d true, .scal .d, .obj (.viewDense .vec) .d false]),
  (.matmul, [.obj .dense .d true, .obj .dense .d true, .obj (.viewDense .mat) .d false]),
  (.matmul, [.scal .d, .obj .dense .d true, .obj .dense .d true, .scal .d, .obj (.viewDense .mat) .d false]),
  (.matmul, [.obj .dense .d true, .obj .dense .d true, .obj (.viewDense .ten) .d false]),
  (.matmul, [.scal .d, .obj .dense .d true, .obj .dense .d true, .scal .d, .obj (.viewDense .ten) .d false]),
  (.matmul, [.obj .dense .d true, .obj (.viewDense .vec) .d true, .obj .dense .d false]),
  (.matmul, [.scal .d, .obj .dense .d true, .obj (.viewDense .vec) .d true, .scal .d, .obj .dense .d false]),
  (.matmul, [.obj .dense .d true, .obj (.viewDense .vec) .d true, .obj (.viewDense .vec) .d false]),
  (.matmul, [.scal .d, .obj .dense .d true, .obj (.viewDense .vec) .d true, .scal .d, .obj (.viewDense .vec) .d false]),
  (.matmul, [.obj .dense .d true, .obj (.viewDense .vec) .d true, .obj (.viewDense .mat) .d false]),
  (.matmul, [.scal .d, .obj .dense .d true, .obj (.viewDense .vec) .d true, .scal .d, .obj (.viewDense .mat) .d false]),
  (.matmul, [.obj .dense .d true, .obj (.viewDense .vec) .d true, .obj (.viewDense .ten) .d false]),
  (.matmul, [.scal .d, .obj .dense .d true, .obj (.viewDense .vec) .d true, .scal .d, .obj (.viewDense .ten) .d false]),
  (.matmul, [.obj .dense .d true, .obj (.viewDense .mat) .d true, .obj .dense .d false]),
  (.matmul, [.scal .d, .obj .dense .d true, .obj (.viewDense .mat) .d true, .scal .d, .obj .dense .d false]),
  (.matmul, [.obj .dense .d true, .obj (.viewDense .mat) .d true, .obj (.viewDense .vec) .d false]),
  (.matmul, [.scal .d, .obj .dense .d true, .obj (.viewDense .mat) .d true, .scal .d, .obj (.viewDense .vec) .d false]),
  (.matmul, [.obj .dense .d true, .obj (.viewDense .mat) .d true, .obj (.viewDense .mat) .d false]),
  (.matmul, [.scal .d, .obj .dense .d true, .obj (.viewDense .mat) .d true, .scal .d, .obj (.viewDense .mat) .d false]),
  (.matmul, [.obj .dense .d true, .obj (.viewDense .mat) .d true, .obj (.viewDense .ten) .d false]),
  (.matmul, [.scal .d, .obj .dense .d true, .obj (.viewDense .mat) .d true, .scal .d, .obj (.viewDense .ten) .d false]),
  (.matmul, [.obj .dense .d true, .obj (.viewDense .ten) .d true, .obj .dense .d false]),
  (.matmul, [.scal .d, .obj .dense .d true, .obj (.viewDense .ten) .d true, .scal .d, .obj .dense .d false]),
  (.matmul, [.obj .dense .d true, .obj (.viewDense .ten) .d true, .obj (.viewDense .vec) .d false]),
  (.matmul, [.scal .d, .obj .dense .d true, .obj (.viewDense .ten) .d true, .scal .d, .obj (.viewDense .vec) .d false]),
  (.matmul, [.obj .dense .d true, .obj (.viewDense .ten) .d true, .obj (.viewDense .mat) .d false]),
  (.matmul, [.scal .d, .obj .dense .d true, .obj (.viewDense .ten) .d true, .scal .d, .obj (.viewDense .mat) .d false]),
  (.matmul, [.obj .dense .d true, .obj (.viewDense .ten) .d true, .obj (.viewDense .ten) .d false]),
  (.matmul, [.scal .d, .obj .dense .d true, .obj (.viewDense .ten) .d true, .scal .d, .obj (.viewDense .ten) .d false]),
  (.matmul, [.obj (.viewDense .vec) .d true, .obj .dense .d true, .obj .dense .d false]),
  (.matmul, [.scal .d, .obj (.viewDense .vec) .d true, .obj .dense .d true, .scal .d, .obj .dense .d false]),
  (.matmul, [.obj (.viewDense .vec) .d true, .obj .dense .d true, .obj (.viewDense .vec) .d false]),
  (.matmul, [.scal .d, .obj (.viewDense .vec) .d true, .obj .dense .d true, .scal .d, .obj (.viewDense .vec) .d false]),
  (.matmul, [.obj (.viewDense .vec) .d true, .obj .dense .d true, .obj (.viewDense .mat) .d false]),
  (.matmul, [.scal .d, .obj (.viewDense .vec) .d true, .obj .dense .d true, .scal .d, .obj (.viewDense .mat) .d false]),
  (.matmul, [.obj (.viewDense .vec) .d true, .obj .dense .d true, .obj (.viewDense .ten) .d false]),
  (.matmul, [.scal .d, .obj (.viewDense .vec) .d true, .obj .dense .d true, .scal .d, .obj (.viewDense .ten) .d false]),
  (.matmul, [.obj (.viewDense .vec) .d true, .obj (.viewDense .vec) .d true, .obj .dense .d false]),
  (.matmul, [.scal .d, .obj (.viewDense .vec) .d true, .obj (.viewDense .vec) .d true, .scal .d, .obj .dense .d false]),
  (.matmul, [.obj (.viewDense .vec) .d true, .obj (.viewDense .vec) .d true, .obj (.viewDense .vec) .d false]),
  (.matmul, [.scal .d, .obj (.viewDense .vec) .d true, .obj (.viewDense .vec) .d true, .scal .d, .obj (.viewDense .vec) .d false]),
  (.matmul, [.obj (.viewDense .vec) .d true, .obj (.viewDense .vec) .d true, .obj (.viewDense .mat) .d false]),
  (.matmul, [.scal .d, .obj (.viewDense .vec) .d true, .obj (.viewDense .vec) .d true, .scal .d, .obj (.viewDense .mat) .d false]),
  (.matmul, [.obj (.viewDense .vec) .d true, .obj (.viewDense .vec) .d true, .obj (.viewDense .ten) .d false]),
  (.matmul, [.scal .d, .obj (.viewDense .vec) .d true, .obj (.viewDense .vec) .d true, .scal .d, .obj (.viewDense .ten) .d false]),
  (.matmul, [.obj (.viewDense .vec) .d true, .obj (.viewDense .mat) .d true, .obj .dense .d false]),
  (.matmul, [.scal .d, .obj (.viewDense .vec) .d true, .obj (.viewDense .mat) .d true, .scal .d, .obj .dense .d false]),
  (.matmul, [.obj (.viewDense .vec) .d true, .obj (.viewDense .mat) .d true, .obj (.viewDense .vec) .d false]),
  (.matmul, [.scal .d, .obj (.viewDense .vec) .d true, .obj (.viewDense .mat) .d true, .scal .d, .obj (.viewDense .vec) .d false]),
  (.matmul, [.obj (.viewDense .vec) .d true, .obj (.viewDense .mat) .d true, .obj (.viewDense .mat) .d false]),
  (.matmul, [.scal .d, .obj (.viewDense .vec) .d true, .obj (.viewDense .mat) .d true, .scal .d, .obj (.viewDense .mat) .d false]),
  (.matmul, [.obj (.viewDense .vec) .d true, .obj (.viewDense .mat) .d true, .obj (.viewDense .ten) .d false]),
  (.matmul, [.scal .d, .obj (.viewDense .vec) .d true, .obj (.viewDense .mat) .d true, .scal .d, .obj (.viewDense .ten) .d false]),
  (.matmul, [.obj (.viewDense .vec) .d true, .obj (.viewDense .ten) .d true, .obj .dense .d false]),
  (.matmul, [.scal .d, .obj (.viewDense .vec) .d true, .obj (.viewDense .ten) .d true, .scal .d, .obj .dense .d false]),
  (.matmul, [.obj (.viewDense .vec) .d true, .obj (.viewDense .ten) .d true, .obj (.viewDense .vec) .d false]),
  (.matmul, [.scal .d, .obj (.viewDense .vec) .d true, .obj (.viewDense .ten) .d true, .scal .d, .obj (.viewDense .vec) .d false]),
  (.matmul, [.obj (.viewDense .vec) .d true, .obj (.viewDense .ten) .d true, .obj (.viewDense .mat) .d false]),
  (.matmul, [.scal .d, .obj (.viewDense .vec) .d true, .obj (.viewDense .ten) .d true, .scal .d, .obj (.viewDense .mat) .d false]),
  (.matmul, [.obj (.viewDense .vec) .d true, .obj (.viewDense .ten) .d true, .obj (.viewDense .ten) .d false]),
  (.matmul, [.scal .d, .obj (.viewDense .vec) .d true, .obj (.viewDense .ten) .d true, .scal .d, .obj (.viewDense .ten) .d false]),
  (.matmul, [.obj (.viewDense .mat) .d true, .obj .dense .d true, .obj .dense .d false]),
  (.matmul, [.scal .d, .obj (.viewDense .mat) .d true, .obj .dense .d true, .scal .d, .obj .dense .d false]),
  (.matmul, [.obj (.viewDense .mat) .d true, .obj .dense .d true, .obj (.viewDense .vec) .d false]),
  (.matmul, [.scal .d, .obj (.viewDense .mat) .d true, .obj .dense .d true, .scal .d, .obj (.viewDense .vec) .d false]),
  (.matmul, [.obj (.viewDense .mat) .d true, .obj .dense .d true, .obj (.viewDense .mat) .d false]),
  (.matmul, [.scal .d, .obj (.viewDense .mat) .d true, .obj .dense .d true, .scal .d, .obj (.viewDense .mat) .d false]),
  (.matmul, [.obj (.viewDense .mat) .d true, .obj .dense .d true, .obj (.viewDense .ten) .d false]),
  (.matmul, [.scal .d, .obj (.viewDense .mat) .d true, .obj .dense .d true, .scal .d, .obj (.viewDense .ten) .d false]),
  (.matmul, [.obj (.viewDense .mat) .d true, .obj (.viewDense .vec) .d true, .obj .dense .d false]),
  (.matmul, [.scal .d, .obj (.viewDense .mat) .d true, .obj (.viewDense .vec) .d true, .scal .d, .obj .dense .d false]),
  (.matmul, [.obj (.viewDense .mat) .d true, .obj (.viewDense .vec) .d true, .obj (.viewDense .vec) .d false]),
  (.matmul, [.scal .d, .obj (.viewDense .mat) .d true, .obj (.viewDense .vec) .d true, .scal .d, .obj (.viewDense .vec) .d false]),
  (.matmul, [.obj (.viewDense .mat) .d true, .obj (.viewDense .vec) .d true, .obj (.viewDense .mat) .d false]),
  (.matmul, [.scal .d, .obj (.viewDense .mat) .d true, .obj (.viewDense .vec) .d true, .scal .d, .obj (.viewDense .mat) .d false]),
  (.matmul, [.obj (.viewDense .mat) .d true, .obj (.viewDense .vec) .d true, .obj (.viewDense .ten) .d false]),
  (.matmul, [.scal .d, .obj (.viewDense .mat) .d true, .obj (.viewDense .vec) .d true, .scal .d, .obj (.viewDense .ten) .d false])]

/-- the overloads of `tMatmul_1` that are declared -/
def hMatmul_1 : List (Fn × List Dispatch.Par) := [
  (.matmul, [.obj (.viewDense .mat) .d true, .obj (.viewDense .mat) .d true, .obj .dense .d false]),
  (.matmul, [.scal .d, .obj (.viewDense .mat) .d true, .obj (.viewDense .mat) .d true, .scal .d, .obj .dense .d false]),
  (.matmul, [.obj (.viewDense .mat) .d true, .obj (.viewDense .mat) .d true, .obj (.viewDense .vec) .d false]),
  (.matmul, [.scal .d, .obj (.viewDense .mat) .d true, .obj (.viewDense .mat) .d true, .scal .d, .obj (.viewDense .vec) .d false]),
  (.matmul, [.obj (.viewDense .mat) .d true, .obj (.viewDense .mat) .d true, .obj (.viewDense .mat) .d false]),
  (.matmul, [.scal .d, .obj (.viewDense .mat) .d true, .obj (.viewDense .mat) .d true, .scal .d, .obj (.viewDense .mat) .d false]),
  (.matmul, [.obj (.viewDense .mat) .d true, .obj (.viewDense .mat) .d true, .obj (.viewDense .ten) .d false]),
  (.matmul, [.scal .d, .obj (.viewDense .mat) .d true, .obj (.viewDense .mat) .d true, .scal .d, .obj (.viewDense .ten) .d false]),
  (.matmul, [.obj (.viewDense .mat) .d true, .obj (.viewDense .ten) .d true, .obj .dense .d false]),
  (.matmul, [.scal .d, .obj (.viewDense .mat) .d true, .obj (.viewDense .ten) .d true, .scal .d, .obj .dense .d false]),
  (.matmul, [.obj (.viewDense .mat) .d true, .obj (.viewDense .ten) .d true, .obj (.viewDense .vec) .d false]),
  (.matmul, [.scal .d, .obj (.viewDense .mat) .d true, .obj (.viewDense .ten) .d true, .scal .d, .obj (.viewDense .vec) .d false]),
  (.matmul, [.obj (.viewDense .mat) .d true, .obj (.viewDense .ten) .d true, .obj (.viewDense .mat) .d false]),
  (.matmul, [.scal .d, .obj (.viewDense .mat) .d true, .obj (.viewDense .ten) .d true, .scal .d, .obj (.viewDense .mat) .d false]),
  (.matmul, [.obj (.viewDense .mat) .d true, .obj (.viewDense .ten) .d true, .obj (.viewDense .ten) .d false]),
  (.matmul, [.scal .d, .obj (.viewDense .mat) .d true, .obj (.viewDense .ten) .d true, .scal .d, .obj (.viewDense .ten) .d false]),
  (.matmul, [.obj (.viewDense .ten) .d true, .obj .dense .d true, .obj .dense .d false]),
  (.matmul, [.scal .d, .obj (.viewDense .ten) .d true, .obj .dense .d true, .scal .d, .obj .dense .d false]),
  (.matmul, [.obj (.viewDense .ten) .d true, .obj .dense .d true, .obj (.viewDense .vec) .d false]),
  (.matmul, [.scal .d, .obj (.viewDense .ten) .d true, .obj .dense .d true, .scal .d, .obj (.viewDense .vec) .d false]),
  (.matmul, [.obj (.viewDense .ten) .d true, .obj .dense .d true, .obj (.viewDense .mat) .d false]),
  (.matmul, [.scal .d, .obj (.viewDense .ten) .d true, .obj .dense .d true, .scal .d, .obj (.viewDense .mat) .d false]),
  (.matmul, [.obj (.viewDense .ten) .d true, .obj .dense .d true, .obj (.viewDense .ten) .d false]),
  (.matmul, [.scal .d, .obj (.viewDense .ten) .d true, .obj .dense .d true, .scal .d, .obj (.viewDense .ten) .d false]),
  (.matmul, [.obj (.viewDense .ten) .d true, .obj (.viewDense .vec) .d true, .obj .dense .d false]),
  (.matmul, [.scal .d, .obj (.viewDense .ten) .d true, .obj (.viewDense .vec) .d true, .scal .d, .obj .dense .d false]),
  (.matmul, [.obj (.viewDense .ten) .d true, .obj (.viewDense .vec) .d true, .obj (.viewDense .vec) .d false]),
  (.matmul, [.scal .d, .obj (.viewDense .ten) .d true, .obj (.viewDense .vec) .d true, .scal .d, .obj (.viewDense .vec) .d false]),
  (.matmul, [.obj (.viewDense .ten) .d true, .obj (.viewDense .vec) .d true, .obj (.viewDense .mat) .d false]),
  (.matmul, [.scal .d, .obj (.viewDense .ten) .d true, .obj (.viewDense .vec) .d true, .scal .d, .obj (.viewDense .mat) .d false]),
  (.matmul, [.obj (.viewDense .ten) .d true, .obj (.viewDense .vec) .d true, .obj (.viewDense .ten) .d false]),
  (.matmul, [.scal .d, .obj (.viewDense .ten) .d true, .obj (.viewDense .vec) .d true, .scal .d, .obj (.viewDense .ten) .d false]),
  (.matmul, [.obj (.viewDense .ten) .d true, .obj (.viewDense .mat) .d true, .obj .dense .d false]),
  (.matmul, [.scal .d, .obj (.viewDense .ten) .d true, .obj (.viewDense .mat) .d true, .scal .d, .obj .dense .d false]),
  (.matmul, [.obj (.viewDense .ten) .d true, .obj (.viewDense .mat) .d true, .obj (.viewDense .vec) .d false]),
  (.matmul, [.scal .d, .obj (.viewDense .ten) .d true, .obj (.viewDense .mat) .d true, .scal .d, .obj (.viewDense .vec) .d false]),
  (.matmul, [.obj (.viewDense .ten) .d true, .obj (.viewDense .mat) .d true, .obj (.viewDense .mat) .d false]),
  (.matmul, [.scal .d, .obj (.viewDense .ten) .d true, .obj (.viewDense .mat) .d true, .scal .d, .obj (.viewDense .mat) .d false]),
  (.matmul, [.obj (.viewDense .ten) .d true, .obj (.viewDense .mat) .d true, .obj (.viewDense .ten) .d false]),
  (.matmul, [.scal .d, .obj (.viewDense .ten) .d true, .obj (.viewDense .mat) .d true, .scal .d, .obj (.viewDense .ten) .d false]),
  (.matmul, [.obj (.viewDense .ten) .d true, .obj (.viewDense .ten) .d true, .obj .dense .d false]),
  (.matmul, [.scal .d, .obj (.viewDense .ten) .d true, .obj (.viewDense .ten) .d true, .scal .d, .obj .dense .d false]),
  (.matmul, [.obj (.viewDense .ten) .d true, .obj (.viewDense .ten) .d true, .obj (.viewDense .vec) .d false]),
  (.matmul, [.scal .d, .obj (.viewDense .ten) .d true, .obj (.viewDense .ten) .d true, .scal .d, .obj (.viewDense .vec) .d false]),
  (.matmul, [.obj (.viewDense .ten) .d true, .obj (.viewDense .ten) .d true, .obj (.viewDense .mat) .d false]),
  (.matmul, [.scal .d, .obj (.viewDense .ten) .d true, .obj (.viewDense .ten) .d true, .scal .d, .obj (.viewDense .mat) .d false]),
  (.matmul, [.obj (.viewDense .ten) .d true, .obj (.viewDense .ten) .d true, .obj (.viewDense .ten) .d false]),
  (.matmul, [.scal .d, .obj (.viewDense .ten) .d true, .obj (.viewDense .ten) .d true, .scal .d, .obj (.viewDense .ten) .d false]),
  (.matmul, [.obj .dense .s true, .obj .dense .s true, .obj .dense .s false]),
  (.matmul, [.scal .s, .obj .dense .s true, .obj .dense .s true, .scal .s, .obj .dense .s false]),
  (.matmul, [.obj .dense .s true, .obj .dense .s true, .obj (.viewDense .vec) .s false]),
  (.matmul, [.scal .s, .obj .dense .s true, .obj .dense .s true, .scal .s, .obj (.viewDense .vec) .s false]),
  (.matmul, [.obj .dense .s true, .obj .dense .s true, .obj (.viewDense .mat) .s false]),
  (.matmul, [.scal .s, .obj .dense .s true, .obj .dense .s true, .scal .s, .obj (.viewDense .mat) .s false]),
  (.matmul, [.obj .dense .s true, .obj .dense .s true, .obj (.viewDense .ten) .s false]),
  (.matmul, [.scal .s, .obj .dense .s true, .obj .dense .s true, .scal .s, .obj (.viewDense .ten) .s false]),
  (.matmul, [.obj .dense .s true, .obj (.viewDense .vec) .s true, .obj .dense .s false]),
  (.matmul, [.scal .s, .obj .dense .s true, .obj (.viewDense .vec) .s true, .scal .s, .obj .dense .s false]),
  (.matmul, [.obj .dense .s true, .obj (.viewDense .vec) .s true, .obj (.viewDense .vec) .s false]),
  (.matmul, [.scal .s, .obj .dense .s true, .obj (.viewDense .vec) .s true, .scal .s, .obj (.viewDense .vec) .s false]),
  (.matmul, [.obj .dense .s true, .obj (.viewDense .vec) .s true, .obj (.viewDense .mat) .s false]),
  (.matmul, [.scal .s, .obj .dense .s true, .obj (.viewDense .vec) .s true, .scal .s, .obj (.viewDense .mat) .s false]),
  (.matmul, [.obj .dense .s true, .obj (.viewDense .vec) .s true, .obj (.viewDense .ten) .s false]),
  (.matmul, [.scal .s, .obj .dense .s true, .obj (.viewDense .vec) .s true, .scal .s, .obj (.viewDense .ten) .s false]),
  (.matmul, [.obj .dense .s true, .obj (.viewDense .mat) .s true, .obj .dense .s false]),
  (.matmul, [.scal .s, .obj .dense .s true, .obj (.viewDense .mat) .s true, .scal .s, .obj .dense .s false]),
  (.matmul, [.obj .dense .s true, .obj (.viewDense .mat) .s true, .obj (.viewDense .vec) .s false]),
  (.matmul, [.scal .s, .obj .dense .s true, .obj (.viewDense .mat) .s true, .scal .s, .obj (.viewDense .vec) .s false]),
  (.matmul, [.obj .dense .s true, .obj (.viewDense .mat) .s true, .obj (.viewDense .mat) .s false]),
  (.matmul, [.scal .s, .obj .dense .s true, .obj (.viewDense .mat) .s true, .scal .s, .obj (.viewDense .mat) .s false]),
  (.matmul, [.obj .dense .s true, .obj (.viewDense .mat) .s true, .obj (.viewDense .ten) .s false]),
  (.matmul, [.scal .s, .obj .dense .s true, .obj (.viewDense .mat) .s true, .scal .s, .obj (.viewDense .ten) .s false]),
  (.matmul, [.obj .dense .s true, .obj (.viewDense .ten) .s true, .obj .dense .s false]),
  (.matmul, [.scal .s, .obj .dense .s true, .obj (.viewDense .ten) .s true, .scal .s, .obj .dense .s false]),
  (.matmul, [.obj .dense .s true, .obj (.viewDense .ten) .s true, .obj (.viewDense .vec) .s false]),
  (.matmul, [.scal .s, .obj .dense .s true, .obj (.viewDense .ten) .s true, .scal .s, .obj (.viewDense .vec) .s false]),
  (.matmul, [.obj .dense .s true, .obj (.viewDense .ten) .s true, .obj (.viewDense .mat) .s false]),
  (.matmul, [.scal .s, .obj .dense .s true, .obj (.viewDense .ten) .s true, .scal .s, .obj (.viewDense .mat) .s false]),
  (.matmul, [.obj .dense .s true, .obj (.viewDense .ten) .s true, .obj (.viewDense .ten) .s false]),
  (.matmul, [.scal .s, .obj .dense .s true, .obj (.viewDense .ten) .s true, .scal .s, .obj (.viewDense .ten) .s false])]

/-- the overloads of `tMatmul_2` that are declared -/
def hMatmul_2 : List (Fn × List Dispatch.Par) := [
  (.matmul, [.obj (.viewDense .vec) .s true, .obj .dense .s true, .obj .dense .s false]),
  (.matmul, [.scal .s, .obj (.viewDense .vec) .s true, .obj .dense .s true, .scal .s, .obj .dense .s false]),
  (.matmul, [.obj (.viewDense .vec) .s true, .obj .dense .s true, .obj (.viewDense .vec) .s false]),
  (.matmul, [.scal .s, .obj (.viewDense .vec) .s true, .obj .dense .s true, .scal .s, .obj (.viewDense .vec) .s false]),
  (.matmul, [.obj (.viewDense .vec) .s true, .obj .dense .s true, .obj (.viewDense .mat) .s false]),
  (.matmul, [.scal .s, .obj (.viewDense .vec) .s true, .obj .dense .s true, .scal .s, .obj (.viewDense .mat) .s false]),
  (.matmul, [.obj (.viewDense .vec) .s true, .obj .dense .s true, .obj (.viewDense .ten) .s false]),
  (.matmul, [.scal .s, .obj (.viewDense .vec) .s true, .obj .dense .s true, .scal .s, .obj (.viewDense .ten) .s false]),
  (.matmul, [.obj (.viewDense .vec) .s true, .obj (.viewDense .vec) .s true, .obj .dense .s false]),
  (.matmul, [.scal .s, .obj (.viewDense .vec) .s true, .obj (.viewDense .vec) .s true, .scal .s, .obj .dense .s false]),
  (.matmul, [.obj (.viewDense .vec) .s true, .obj (.viewDense .vec) .s true, .obj (.viewDense .vec) .s false]),
  (.matmul, [.scal .s, .obj (.viewDense .vec) .s true, .obj (.viewDense .vec) .s true, .scal .s, .obj (.viewDense .vec) .s false]),
  (.matmul, [.obj (.viewDense .vec) .s true, .obj (.viewDense .vec) .s true, .obj (.viewDense .mat) .s false]),
  (.matmul, [.scal .s, .obj (.viewDense .vec) .s true, .obj (.viewDense .vec) .s true, .scal .s, .obj (.viewDense .mat) .s false]),
  (.matmul, [.obj (.viewDense .vec) .s true, .obj (.viewDense .vec) .s true, .obj (.viewDense .ten) .s false]),
  (.matmul, [.scal .s, .obj (.viewDense .vec) .s true, .obj (.viewDense .vec) .s true, .scal .s, .obj (.viewDense .ten) .s false]),
  (.matmul, [.obj (.viewDense .vec) .s true, .obj (.viewDense .mat) .s true, .obj .dense .s false]),
  (.matmul, [.scal .s, .obj (.viewDense .vec) .s true, .obj (.viewDense .mat) .s true, .scal .s, .obj .dense .s false]),
  (.matmul, [.obj (.viewDense .vec) .s true, .obj (.viewDense .mat) .s true, .obj (.viewDense .vec) .s false]),
  (.matmul, [.scal .s, .obj (.viewDense .vec) .s true, .obj (.viewDense .mat) .s true, .scal .s, .obj (.viewDense .vec) .s false]),
  (.matmul, [.obj (.viewDense .vec) .s true, .obj (.viewDense .mat) .s true, .obj (.viewDense .mat) .s false]),
  (.matmul, [.scal .s, .obj (.viewDense .vec) .s true, .obj (.viewDense .mat) .s true, .scal .s, .obj (.viewDense .mat) .s false]),
  (.matmul, [.obj (.viewDense .vec) .s true, .obj (.viewDense .mat) .s true, .obj (.viewDense .ten) .s false]),
  (.matmul, [.scal .s, .obj (.viewDense .vec) .s true, .obj (.viewDense .mat) .s true, .scal .s, .obj (.viewDense .ten) .s false]),
  (.matmul, [.obj (.viewDense .vec) .s true, .obj (.viewDense .ten) .s true, .obj .dense .s false]),
  (.matmul, [.scal .s, .obj (.viewDense .vec) .s true, .obj (.viewDense .ten) .s true, .scal .s, .obj .dense .s false]),
  (.matmul, [.obj (.viewDense .vec) .s true, .obj (.viewDense .ten) .s true, .obj (.viewDense .vec) .s false]),
  (.matmul, [.scal .s, .obj (.viewDense .vec) .s true, .obj (.viewDense .ten) .s true, .scal .s, .obj (.viewDense .vec) .s false]),
  (.matmul, [.obj (.viewDense .vec) .s true, .obj (.viewDense .ten) .s true, .obj (.viewDense .mat) .s false]),
  (.matmul, [.scal .s, .obj (.viewDense .vec) .s true, .obj (.viewDense .ten) .s true, .scal .s, .obj (.viewDense .mat) .s false]),
  (.matmul, [.obj (.viewDense .vec) .s true, .obj (.viewDense .ten) .s true, .obj (.viewDense .ten) .s false]),
  (.matmul, [.scal .s, .obj (.viewDense .vec) .s true, .obj (.viewDense .ten) .s true, .scal .s, .obj (.viewDense .ten) .s false]),
  (.matmul, [.obj (.viewDense .mat) .s true, .obj .dense .s true, .obj .dense .s false]),
  (.matmul, [.scal .s, .obj (.viewDense .mat) .s true, .obj .dense .s true, .scal .s, .obj .dense .s false]),
  (.matmul, [.obj (.viewDense .mat) .s true, .obj .dense .s true, .obj (.viewDense .vec) .s false]),
  (.matmul, [.scal .s, .obj (.viewDense .mat) .s true, .obj .dense .s true, .scal .s, .obj (.viewDense .vec) .s false]),
  (.matmul, [.obj (.viewDense .mat) .s true, .obj .dense .s true, .obj (.viewDense .mat) .s false]),
  (.matmul, [.scal .s, .obj (.viewDense .mat) .s true, .obj .dense .s true, .scal .s, .obj (.viewDense .mat) .s false]),
  (.matmul, [.obj (.viewDense .mat) .s true, .obj .dense .s true, .obj (.viewDense .ten) .s false]),
  (.matmul, [.scal .s, .obj (.viewDense .mat) .s true, .obj .dense .s true, .scal .s, .obj (.viewDense .ten) .s false]),
  (.matmul, [.obj (.viewDense .mat) .s true, .obj (.viewDense .vec) .s true, .obj .dense .s false]),
  (.matmul, [.scal .s, .obj (.viewDense .mat) .s true, .obj (.viewDense .vec) .s true, .scal .s, .obj .dense .s false]),
  (.matmul, [.obj (.viewDense .mat) .s true, .obj (.viewDense .vec) .s true, .obj (.viewDense .vec) .s false]),
  (.matmul, [.scal .s, .obj (.viewDense .mat) .s true, .obj (.viewDense .vec) .s true, .scal .s, .obj (.viewDense .vec) .s false]),
  (.matmul, [.obj (.viewDense .mat) .s true, .obj (.viewDense .vec) .s true, .obj (.viewDense .mat) .s false]),
  (.matmul, [.scal .s, .obj (.viewDense .mat) .s true, .obj (.viewDense .vec) .s true, .scal .s, .obj (.viewDense .mat) .s false]),
  (.matmul, [.obj (.viewDense .mat) .s true, .obj (.viewDense .vec) .s true, .obj (.viewDense .ten) .s false]),
  (.matmul, [.scal .s, .obj (.viewDense .mat) .s true, .obj (.viewDense .vec) .s true, .scal .s, .obj (.viewDense .ten) .s false]),
  (.matmul, [.obj (.viewDense .mat) .s true, .obj (.viewDense .mat) .s true, .obj .dense .s false]),
  (.matmul, [.scal .s, .obj (.viewDense .mat) .s true, .obj (.viewDense .mat) .s true, .scal .s, .obj .dense .s false]),
  (.matmul, [.obj (.viewDense .mat) .s true, .obj (.viewDense .mat) .s true, .obj (.viewDense .vec) .s false]),
  (.matmul, [.scal .s, .obj (.viewDense .mat) .s true, .obj (.viewDense .mat) .s true, .scal .s, .obj (.viewDense .vec) .s false]),
  (.matmul, [.obj (.viewDense .mat) .s true, .obj (.viewDense .mat) .s true, .obj (.viewDense .mat) .s false]),
  (.matmul, [.scal .s, .obj (.viewDense .mat) .s true, .obj (.viewDense .mat) .s true, .scal .s, .obj (.viewDense .mat) .s false]),
  (.matmul, [.obj (.viewDense .mat) .s true, .obj (.viewDense .mat) .s true, .obj (.viewDense .ten) .s false]),
  (.matmul, [.scal .s, .obj (.viewDense .mat) .s true, .obj (.viewDense .mat) .s true, .scal .s, .obj (.viewDense .ten) .s false]),
  (.matmul, [.obj (.viewDense .mat) .s true, .obj (.viewDense .ten) .s true, .obj .dense .s false]),
  (.matmul, [.scal .s, .obj (.viewDense .mat) .s true, .obj (.viewDense .ten) .s true, .scal .s, .obj .dense .s false]),
  (.matmul, [.obj (.viewDense .mat) .s true, .obj (.viewDense .ten) .s true, .obj (.viewDense .vec) .s false]),
  (.matmul, [.scal .s, .obj (.viewDense .mat) .s true, .obj (.viewDense .ten) .s true, .scal .s, .obj (.viewDense .vec) .s false]),
  (.matmul, [.obj (.viewDense .mat) .s true, .obj (.viewDense .ten) .s true, .obj (.viewDense .mat) .s false]),
  (.matmul, [.scal .s, .obj (.viewDense .mat) .s true, .obj (.viewDense .ten) .s true, .scal .s, .obj (.viewDense .mat) .s false]),
  (.matmul, [.obj (.viewDense .mat) .s true, .obj (.viewDense .ten) .s true, .obj (.viewDense .ten) .s false]),
  (.matmul, [.scal .s, .obj (.viewDense .mat) .s true, .obj (.viewDense .ten) .s true, .scal .s, .obj (.viewDense .ten) .s false]),
  (.matmul, [.obj (.viewDense .ten) .s true, .obj .dense .s true, .obj .dense .s false]),
  (.matmul, [.scal .s, .obj (.viewDense .ten) .s true, .obj .dense .s true, .scal .s, .obj .dense .s false]),
  (.matmul, [.obj (.viewDense .ten) .s true, .obj .dense .s true, .obj (.viewDense .vec) .s false]),
  (.matmul, [.scal .s, .obj (.viewDense .ten) .s true, .obj .dense .s true, .scal .s, .obj (.viewDense .vec) .s false]),
  (.matmul, [.obj (.viewDense .ten) .s true, .obj .dense .s true, .obj (.viewDense .mat) .s false]),
  (.matmul, [.scal .s, .obj (.viewDense .ten) .s true, .obj .dense .s true, .scal .s, .obj (.viewDense .mat) .s false]),
  (.matmul, [.obj (.viewDense .ten) .s true, .obj .dense .s true, .obj (.viewDense .ten) .s false]),
  (.matmul, [.scal .s, .obj (.viewDense .ten) .s true, .obj .dense .s true, .scal .s, .obj (.viewDense .ten) .s false]),
  (.matmul, [.obj (.viewDense .ten) .s true, .obj (.viewDense .vec) .s true, .obj .dense .s false]),
  (.matmul, [.scal .s, .obj (.viewDense .ten) .s true, .obj (.viewDense .vec) .s true, .scal .s, .obj .dense .s false]),
  (.matmul, [.obj (.viewDense .ten) .s true, .obj (.viewDense .vec) .s true, .obj (.viewDense .vec) .s false]),
  (.matmul, [.scal .s, .obj (.viewDense .ten) .s true, .obj (.viewDense .vec) .s true, .scal .s, .obj (.viewDense .vec) .s false]),
  (.matmul, [.obj (.viewDense .ten) .s true, .obj (.viewDense .vec) .s true, .obj (.viewDense .mat) .s false]),
  (.matmul, [.scal .s, .obj (.viewDense .ten) .s true, .obj (.viewDense .vec) .s true, .scal .s, .obj (.viewDense .mat) .s false]),
  (.matmul, [.obj (.viewDense .ten) .s true, .obj (.viewDense .vec) .s true, .obj (.viewDense .ten) .s false]),
  (.matmul, [.scal .s, .obj (.viewDense .ten) .s true, .obj (.viewDense .vec) .s true, .scal .s, .obj (.viewDense .ten) .s false])]

/-- the overloads of `tMatmul_3` that are declared -/
def hMatmul_3 : List (Fn × List Dispatch.Par) := [
  (.matmul, [.obj (.viewDense .ten) .s true, .obj (.viewDense .mat) .s true, .obj .dense .s false]),
  (.matmul, [.scal .s, .obj (.viewDense .ten) .s true, .obj (.viewDense .mat) .s true, .scal .s, .obj .dense .s false]),
  (.matmul, [.obj (.viewDense .ten) .s true, .obj (.viewDense .mat) .s true, .obj (.viewDense .vec) .s false]),
  (.matmul, [.scal .s, .obj (.viewDense .ten) .s true, .obj (.viewDense .mat) .s true, .scal .s, .obj (.viewDense .vec) .s false]),
  (.matmul, [.obj (.viewDense .ten) .s true, .obj (.viewDense .mat) .s true, .obj (.viewDense .mat) .s false]),
  (.matmul, [.scal .s, .obj (.viewDense .ten) .s true, .obj (.viewDense .mat) .s true, .scal .s, .obj (.viewDense .mat) .s false]),
  (.matmul, [.obj (.viewDense .ten) .s true, .obj (.viewDense .mat) .s true, .obj (.viewDense .ten) .s false]),
  (.matmul, [.scal .s, .obj (.viewDense .ten) .s true, .obj (.viewDense .mat) .s true, .scal .s, .obj (.viewDense .ten) .s false]),
  (.matmul, [.obj (.viewDense .ten) .s true, .obj (.viewDense .ten) .s true, .obj .dense .s false]),
  (.matmul, [.scal .s, .obj (.viewDense .ten) .s true, .obj (.viewDense .ten) .s true, .scal .s, .obj .dense .s false]),
  (.matmul, [.obj (.viewDense .ten) .s true, .obj (.viewDense .ten) .s true, .obj (.viewDense .vec) .s false]),
  (.matmul, [.scal .s, .obj (.viewDense .ten) .s true, .obj (.viewDense .ten) .s true, .scal .s, .obj (.viewDense .vec) .s false]),
  (.matmul, [.obj (.viewDense .ten) .s true, .obj (.viewDense .ten) .s true, .obj (.viewDense .mat) .s false]),
  (.matmul, [.scal .s, .obj (.viewDense .ten) .s true, .obj (.viewDense .ten) .s true, .scal .s, .obj (.viewDense .mat) .s false]),
  (.matmul, [.obj (.viewDense .ten) .s true, .obj (.viewDense .ten) .s true, .obj (.viewDense .ten) .s false]),
  (.matmul, [.scal .s, .obj (.viewDense .ten) .s true, .obj (.viewDense .ten) .s true, .scal .s, .obj (.viewDense .ten) .s false]),
  (.matmul, [.obj .crs .d true, .obj .dense .d true, .obj .dense .d false]),
  (.matmul, [.scal .d, .obj .crs .d true, .obj .dense .d true, .scal .d, .obj .dense .d false]),
  (.matmul, [.obj .crs .s true, .obj .dense .s true, .obj .dense .s false]),
  (.matmul, [.scal .s, .obj .crs .s true, .obj .dense .s true, .scal .s, .obj .dense .s false])]

/-- the overloads of `tTensvec_0` that are declared -/
def hTensvec_0 : List (Fn × List Dispatch.Par) := [
  (.tensvec, [.obj .tdense .d true, .obj .vector .d true, .obj .tdense .d false]),
  (.tensvec, [.obj .tdense .d true, .obj .vector .d true, .obj (.viewTDense .vec) .d false]),
  (.tensvec, [.obj .tdense .d true, .obj .vector .d true, .obj (.viewTDense .mat) .d false]),
  (.tensvec, [.obj .tdense .d true, .obj .vector .d true, .obj (.viewTDense .ten) .d false]),
  (.tensvec, [.obj .tdense .d true, .obj (.view1D .vec) .d true, .obj .tdense .d false]),
  (.tensvec, [.obj .tdense .d true, .obj (.view1D .vec) .d true, .obj (.viewTDense .vec) .d false]),
  (.tensvec, [.obj .tdense .d true, .obj (.view1D .vec) .d true, .obj (.viewTDense .mat) .d false]),
  (.tensvec, [.obj .tdense .d true, .obj (.view1D .vec) .d true, .obj (.viewTDense .ten) .d false]),
  (.tensvec, [.obj .tdense .d true, .obj (.view1D .mat) .d true, .obj .tdense .d false]),
  (.tensvec, [.obj .tdense .d true, .obj (.view1D .mat) .d true, .obj (.viewTDense .vec) .d false]),
  (.tensvec, [.obj .tdense .d true, .obj (.view1D .mat) .d true, .obj (.viewTDense .mat) .d false]),
  (.tensvec, [.obj .tdense .d true, .obj (.view1D .mat) .d true, .obj (.viewTDense .ten) .d false]),
  (.tensvec, [.obj .tdense .d true, .obj (.view1D .ten) .d true, .obj .tdense .d false]),
  (.tensvec, [.obj .tdense .d true, .obj (.view1D .ten) .d true, .obj (.viewTDense .vec) .d false]),
  (.tensvec, [.obj .tdense .d true, .obj (.view1D .ten) .d true, .obj (.viewTDense .mat) .d false]),
  (.tensvec, [.obj .tdense .d true, .obj (.view1D .ten) .d true, .obj (.viewTDense .ten) .d false]),
  (.tensvec, [.obj (.viewTDense .vec) .d true, .obj .vector .d true, .obj .tdense .d false]),
  (.tensvec, [.obj (.viewTDense .vec) .d true, .obj .vector .d true, .obj (.viewTDense .vec) .d false]),
  (.tensvec, [.obj (.viewTDense .vec) .d true, .obj .vector .d true, .obj (.viewTDense .mat) .d false]),
  (.tensvec, [.obj (.viewTDense .vec) .d true, .obj .vector .d true, .obj (.viewTDense .ten) .d false]),
  (.tensvec, [.obj (.viewTDense .vec) .d true, .obj (.view1D .vec) .d true, .obj .tdense .d false]),
  (.tensvec, [.obj (.viewTDense .vec) .d true, .obj (.view1D .vec) .d true, .obj (.viewTDense .vec) .d false]),
  (.tensvec, [.obj (.viewTDense .vec) .d true, .obj (.view1D .vec) .d true, .obj (.viewTDense .mat) .d false]),
  (.tensvec, [.obj (.viewTDense .vec) .d true, .obj (.view1D .vec) .d true, .obj (.viewTDense .ten) .d false]),
  (.tensvec, [.obj (.viewTDense .vec) .d true, .obj (.view1D .mat) .d true, .obj .tdense .d false]),
  (.tensvec, [.obj (.viewTDense .vec) .d true, .obj (.view1D .mat) .d true, .obj (.viewTDense .vec) .d false]),
  (.tensvec, [.obj (.viewTDense .vec) .d true, .obj (.view1D .mat) .d true, .obj (.viewTDense .mat) .d false]),
  (.tensvec, [.obj (.viewTDense .vec) .d true, .obj (.view1D .mat) .d true, .obj (.viewTDense .ten) .d false]),
  (.tensvec, [.obj (.viewTDense .vec) .d true, .obj (.view1D .ten) .d true, .obj .tdense .d false]),
  (.tensvec, [.obj (.viewTDense .vec) .d true, .obj (.view1D .ten) .d true, .obj (.viewTDense .vec) .d false]),
  (.tensvec, [.obj (.viewTDense .vec) .d true, .obj (.view1D .ten) .d true, .obj (.viewTDense .mat) .d false]),
  (.tensvec, [.obj (.viewTDense .vec) .d true, .obj (.view1D .ten) .d true, .obj (.viewTDense .ten) .d false]),
  (.tensvec, [.obj (.viewTDense .mat) .d true, .obj .vector .d true, .obj .tdense .d false]),
  (.tensvec, [.obj (.viewTDense .mat) .d true, .obj .vector .d true, .obj (.viewTDense .vec) .d false]),
  (.tensvec, [.obj (.viewTDense .mat) .d true, .obj .vector .d true, .obj (.viewTDense .mat) .d false]),
  (.tensvec, [.obj (.viewTDense .mat) .d true, .obj .vector .d true, .obj (.viewTDense .ten) .d false]),
  (.tensvec, [.obj (.viewTDense .mat) .d true, .obj (.view1D .vec) .d true, .obj .tdense .d false]),
  (.tensvec, [.obj (.viewTDense .mat) .d true, .obj (.view1D .vec) .d true, .obj (.viewTDense .vec) .d false]),
  (.tensvec, [.obj (.viewTDense .mat) .d true, .obj (.view1D .vec) .d true, .obj (.viewTDense .mat) .d false]),
  (.tensvec, [.obj (.viewTDense .mat) .d true, .obj (.view1D .vec) .d true, .obj (.viewTDense .ten) .d false])]

/-- the overloads of `tTensvec_1` that are declared -/
def hTensvec_1 : List (Fn × List Dispatch.Par) := [
  (.tensvec, [.obj (.viewTDense .mat) .d true, .obj (.view1D .mat) .d true, .obj .tdense .d false]),
  (.tensvec, [.obj (.viewTDense .mat) .d true, .obj (.view1D .mat) .d true, .obj (.viewTDense .vec) .d false]),
  (.tensvec, [.obj (.viewTDense .mat) .d true, .obj (.view1D .mat) .d true, .obj (.viewTDense .mat) .d false]),
  (.tensvec, [.obj (.viewTDense .mat) .d true, .obj (.view1D .mat) .d true, .obj (.viewTDense .ten) .d false]),
  (.tensvec, [.obj (.viewTDense .mat) .d true, .obj (.view1D .ten) .d true, .obj .tdense .d false]),
  (.tensvec, [.obj (.viewTDense .mat) .d true, .obj (.view1D .ten) .d true, .obj (.viewTDense .vec) .d false]),
  (.tensvec, [.obj (.viewTDense .mat) .d true, .obj (.view1D .ten) .d true, .obj (.viewTDense .mat) .d false]),
  (.tensvec, [.obj (.viewTDense .mat) .d true, .obj (.view1D .ten) .d true, .obj (.viewTDense .ten) .d false]),
  (.tensvec, [.obj (.viewTDense .ten) .d true, .obj .vector .d true, .obj .tdense .d false]),
  (.tensvec, [.obj (.viewTDense .ten) .d true, .obj .vector .d true, .obj (.viewTDense .vec) .d false]),
  (.tensvec, [.obj (.viewTDense .ten) .d true, .obj .vector .d true, .obj (.viewTDense .mat) .d false]),
  (.tensvec, [.obj (.viewTDense .ten) .d true, .obj .vector .d true, .obj (.viewTDense .ten) .d false]),
  (.tensvec, [.obj (.viewTDense .ten) .d true, .obj (.view1D .vec) .d true, .obj .tdense .d false]),
  (.tensvec, [.obj (.viewTDense .ten) .d true, .obj (.view1D .vec) .d true, .obj (.viewTDense .vec) .d false]),
  (.tensvec, [.obj (.viewTDense .ten) .d true, .obj (.view1D .vec) .d true, .obj (.viewTDense .mat) .d false]),
  (.tensvec, [.obj (.viewTDense .ten) .d true, .obj (.view1D .vec) .d true, .obj (.viewTDense .ten) .d false]),
  (.tensvec, [.obj (.viewTDense .ten) .d true, .obj (.view1D .mat) .d true, .obj .tdense .d false]),
  (.tensvec, [.obj (.viewTDense .ten) .d true, .obj (.view1D .mat) .d true, .obj (.viewTDense .vec) .d false]),
  (.tensvec, [.obj (.viewTDense .ten) .d true, .obj (.view1D .mat) .d true, .obj (.viewTDense .mat) .d false]),
  (.tensvec, [.obj (.viewTDense .ten) .d true, .obj (.view1D .mat) .d true, .obj (.viewTDense .ten) .d false]),
  (.tensvec, [.obj (.viewTDense .ten) .d true, .obj (.view1D .ten) .d true, .obj .tdense .d false]),
  (.tensvec, [.obj (.viewTDense .ten) .d true, .obj (.view1D .ten) .d true, .obj (.viewTDense .vec) .d false]),
  (.tensvec, [.obj (.viewTDense .ten) .d true, .obj (.view1D .ten) .d true, .obj (.viewTDense .mat) .d false]),
  (.tensvec, [.obj (.viewTDense .ten) .d true, .obj (.view1D .ten) .d true, .obj (.viewTDense .ten) .d false]),
  (.tensvec, [.obj .tdense .s true, .obj .vector .s true, .obj .tdense .s false]),
  (.tensvec, [.obj .tdense .s true, .obj .vector .s true, .obj (.viewTDense .vec) .s false]),
  (.tensvec, [.obj .tdense .s true, .obj .vector .s true, .obj (.viewTDense .mat) .s false]),
  (.tensvec, [.obj .tdense .s true, .obj .vector .s true, .obj (.viewTDense .ten) .s false]),
  (.tensvec, [.obj .tdense .s true, .obj (.view1D .vec) .s true, .obj .tdense .s false]),
  (.tensvec, [.obj .tdense .s true, .obj (.view1D .vec) .s true, .obj (.viewTDense .vec) .s false]),
  (.tensvec, [.obj .tdense .s true, .obj (.view1D .vec) .s true, .obj (.viewTDense .mat) .s false]),
  (.tensvec, [.obj .tdense .s true, .obj (.view1D .vec) .s true, .obj (.viewTDense .ten) .s false]),
  (.tensvec, [.obj .tdense .s true, .obj (.view1D .mat) .s true, .obj .tdense .s false]),
  (.tensvec, [.obj .tdense .s true, .obj (.view1D .mat) .s true, .obj (.viewTDense .vec) .s false]),
  (.tensvec, [.obj .tdense .s true, .obj (.view1D .mat) .s true, .obj (.viewTDense .mat) .s false]),
  (.tensvec, [.obj .tdense .s true, .obj (.view1D .mat) .s true, .obj (.viewTDense .ten) .s false]),
  (.tensvec, [.obj .tdense .s true, .obj (.view1D .ten) .s true, .obj .tdense .s false]),
  (.tensvec, [.obj .tdense .s true, .obj (.view1D .ten) .s true, .obj (.viewTDense .vec) .s false]),
  (.tensvec, [.obj .tdense .s true, .obj (.view1D .ten) .s true, .obj (.viewTDense .mat) .s false]),
  (.tensvec, [.obj .tdense .s true, .obj (.view1D .ten) .s true, .obj (.viewTDense .ten) .s false])]

/-- the overloads of `tTensvec_2` that are declared -/
def hTensvec_2 : List (Fn × List Dispatch.Par) := [
  (.tensvec, [.obj (.viewTDense .vec) .s true, .obj .vector .s true, .obj .tdense .s false]),
  (.tensvec, [.obj (.viewTDense .vec) .s true, .obj .vector .s true, .obj (.viewTDense .vec) .s false]),
  (.tensvec, [.obj (.viewTDense .vec) .s true, .obj .vector .s true, .obj (.viewTDense .mat) .s false]),
  (.tensvec, [.obj (.viewTDense .vec) .s true, .obj .vector .s true, .obj (.viewTDense .ten) .s false]),
  (.tensvec, [.obj (.viewTDense .vec) .s true, .obj (.view1D .vec) .s true, .obj .tdense .s false]),
  (.tensvec, [.obj (.viewTDense .vec) .s true, .obj (.view1D .vec) .s true, .obj (.viewTDense .vec) .s false]),
  (.tensvec, [.obj (.viewTDense .vec) .s true, .obj (.view1D .vec) .s true, .obj (.viewTDense .mat) .s false]),
  (.tensvec, [.obj (.viewTDense .vec) .s true, .obj (.view1D .vec) .s true, .obj (.viewTDense .ten) .s false]),
  (.tensvec, [.obj (.viewTDense .vec) .s true, .obj (.view1D .mat) .s true, .obj .tdense .s false]),
  (.tensvec, [.obj (.viewTDense .vec) .s true, .obj (.view1D .mat) .s true, .obj (.viewTDense .vec) .s false]),
  (.tensvec, [.obj (.viewTDense .vec) .s true, .obj (.view1D .mat) .s true, .obj (.viewTDense .mat) .s false]),
  (.tensvec, [.obj (.viewTDense .vec) .s true, .obj (.view1D .mat) .s true, .obj (.viewTDense .ten) .s false]),
  (.tensvec, [.obj (.viewTDense .vec) .s true, .obj (.view1D .ten) .s true, .obj .tdense .s false]),
  (.tensvec, [.obj (.viewTDense .vec) .s true, .obj (.view1D .ten) .s true, .obj (.viewTDense .vec) .s false]),
  (.tensvec, [.obj (.viewTDense .vec) .s true, .obj (.view1D .ten) .s true, .obj (.viewTDense .mat) .s false]),
  (.tensvec, [.obj (.viewTDense .vec) .s true, .obj (.view1D .ten) .s true, .obj (.viewTDense .ten) .s false]),
  (.tensvec, [.obj (.viewTDense .mat) .s true, .obj .vector .s true, .obj .tdense .s false]),
  (.tensvec, [.obj (.viewTDense .mat) .s true, .obj .vector .s true, .obj (.viewTDense .vec) .s false]),
  (.tensvec, [.obj (.viewTDense .mat) .s true, .obj .vector .s true, .obj (.viewTDense .mat) .s false]),
  (.tensvec, [.obj (.viewTDense .mat) .s true, .obj .vector .s true, .obj (.viewTDense .ten) .s false]),
  (.tensvec, [.obj (.viewTDense .mat) .s true, .obj (.view1D .vec) .s true, .obj .tdense .s false]),
  (.tensvec, [.obj (.viewTDense .mat) .s true, .obj (.view1D .vec) .s true, .obj (.viewTDense .vec) .s false]),
  (.tensvec, [.obj (.viewTDense .mat) .s true, .obj (.view1D .vec) .s true, .obj (.viewTDense .mat) .s false]),
  (.tensvec, [.obj (.viewTDense .mat) .s true, .obj (.view1D .vec) .s true, .obj (.viewTDense .ten) .s false]),
  (.tensvec, [.obj (.viewTDense .mat) .s true, .obj (.view1D .mat) .s true, .obj .tdense .s false]),
  (.tensvec, [.obj (.viewTDense .mat) .s true, .obj (.view1D .mat) .s true, .obj (.viewTDense .vec) .s false]),
  (.tensvec, [.obj (.viewTDense .mat) .s true, .obj (.view1D .mat) .s true, .obj (.viewTDense .mat) .s false]),
  (.tensvec, [.obj (.viewTDense .mat) .s true, .obj (.view1D .mat) .s true, .obj (.viewTDense .ten) .s false]),
  (.tensvec, [.obj (.viewTDense .mat) .s true, .obj (.view1D .ten) .s true, .obj .tdense .s false]),
  (.tensvec, [.obj (.viewTDense .mat) .s true, .obj (.view1D .ten) .s true, .obj (.viewTDense .vec) .s false]),
  (.tensvec, [.obj (.viewTDense .mat) .s true, .obj (.view1D .ten) .s true, .obj (.viewTDense .mat) .s false]),
  (.tensvec, [.obj (.viewTDense .mat) .s true, .obj (.view1D .ten) .s true, .obj (.viewTDense .ten) .s false]),
  (.tensvec, [.obj (.viewTDense .ten) .s true, .obj .vector .s true, .obj .tdense .s false]),
  (.tensvec, [.obj (.viewTDense .ten) .s true, .obj .vector .s true, .obj (.viewTDense .vec) .s false]),
  (.tensvec, [.obj (.viewTDense .ten) .s true, .obj .vector .s true, .obj (.viewTDense .mat) .s false]),
  (.tensvec, [.obj (.viewTDense .ten) .s true, .obj .vector .s true, .obj (.viewTDense .ten) .s false]),
  (.tensvec, [.obj (.viewTDense .ten) .s true, .obj (.view1D .vec) .s true, .obj .tdense .s false]),
  (.tensvec, [.obj (.viewTDense .ten) .s true, .obj (.view1D .vec) .s true, .obj (.viewTDense .vec) .s false]),
  (.tensvec, [.obj (.viewTDense .ten) .s true, .obj (.view1D .vec) .s true, .obj (.viewTDense .mat) .s false]),
  (.tensvec, [.obj (.viewTDense .ten) .s true, .obj (.view1D .vec) .s true, .obj (.viewTDense .ten) .s false])]

/-- the overloads of `tTensvec_3` that are declared -/
def hTensvec_3 : List (Fn × List Dispatch.Par) := [
  (.tensvec, [.obj (.viewTDense .ten) .s true, .obj (.view1D .mat) .s true, .obj .tdense .s false]),
  (.tensvec, [.obj (.viewTDense .ten) .s true, .obj (.view1D .mat) .s true, .obj (.viewTDense .vec) .s false]),
  (.tensvec, [.obj (.viewTDense .ten) .s true, .obj (.view1D .mat) .s true, .obj (.viewTDense .mat) .s false]),
  (.tensvec, [.obj (.viewTDense .ten) .s true, .obj (.view1D .mat) .s true, .obj (.viewTDense .ten) .s false]),
  (.tensvec, [.obj (.viewTDense .ten) .s true, .obj (.view1D .ten) .s true, .obj .tdense .s false]),
  (.tensvec, [.obj (.viewTDense .ten) .s true, .obj (.view1D .ten) .s true, .obj (.viewTDense .vec) .s false]),
  (.tensvec, [.obj (.viewTDense .ten) .s true, .obj (.view1D .ten) .s true, .obj (.viewTDense .mat) .s false]),
  (.tensvec, [.obj (.viewTDense .ten) .s true, .obj (.view1D .ten) .s true, .obj (.viewTDense .ten) .s false]),
  (.tensvec, [.obj .tcrs .d true, .obj .vector .d true, .obj .tdense .d false]),
  (.tensvec, [.obj .tcrs .d true, .obj .vector .d true, .obj (.viewTDense .vec) .d false]),
  (.tensvec, [.obj .tcrs .d true, .obj .vector .d true, .obj (.viewTDense .mat) .d false]),
  (.tensvec, [.obj .tcrs .d true, .obj .vector .d true, .obj (.viewTDense .ten) .d false]),
  (.tensvec, [.obj .tcrs .d true, .obj (.view1D .vec) .d true, .obj .tdense .d false]),
  (.tensvec, [.obj .tcrs .d true, .obj (.view1D .vec) .d true, .obj (.viewTDense .vec) .d false]),
  (.tensvec, [.obj .tcrs .d true, .obj (.view1D .vec) .d true, .obj (.viewTDense .mat) .d false]),
  (.tensvec, [.obj .tcrs .d true, .obj (.view1D .vec) .d true, .obj (.viewTDense .ten) .d false]),
  (.tensvec, [.obj .tcrs .d true, .obj (.view1D .mat) .d true, .obj .tdense .d false]),
  (.tensvec, [.obj .tcrs .d true, .obj (.view1D .mat) .d true, .obj (.viewTDense .vec) .d false]),
  (.tensvec, [.obj .tcrs .d true, .obj (.view1D .mat) .d true, .obj (.viewTDense .mat) .d false]),
  (.tensvec, [.obj .tcrs .d true, .obj (.view1D .mat) .d true, .obj (.viewTDense .ten) .d false]),
  (.tensvec, [.obj .tcrs .d true, .obj (.view1D .ten) .d true, .obj .tdense .d false]),
  (.tensvec, [.obj .tcrs .d true, .obj (.view1D .ten) .d true, .obj (.viewTDense .vec) .d false]),
  (.tensvec, [.obj .tcrs .d true, .obj (.view1D .ten) .d true, .obj (.viewTDense .mat) .d false]),
  (.tensvec, [.obj .tcrs .d true, .obj (.view1D .ten) .d true, .obj (.viewTDense .ten) .d false]),
  (.tensvec, [.obj .tcrs .s true, .obj .vector .s true, .obj .tdense .s false]),
  (.tensvec, [.obj .tcrs .s true, .obj .vector .s true, .obj (.viewTDense .vec) .s false]),
  (.tensvec, [.obj .tcrs .s true, .obj .vector .s true, .obj (.viewTDense .mat) .s false]),
  (.tensvec, [.obj .tcrs .s true, .obj .vector .s true, .obj (.viewTDense .ten) .s false]),
  (.tensvec, [.obj .tcrs .s true, .obj (.view1D .vec) .s true, .obj .tdense .s false]),
  (.tensvec, [.obj .tcrs .s true, .obj (.view1D .vec) .s true, .obj (.viewTDense .vec) .s false]),
  (.tensvec, [.obj .tcrs .s true, .obj (.view1D .vec) .s true, .obj (.viewTDense .mat) .s false]),
  (.tensvec, [.obj .tcrs .s true, .obj (.view1D .vec) .s true, .obj (.viewTDense .ten) .s false]),
  (.tensvec, [.obj .tcrs .s true, .obj (.view1D .mat) .s true, .obj .tdense .s false]),
  (.tensvec, [.obj .tcrs .s true, .obj (.view1D .mat) .s true, .obj (.viewTDense .vec) .s false]),
  (.tensvec, [.obj .tcrs .s true, .obj (.view1D .mat) .s true, .obj (.viewTDense .mat) .s false]),
  (.tensvec, [.obj .tcrs .s true, .obj (.view1D .mat) .s true, .obj (.viewTDense .ten) .s false]),
  (.tensvec, [.obj .tcrs .s true, .obj (.view1D .ten) .s true, .obj .tdense .s false]),
  (.tensvec, [.obj .tcrs .s true, .obj (.view1D .ten) .s true, .obj (.viewTDense .vec) .s false]),
  (.tensvec, [.obj .tcrs .s true, .obj (.view1D .ten) .s true, .obj (.viewTDense .mat) .s false]),
  (.tensvec, [.obj .tcrs .s true, .obj (.view1D .ten) .s true, .obj (.viewTDense .ten) .s false])]

/-- the overloads of `tTensmat_0` that are declared -/
def hTensmat_0 : List (Fn × List Dispatch.Par) := [
  (.tensmat, [.obj .tdense .d true, .obj .dense .d true, .obj .tdense .d false]),
  (.tensmat, [.scal .d, .obj .tdense .d true, .obj .dense .d true, .scal .d, .obj .tdense .d false]),
  (.tensmat, [.obj .tdense .d true, .obj .dense .d true, .obj (.viewTDense .vec) .d false]),
  (.tensmat, [.scal .d, .obj .tdense .d true, .obj .dense .d true, .scal .d, .obj (.viewTDense .vec) .d false]),
  (.tensmat, [.obj .tdense .d true, .obj .dense .d true, .obj (.viewTDense .mat) .d false]),
  (.tensmat, [.scal .d, .obj .tdense .d true, .obj .dense .d true, .scal .d, .obj (.viewTDense .mat) .d false]),
  (.tensmat, [.obj .tdense .d true, .obj .dense .d true, .obj (.viewTDense .ten) .d false]),
  (.tensmat, [.scal .d, .obj .tdense .d true, .obj .dense .d true, .scal .d, .obj (.viewTDense .ten) .d false]),
  (.tensmat, [.obj .tdense .d true, .obj (.viewDense .vec) .d true, .obj .tdense .d false]),
  (.tensmat, [.scal .d, .obj .tdense .d true, .obj (.viewDense .vec) .d true, .scal .d, .obj .tdense .d false]),
  (.tensmat, [.obj .tdense .d true, .obj (.viewDense .vec) .d true, .obj (.viewTDense .vec) .d false]),
  (.tensmat, [.scal .d, .obj .tdense .d true, .obj (.viewDense .vec) .d true, .scal .d, .obj (.viewTDense .vec) .d false]),
  (.tensmat, [.obj .tdense .d true, .obj (.viewDense .vec) .d true, .obj (.viewTDense .mat) .d false]),
  (.tensmat, [.scal .d, .obj .tdense .d true, .obj (.viewDense .vec) .d true, .scal .d, .obj (.viewTDense .mat) .d false]),
  (.tensmat, [.obj .tdense .d true, .obj (.viewDense .vec) .d true, .obj (.viewTDense .ten) .d false]),
  (.tensmat, [.scal .d, .obj .tdense .d true, .obj (.viewDense .vec) .d true, .scal .d, .obj (.viewTDense .ten) .d false]),
  (.tensmat, [.obj .tdense .d true, .obj (.viewDense .mat) .d true, .obj .tdense .d false]),
  (.tensmat, [.scal .d, .obj .tdense .d true, .obj (.viewDense .mat) .d true, .scal .d, .obj .tdense .d false]),
  (.tensmat, [.obj .tdense .d true, .obj (.viewDense .mat) .d true, .obj (.viewTDense .vec) .d false]),
  (.tensmat, [.scal .d, .obj .tdense .d true, .obj (.viewDense .mat) .d true, .scal .d, .obj (.viewTDense .vec) .d false]),
  (.tensmat, [.obj .tdense .d true, .obj (.viewDense .mat) .d true, .obj (.viewTDense .mat) .d false]),
  (.tensmat, [.scal .d, .obj .tdense .d true, .obj (.viewDense .mat) .d true, .scal .d, .obj (.viewTDense .mat) .d false]),
  (.tensmat, [.obj .tdense .d true, .obj (.viewDense .mat) .d true, .obj (.viewTDense .ten) .d false]),
  (.tensmat, [.scal .d, .obj .tdense .d true, .obj (.viewDense .mat) .d true, .scal .d, .obj (.viewTDense .ten) .d false]),
  (.tensmat, [.obj .tdense .d true, .obj (.viewDense .ten) .d true, .obj .tdense .d false]),
  (.tensmat, [.scal .d, .obj .tdense .d true, .obj (.viewDense .ten) .d true, .scal .d, .obj .tdense .d false]),
  (.tensmat, [.obj .tdense .d true, .obj (.viewDense .ten) .d true, .obj (.viewTDense .vec) .d false]),
  (.tensmat, [.scal .d, .obj .tdense .d true, .obj (.viewDense .ten) .d true, .scal .d, .obj (.viewTDense .vec) .d false]),
  (.tensmat, [.obj .tdense .d true, .obj (.viewDense .ten) .d true, .obj (.viewTDense .mat) .d false]),
  (.tensmat, [.scal .d, .obj .tdense .d true, .obj (.viewDense .ten) .d true, .scal .d, .obj (.viewTDense .mat) .d false]),
  (.tensmat, [.obj .tdense .d true, .obj (.viewDense .ten) .d true, .obj (.viewTDense .ten) .d false]),
  (.tensmat, [.scal .d, .obj .tdense .d true, .obj (.viewDense .ten) .d true, .scal .d, .obj (.viewTDense .ten) .d false]),
  (.tensmat, [.obj (.viewTDense .vec) .d true, .obj .dense .d true, .obj .tdense .d false]),
  (.tensmat, [.scal .d, .obj (.viewTDense .vec) .d true, .obj .dense .d true, .scal .d, .obj .tdense .d false]),
  (.tensmat, [.obj (.viewTDense .vec) .d true, .obj .dense .d true, .obj (.viewTDense .vec) .d false]),
  (.tensmat, [.scal .d, .obj (.viewTDense .vec) .d true, .obj .dense .d true, .scal .d, .obj (.viewTDense .vec) .d false]),
  (.tensmat, [.obj (.viewTDense .vec) .d true, .obj .dense .d true, .obj (.viewTDense .mat) .d false]),
  (.tensmat, [.scal .d, .obj (.viewTDense .vec) .d true, .obj .dense .d true, .scal .d, .obj (.viewTDense .mat) .d false]),
  (.tensmat, [.obj (.viewTDense .vec) .d true, .obj .dense .d true, .obj (.viewTDense .ten) .d false]),
  (.tensmat, [.scal .d, .obj (.viewTDense .vec) .d true, .obj .dense .d true, .scal .d, .obj (.viewTDense .ten) .d false]),
  (.tensmat, [.obj (.viewTDense .vec) .d true, .obj (.viewDense .vec) .d true, .obj .tdense .d false]),
  (.tensmat, [.scal .d, .obj (.viewTDense .vec) .d true, .obj (.viewDense .vec) .d true, .scal .d, .obj .tdense .d false]),
  (.tensmat, [.obj (.viewTDense .vec) .d true, .obj (.viewDense .vec) .d true, .obj (.viewTDense .vec) .d false]),
  (.tensmat, [.scal .d, .obj (.viewTDense .vec) .d true, .obj (.viewDense .vec) .d true, .scal .d, .obj (.viewTDense .vec) .d false]),
  (.tensmat, [.obj (.viewTDense .vec) .d true, .obj (.viewDense .vec) .d true, .obj (.viewTDense .mat) .d false]),
  (.tensmat, [.scal .d, .obj (.viewTDense .vec) .d true, .obj (.viewDense .vec) .d true, .scal .d, .obj (.viewTDense .mat) .d false]),
  (.tensmat, [.obj (.viewTDense .vec) .d true, .obj (.viewDense .vec) .d true, .obj (.viewTDense .ten) .d false]),
  (.tensmat, [.scal .d, .obj (.viewTDense .vec) .d true, .obj (.viewDense .vec) .d true, .scal .d, .obj (.viewTDense .ten) .d false]),
  (.tensmat, [.obj (.viewTDense .vec) .d true, .obj (.viewDense .mat) .d true, .obj .tdense .d false]),
  (.tensmat, [.scal .d, .obj (.viewTDense .vec) .d true, .obj (.viewDense .mat) .d true, .scal .d, .obj .tdense .d false]),
  (.tensmat, [.obj (.viewTDense .vec) .d true, .obj (.viewDense .mat) .d true, .obj (.viewTDense .vec) .d false]),
  (.tensmat, [.scal .d, .obj (.viewTDense .vec) .d true, .obj (.viewDense .mat) .d true, .scal .d, .obj (.viewTDense .vec) .d false]),
  (.tensmat, [.obj (.viewTDense .vec) .d true, .obj (.viewDense .mat) .d true, .obj (.viewTDense .mat) .d false]),
  (.tensmat, [.scal .d, .obj (.viewTDense .vec) .d true, .obj (.viewDense .mat) .d true, .scal .d, .obj (.viewTDense .mat) .d false]),
  (.tensmat, [.obj (.viewTDense .vec) .d true, .obj (.viewDense .mat) .d true, .obj (.viewTDense .ten) .d false]),
  (.tensmat, [.scal .d, .obj (.viewTDense .vec) .d true, .obj (.viewDense .mat) .d true, .scal .d, .obj (.viewTDense .ten) .d false]),
  (.tensmat, [.obj (.viewTDense .vec) .d true, .obj (.viewDense .ten) .d true, .obj .tdense .d false]),
  (.tensmat, [.scal .d, .obj (.viewTDense .vec) .d true, .obj (.viewDense .ten) .d true, .scal .d, .obj .tdense .d false]),
  (.tensmat, [.obj (.viewTDense .vec) .d true, .obj (.viewDense .ten) .d true, .obj (.viewTDense .vec) .d false]),
  (.tensmat, [.scal .d, .obj (.viewTDense .vec) .d true, .obj (.viewDense .ten) .d true, .scal .d, .obj (.viewTDense .vec) .d false]),
  (.tensmat, [.obj (.viewTDense .vec) .d true, .obj (.viewDense .ten) .d true, .obj (.viewTDense .mat) .d false]),
  (.tensmat, [.scal .d, .obj (.viewTDense .vec) .d true, .obj (.viewDense .ten) .d true, .scal .d, .obj (.viewTDense .mat) .d false]),
  (.tensmat, [.obj (.viewTDense .vec) .d true, .obj (.viewDense .ten) .d true, .obj (.viewTDense .ten) .d false]),
  (.tensmat, [.scal .d, .obj (.viewTDense .vec) .d true, .obj (.viewDense .ten) .d true, .scal .d, .obj (.viewTDense .ten) .d false]),
  (.tensmat, [.obj (.viewTDense .mat) .d true, .obj .dense .d true, .obj .tdense .d false]),
  (.tensmat, [.scal .d, .obj (.viewTDense .mat) .d true, .obj .dense .d true, .scal .d, .obj .tdense .d false]),
  (.tensmat, [.obj (.viewTDense .mat) .d true, .obj .dense .d true, .obj (.viewTDense .vec) .d false]),
  (.tensmat, [.scal .d, .obj (.viewTDense .mat) .d true, .obj .dense .d true, .scal .d, .obj (.viewTDense .vec) .d false]),
  (.tensmat, [.obj (.viewTDense .mat) .d true, .obj .dense .d true, .obj (.viewTDense .mat) .d false]),
  (.tensmat, [.scal .d, .obj (.viewTDense .mat) .d true, .obj .dense .d true, .scal .d, .obj (.viewTDense .mat) .d false]),
  (.tensmat, [.obj (.viewTDense .mat) .d true, .obj .dense .d true, .obj (.viewTDense .ten) .d false]),
  (.tensmat, [.scal .d, .obj (.viewTDense .mat) .d true, .obj .dense .d true, .scal .d, .obj (.viewTDense .ten) .d false]),
  (.tensmat, [.obj (.viewTDense .mat) .d true, .obj (.viewDense .vec) .d true, .obj .tdense .d false]),
  (.tensmat, [.scal .d, .obj (.viewTDense .mat) .d true, .obj (.viewDense .vec) .d true, .scal .d, .obj .tdense .d false]),
  (.tensmat, [.obj (.viewTDense .mat) .d true, .obj (.viewDense .vec) .d true, .obj (.viewTDense .vec) .d false]),
  (.tensmat, [.scal .d, .obj (.viewTDense .mat) .d true, .obj (.viewDense .vec) .d true, .scal .d, .obj (.viewTDense .vec) .d false]),
  (.tensmat, [.obj (.viewTDense .mat) .d true, .obj (.viewDense .vec) .d true, .obj (.viewTDense .mat) .d false]),
  (.tensmat, [.scal .d, .obj (.viewTDense .mat) .d true, .obj (.viewDense .vec) .d true, .scal .d, .obj (.viewTDense .mat) .d false]),
  (.tensmat, [.obj (.viewTDense .mat) .d true, .obj (.viewDense .vec) .d true, .obj (.viewTDense .ten) .d false]),
  (.tensmat, [.scal .d, .obj (.viewTDense .mat) .d true, .obj (.viewDense .vec) .d true, .scal .d, .obj (.viewTDense .ten) .d false])]

/-- the overloads of `tTensmat_1` that are declared -/
def hTensmat_1 : List (Fn × List Dispatch.Par) := [
  (.tensmat, [.obj (.viewTDense .mat) .d true, .obj (.viewDense .mat) .d true, .obj .tdense .d false]),
  (.tensmat, [.scal .d, .obj (.viewTDense .mat) .d true, .obj (.viewDense .mat) .d true, .scal .d, .obj .tdense .d false]),
  (.tensmat, [.obj (.viewTDense .mat) .d true, .obj (.viewDense .mat) .d true, .obj (.viewTDense .vec) .d false]),
  (.tensmat, [.scal .d, .obj (.viewTDense .mat) .d true, .obj (.viewDense .mat) .d true, .scal .d, .obj (.viewTDense .vec) .d false]),
  (.tensmat, [.obj (.viewTDense .mat) .d true, .obj (.viewDense .mat) .d true, .obj (.viewTDense .mat) .d false]),
  (.tensmat, [.scal .d, .obj (.viewTDense .mat) .d true, .obj (.viewDense .mat) .d true, .scal .d, .obj (.viewTDense .mat) .d false]),
  (.tensmat, [.obj (.viewTDense .mat) .d true, .obj (.viewDense .mat) .d true, .obj (.viewTDense .ten) .d false]),
  (.tensmat, [.scal .d, .obj (.viewTDense .mat) .d true, .obj (.viewDense .mat) .d true, .scal .d, .obj (.viewTDense .ten) .d false]),
  (.tensmat, [.obj (.viewTDense .mat) .d true, .obj (.viewDense .ten) .d true, .obj .tdense .d false]),
  (.tensmat, [.scal .d, .obj (.viewTDense .mat) .d true, .obj (.viewDense .ten) .d true, .scal .d, .obj .tdense .d false]),
  (.tensmat, [.obj (.viewTDense .mat) .d true, .obj (.viewDense .ten) .d true, .obj (.viewTDense .vec) .d false]),
  (.tensmat, [.scal .d, .obj (.viewTDense .mat) .d true, .obj (.viewDense .ten) .d true, .scal .d, .obj (.viewTDense .vec) .d false]),
  (.tensmat, [.obj (.viewTDense .mat) .d true, .obj (.viewDense .ten) .d true, .obj (.viewTDense .mat) .d false]),
  (.tensmat, [.scal .d, .obj (.viewTDense .mat) .d true, .obj (.viewDense .ten) .d true, .scal .d, .obj (.viewTDense .mat) .d false]),
  (.tensmat, [.obj (.viewTDense .mat) .d true, .obj (.viewDense .ten) .d true, .obj (.viewTDense .ten) .d false]),
  (.tensmat, [.scal .d, .obj (.viewTDense .mat) .d true, .obj (.viewDense .ten) .d true, .scal .d, .obj (.viewTDense .ten) .d false]),
  (.tensmat, [.obj (.viewTDense .ten) .d true, .obj .dense .d true, .obj .tdense .d false]),
  (.tensmat, [.scal .d, .obj (.viewTDense .ten) .d true, .obj .dense .d true, .scal .d, .obj .tdense .d false]),
  (.tensmat, [.obj (.viewTDense .ten) .d true, .obj .dense .d true, .obj (.viewTDense .vec) .d false]),
  (.tensmat, [.scal .d, .obj (.viewTDense .ten) .d true, .obj .dense .d true, .scal .d, .obj (.viewTDense .vec) .d false]),
  (.tensmat, [.obj (.viewTDense .ten) .d true, .obj .dense .d true, .obj (.viewTDense .mat) .d false]),
  (.tensmat, [.scal .d, .obj (.viewTDense .ten) .d true, .obj .dense .d true, .scal .d, .obj (.viewTDense .mat) .d false]),
  (.tensmat, [.obj (.viewTDense .ten) .d true, .obj .dense .d true, .obj (.viewTDense .ten) .d false]),
  (.tensmat, [.scal .d, .obj (.viewTDense .ten) .d true, .obj .dense .d true, .scal .d, .obj (.viewTDense .ten) .d false]),
  (.tensmat, [.obj (.viewTDense .ten) .d true, .obj (.viewDense .vec) .d true, .obj .tdense .d false]),
  (.tensmat, [.scal .d, .obj (.viewTDense .ten) .d true, .obj (.viewDense .vec) .d true, .scal .d, .obj .tdense .d false]),
  (.tensmat, [.obj (.viewTDense .ten) .d true, .obj (.viewDense .vec) .d true, .obj (.viewTDense .vec) .d false]),
  (.tensmat, [.scal .d, .obj (.viewTDense .ten) .d true, .obj (.viewDense .vec) .d true, .scal .d, .obj (.viewTDense .vec) .d false]),
  (.tensmat, [.obj (.viewTDense .ten) .d true, .obj (.viewDense .vec) .d true, .obj (.viewTDense .mat) .d false]),
  (.tensmat, [.scal .d, .obj (.viewTDense .ten) .d true, .obj (.viewDense .vec) .d true, .scal .d, .obj (.viewTDense .mat) .d false]),
  (.tensmat, [.obj (.viewTDense .ten) .d true, .obj (.viewDense .vec) .d true, .obj (.viewTDense .ten) .d false]),
  (.tensmat, [.scal .d, .obj (.viewTDense .ten) .d true, .obj (.viewDense .vec) .d true, .scal .d, .obj (.viewTDense .ten) .d false]),
  (.tensmat, [.obj (.viewTDense .ten) .d true, .obj (.viewDense .mat) .d true, .obj .tdense .d false]),
  (.tensmat, [.scal .d, .obj (.viewTDense .ten) .d true, .obj (.viewDense .mat) .d true, .scal .d, .obj .tdense .d false]),
  (.tensmat, [.obj (.viewTDense .ten) .d true, .obj (.viewDense .mat) .d true, .obj (.viewTDense .vec) .d false]),
  (.tensmat, [.scal .d, .obj (.viewTDense .ten) .d true, .obj (.viewDense .mat) .d true, .scal .d, .obj (.viewTDense .vec) .d false]),
  (.tensmat, [.obj (.viewTDense .ten) .d true, .obj (.viewDense .mat) .d true, .obj (.viewTDense .mat) .d false]),
  (.tensmat, [.scal .d, .obj (.viewTDense .ten) .d true, .obj (.viewDense .mat) .d true, .scal .d, .obj (.viewTDense .mat) .d false]),
  (.tensmat, [.obj (.viewTDense .ten) .d true, .obj (.viewDense .mat) .d true, .obj (.viewTDense .ten) .d false]),
  (.tensmat, [.scal .d, .obj (.viewTDense .ten) .d true, .obj (.viewDense .mat) .d true, .scal .d, .obj (.viewTDense .ten) .d false]),
  (.tensmat, [.obj (.viewTDense .ten) .d true, .obj (.viewDense .ten) .d true, .obj .tdense .d false]),
  (.tensmat, [.scal .d, .obj (.viewTDense .ten) .d true, .obj (.viewDense .ten) .d true, .scal .d, .obj .tdense .d false]),
  (.tensmat, [.obj (.viewTDense .ten) .d true, .obj (.viewDense .ten) .d true, .obj (.viewTDense .vec) .d false]),
  (.tensmat, [.scal .d, .obj (.viewTDense .ten) .d true, .obj (.viewDense .ten) .d true, .scal .d, .obj (.viewTDense .vec) .d false]),
  (.tensmat, [.obj (.viewTDense .ten) .d true, .obj (.viewDense .ten) .d true, .obj (.viewTDense .mat) .d false]),
  (.tensmat, [.scal .d, .obj (.viewTDense .ten) .d true, .obj (.viewDense .ten) .d true, .scal .d, .obj (.viewTDense .mat) .d false]),
  (.tensmat, [.obj (.viewTDense .ten) .d true, .obj (.viewDense .ten) .d true, .obj (.viewTDense .ten) .d false]),
  (.tensmat, [.scal .d, .obj (.viewTDense .ten) .d true, .obj (.viewDense .ten) .d true, .scal .d, .obj (.viewTDense .ten) .d false]),
  (.tensmat, [.obj .tdense .s true, .obj .dense .s true, .obj .tdense .s false]),
  (.tensmat, [.scal .s, .obj .tdense .s true, .obj .dense .s true, .scal .s, .obj .tdense .s false]),
  (.tensmat, [.obj .tdense .s true, .obj .dense .s true, .obj (.viewTDense .vec) .s false]),
  (.tensmat, [.scal .s, .obj .tdense .s true, .obj .dense .s true, .scal .s, .obj (.viewTDense .vec) .s false]),
  (.tensmat, [.obj .tdense .s true, .obj .dense .s true, .obj (.viewTDense .mat) .s false]),
  (.tensmat, [.scal .s, .obj .tdense .s true, .obj .dense .s true, .scal .s, .obj (.viewTDense .mat) .s false]),
  (.tensmat, [.obj .tdense .s true, .obj .dense .s true, .obj (.viewTDense .ten) .s false]),
  (.tensmat, [.scal .s, .obj .tdense .s true, .obj .dense .s true, .scal .s, .obj (.viewTDense .ten) .s false]),
  (.tensmat, [.obj .tdense .s true, .obj (.viewDense .vec) .s true, .obj .tdense .s false]),
  (.tensmat, [.scal .s, .obj .tdense .s true, .obj (.viewDense .vec) .s true, .scal .s, .obj .tdense .s false]),
  (.tensmat, [.obj .tdense .s true, .obj (.viewDense .vec) .s true, .obj (.viewTDense .vec) .s false]),
  (.tensmat, [.scal .s, .obj .tdense .s true, .obj (.viewDense .vec) .s true, .scal .s, .obj (.viewTDense .vec) .s false]),
  (.tensmat, [.obj .tdense .s true, .obj (.viewDense .vec) .s true, .obj (.viewTDense .mat) .s false]),
  (.tensmat, [.scal .s, .obj .tdense .s true, .obj (.viewDense .vec) .s true, .scal .s, .obj (.viewTDense .mat) .s false]),
  (.tensmat, [.obj .tdense .s true, .obj (.viewDense .vec) .s true, .obj (.viewTDense .ten) .s false]),
  (.tensmat, [.scal .s, .obj .tdense .s true, .obj (.viewDense .vec) .s true, .scal .s, .obj (.viewTDense .ten) .s false]),
  (.tensmat, [.obj .tdense .s true, .obj (.viewDense .mat) .s true, .obj .tdense .s false]),
  (.tensmat, [.scal .s, .obj .tdense .s true, .obj (.viewDense .mat) .s true, .scal .s, .obj .tdense .s false]),
  (.tensmat, [.obj .tdense .s true, .obj (.viewDense .mat) .s true, .obj (.viewTDense .vec) .s false]),
  (.tensmat, [.scal .s, .obj .tdense .s true, .obj (.viewDense .mat) .s true, .scal .s, .obj (.viewTDense .vec) .s false]),
  (.tensmat, [.obj .tdense .s true, .obj (.viewDense .mat) .s true, .obj (.viewTDense .mat) .s false]),
  (.tensmat, [.scal .s, .obj .tdense .s true, .obj (.viewDense .mat) .s true, .scal .s, .obj (.viewTDense .mat) .s false]),
  (.tensmat, [.obj .tdense .s true, .obj (.viewDense .mat) .s true, .obj (.viewTDense .ten) .s false]),
  (.tensmat, [.scal .s, .obj .tdense .s true, .obj (.viewDense .mat) .s true, .scal .s, .obj (.viewTDense .ten) .s false]),
  (.tensmat, [.obj .tdense .s true, .obj (.viewDense .ten) .s true, .obj .tdense .s false]),
  (.tensmat, [.scal .s, .obj .tdense .s true, .obj (.viewDense .ten) .s true, .scal .s, .obj .tdense .s false]),
  (.tensmat, [.obj .tdense .s true, .obj (.viewDense .ten) .s true, .obj (.viewTDense .vec) .s false]),
  (.tensmat, [.scal .s, .obj .tdense .s true, .obj (.viewDense .ten) .s true, .scal .s, .obj (.viewTDense .vec) .s false]),
  (.tensmat, [.obj .tdense .s true, .obj (.viewDense .ten) .s true, .obj (.viewTDense .mat) .s false]),
  (.tensmat, [.scal .s, .obj .tdense .s true, .obj (.viewDense .ten) .s true, .scal .s, .obj (.viewTDense .mat) .s false]),
  (.tensmat, [.obj .tdense .s true, .obj (.viewDense .ten) .s true, .obj (.viewTDense .ten) .s false]),
  (.tensmat, [.scal .s, .obj .tdense .s true, .obj (.viewDense .ten) .s true, .scal .s, .obj (.viewTDense .ten) .s false])]

/-- the overloads of `tTensmat_2` that are declared -/
def hTensmat_2 : List (Fn × List Dispatch.Par) := [
  (.tensmat, [.obj (.viewTDense .vec) .s true, .obj .dense .s true, .obj .tdense .s false]),
  (.tensmat, [.scal .s, .obj (.viewTDense .vec) .s true, .obj .dense .s true, .scal .s, .obj .tdense .s false]),
  (.tensmat, [.obj (.viewTDense .vec) .s true, .obj .dense .s true, .obj (.viewTDense .vec) .s false]),
  (.tensmat, [.scal .s, .obj (.viewTDense .vec) .s true, .obj .dense .s true, .scal .s, .obj (.viewTDense .vec) .s false]),
  (.tensmat, [.obj (.viewTDense .vec) .s true, .obj .dense .s true, .obj (.viewTDense .mat) .s false]),
  (.tensmat, [.scal .s, .obj (.viewTDense .vec) .s true, .obj .dense .s true, .scal .s, .obj (.viewTDense .mat) .s false]),
  (.tensmat, [.obj (.viewTDense .vec) .s true, .obj .dense .s true, .obj (.viewTDense .ten) .s false]),
  (.tensmat, [.scal .s, .obj (.viewTDense .vec) .s true, .obj .dense .s true, .scal .s, .obj (.viewTDense .ten) .s false]),
  (.tensmat, [.obj (.viewTDense .vec) .s true, .obj (.viewDense .vec) .s true, .obj .tdense .s false]),
  (.tensmat, [.scal .s, .obj (.viewTDense .vec) .s true, .obj (.viewDense .vec) .s true, .scal .s, .obj .tdense .s false]),
  (.tensmat, [.obj (.viewTDense .vec) .s true, .obj (.viewDense .vec) .s true, .obj (.viewTDense .vec) .s false]),
  (.tensmat, [.scal .s, .obj (.viewTDense .vec) .s true, .obj (.viewDense .vec) .s true, .scal .s, .obj (.viewTDense .vec) .s false]),
  (.tensmat, [.obj (.viewTDense .vec) .s true, .obj (.viewDense .vec) .s true, .obj (.viewTDense .mat) .s false]),
  (.tensmat, [.scal .s, .obj (.viewTDense .vec) .s true, .obj (.viewDense .vec) .s true, .scal .s, .obj (.viewTDense .mat) .s false]),
  (.tensmat, [.obj (.viewTDense .vec) .s true, .obj (.viewDense .vec) .s true, .obj (.viewTDense .ten) .s false]),
  (.tensmat, [.scal .s, .obj (.viewTDense .vec) .s true, .obj (.viewDense .vec) .s true, .scal .s, .obj (.viewTDense .ten) .s false]),
  (.tensmat, [.obj (.viewTDense .vec) .s true, .obj (.viewDense .mat) .s true, .obj .tdense .s false]),
  (.tensmat, [.scal .s, .obj (.viewTDense .vec) .s true, .obj (.viewDense .mat) .s true, .scal .s, .obj .tdense .s false]),
  (.tensmat, [.obj (.viewTDense .vec) .s true, .obj (.viewDense .mat) .s true, .obj (.viewTDense .vec) .s false]),
  (.tensmat, [.scal .s, .obj (.viewTDense .vec) .s true, .obj (.viewDense .mat) .s true, .scal .s, .obj (.viewTDense .vec) .s false]),
  (.tensmat, [.obj (.viewTDense .vec) .s true, .obj (.viewDense .mat) .s true, .obj (.viewTDense .mat) .s false]),
  (.tensmat, [.scal .s, .obj (.viewTDense .vec) .s true, .obj (.viewDense .mat) .s true, .scal .s, .obj (.viewTDense .mat) .s false]),
  (.tensmat, [.obj (.viewTDense .vec) .s true, .obj (.viewDense .mat) .s true, .obj (.viewTDense .ten) .s false]),
  (.tensmat, [.scal .s, .obj (.viewTDense .vec) .s true, .obj (.viewDense .mat) .s true, .scal .s, .obj (.viewTDense .ten) .s false]),
  (.tensmat, [.obj (.viewTDense .vec) .s true, .obj (.viewDense .ten) .s true, .obj .tdense .s false]),
  (.tensmat, [.scal .s, .obj (.viewTDense .vec) .s true, .obj (.viewDense .ten) .s true, .scal .s, .obj .tdense .s false]),
  (.tensmat, [.obj (.viewTDense .vec) .s true, .obj (.viewDense .ten) .s true, .obj (.viewTDense .vec) .s false]),
  (.tensmat, [.scal .s, .obj (.viewTDense .vec) .s true, .obj (.viewDense .ten) .s true, .scal .s, .obj (.viewTDense .vec) .s false]),
  (.tensmat, [.obj (.viewTDense .vec) .s true, .obj (.viewDense .ten) .s true, .obj (.viewTDense .mat) .s false]),
  (.tensmat, [.scal .s, .obj (.viewTDense .vec) .s true, .obj (.viewDense .ten) .s true, .scal .s, .obj (.viewTDense .mat) .s false]),
  (.tensmat, [.obj (.viewTDense .vec) .s true, .obj (.viewDense .ten) .s true, .obj (.viewTDense .ten) .s false]),
  (.tensmat, [.scal .s, .obj (.viewTDense .vec) .s true, .obj (.viewDense .ten) .s true, .scal .s, .obj (.viewTDense .ten) .s false]),
  (.tensmat, [.obj (.viewTDense .mat) .s true, .obj .dense .s true, .obj .tdense .s false]),
  (.tensmat, [.scal .s, .obj (.viewTDense .mat) .s true, .obj .dense .s true, .scal .s, .obj .tdense .s false]),
  (.tensmat, [.obj (.viewTDense .mat) .s true, .obj .dense .s true, .obj (.viewTDense .vec) .s false]),
  (.tensmat, [.scal .s, .obj (.viewTDense .mat) .s true, .obj .dense .s true, .scal .s, .obj (.viewTDense .vec) .s false]),
  (.tensmat, [.obj (.viewTDense .mat) .s true, .obj .dense .s true, .obj (.viewTDense .mat) .s false]),
  (.tensmat, [.scal .s, .obj (.viewTDense .mat) .s true, .obj .dense .s true, .scal .s, .obj (.viewTDense .mat) .s false]),
  (.tensmat, [.obj (.viewTDense .mat) .s true, .obj .dense .s true, .obj (.viewTDense .ten) .s false]),
  (.tensmat, [.scal .s, .obj (.viewTDense .mat) .s true, .obj .dense .s true, .scal .s, .obj (.viewTDense .ten) .s false]),
  (.tensmat, [.obj (.viewTDense .mat) .s true, .obj (.viewDense .vec) .s true, .obj .tdense .s false]),
  (.tensmat, [.scal .s, .obj (.viewTDense .mat) .s true, .obj (.viewDense .vec) .s true, .scal .s, .obj .tdense .s false]),
  (.tensmat, [.obj (.viewTDense .mat) .s true, .obj (.viewDense .vec) .s true, .obj (.viewTDense .vec) .s false]),
  (.tensmat, [.scal .s, .obj (.viewTDense .mat) .s true, .obj (.viewDense .vec) .s true, .scal .s, .obj (.viewTDense .vec) .s false]),
  (.tensmat, [.obj (.viewTDense .mat) .s true, .obj (.viewDense .vec) .s true, .obj (.viewTDense .mat) .s false]),
  (.tensmat, [.scal .s, .obj (.viewTDense .mat) .s true, .obj (.viewDense .vec) .s true, .scal .s, .obj (.viewTDense .mat) .s false]),
  (.tensmat, [.obj (.viewTDense .mat) .s true, .obj (.viewDense .vec) .s true, .obj (.viewTDense .ten) .s false]),
  (.tensmat, [.scal .s, .obj (.viewTDense .mat) .s true, .obj (.viewDense .vec) .s true, .scal .s, .obj (.viewTDense .ten) .s false]),
  (.tensmat, [.obj (.viewTDense .mat) .s true, .obj (.viewDense .mat) .s true, .obj .tdense .s false]),
  (.tensmat, [.scal .s, .obj (.viewTDense .mat) .s true, .obj (.viewDense .mat) .s true, .scal .s, .obj .tdense .s false]),
  (.tensmat, [.obj (.viewTDense .mat) .s true, .obj (.viewDense .mat) .s true, .obj (.viewTDense .vec) .s false]),
  (.tensmat, [.scal .s, .obj (.viewTDense .mat) .s true, .obj (.viewDense .mat) .s true, .scal .s, .obj (.viewTDense .vec) .s false]),
  (.tensmat, [.obj (.viewTDense .mat) .s true, .obj (.viewDense .mat) .s true, .obj (.viewTDense .mat) .s false]),
  (.tensmat, [.scal .s, .obj (.viewTDense .mat) .s true, .obj (.viewDense .mat) .s true, .scal .s, .obj (.viewTDense .mat) .s false]),
  (.tensmat, [.obj (.viewTDense .mat) .s true, .obj (.viewDense .mat) .s true, .obj (.viewTDense .ten) .s false]),
  (.tensmat, [.scal .s, .obj (.viewTDense .mat) .s true, .obj (.viewDense .mat) .s true, .scal .s, .obj (.viewTDense .ten) .s false]),
  (.tensmat, [.obj (.viewTDense .mat) .s true, .obj (.viewDense .ten) .s true, .obj .tdense .s false]),
  (.tensmat, [.scal .s, .obj (.viewTDense .mat) .s true, .obj (.viewDense .ten) .s true, .scal .s, .obj .tdense .s false]),
  (.tensmat, [.obj (.viewTDense .mat) .s true, .obj (.viewDense .ten) .s true, .obj (.viewTDense .vec) .s false]),
  (.tensmat, [.scal .s, .obj (.viewTDense .mat) .s true, .obj (.viewDense .ten) .s true, .scal .s, .obj (.viewTDense .vec) .s false]),
  (.tensmat, [.obj (.viewTDense .mat) .s true, .obj (.viewDense .ten) .s true, .obj (.viewTDense .mat) .s false]),
  (.tensmat, [.scal .s, .obj (.viewTDense .mat) .s true, .obj (.viewDense .ten) .s true, .scal .s, .obj (.viewTDense .mat) .s false]),
  (.tensmat, [.obj (.viewTDense .mat) .s true, .obj (.viewDense .ten) .s true, .obj (.viewTDense .ten) .s false]),
  (.tensmat, [.scal .s, .obj (.viewTDense .mat) .s true, .obj (.viewDense .ten) .s true, .scal .s, .obj (.viewTDense .ten) .s false]),
  (.tensmat, [.obj (.viewTDense .ten) .s true, .obj .dense .s true, .obj .tdense .s false]),
  (.tensmat, [.scal .s, .obj (.viewTDense .ten) .s true, .obj .dense .s true, .scal .s, .obj .tdense .s false]),
  (.tensmat, [.obj (.viewTDense .ten) .s true, .obj .dense .s true, .obj (.viewTDense .vec) .s false]),
  (.tensmat, [.scal .s, .obj (.viewTDense .ten) .s true, .obj .dense .s true, .scal .s, .obj (.viewTDense .vec) .s false]),
  (.tensmat, [.obj (.viewTDense .ten) .s true, .obj .dense .s true, .obj (.viewTDense .mat) .s false]),
  (.tensmat, [.scal .s, .obj (.viewTDense .ten) .s true, .obj .dense .s true, .scal .s, .obj (.viewTDense .mat) .s false]),
  (.tensmat, [.obj (.viewTDense .ten) .s true, .obj .dense .s true, .obj (.viewTDense .ten) .s false]),
  (.tensmat, [.scal .s, .obj (.viewTDense .ten) .s true, .obj .dense .s true, .scal .s, .obj (.viewTDense .ten) .s false]),
  (.tensmat, [.obj (.viewTDense .ten) .s true, .obj (.viewDense .vec) .s true, .obj .tdense .s false]),
  (.tensmat, [.scal .s, .obj (.viewTDense .ten) .s true, .obj (.viewDense .vec) .s true, .scal .s, .obj .tdense .s false]),
  (.tensmat, [.obj (.viewTDense .ten) .s true, .obj (.viewDense .vec) .s true, .obj (.viewTDense .vec) .s false]),
  (.tensmat, [.scal .s, .obj (.viewTDense .ten) .s true, .obj (.viewDense .vec) .s true, .scal .s, .obj (.viewTDense .vec) .s false]),
  (.tensmat, [.obj (.viewTDense .ten) .s true, .obj (.viewDense .vec) .s true, .obj (.viewTDense .mat) .s false]),
  (.tensmat, [.scal .s, .obj (.viewTDense .ten) .s true, .obj (.viewDense .vec) .s true, .scal .s, .obj (.viewTDense .mat) .s false]),
  (.tensmat, [.obj (.viewTDense .ten) .s true, .obj (.viewDense .vec) .s true, .obj (.viewTDense .ten) .s false]),
  (.tensmat, [.scal .s, .obj (.viewTDense .ten) .s true, .obj (.viewDense .vec) .s true, .scal .s, .obj (.viewTDense .ten) .s false])]

/-- the overloads of `tTensmat_3` that are declared -/
def hTensmat_3 : List (Fn × List Dispatch.Par) := [
  (.tensmat, [.obj (.viewTDense .ten) .s true, .obj (.viewDense .mat) .s true, .obj .tdense .s false]),
  (.tensmat, [.scal .s, .obj (.viewTDense .ten) .s true, .obj (.viewDense .mat) .s true, .scal .s, .obj .tdense .s false]),
  (.tensmat, [.obj (.viewTDense .ten) .s true, .obj (.viewDense .mat) .s true, .obj (.viewTDense .vec) .s false]),
  (.tensmat, [.scal .s, .obj (.viewTDense .ten) .s true, .obj (.viewDense .mat) .s true, .scal .s, .obj (.viewTDense .vec) .s false]),
  (.tensmat, [.obj (.viewTDense .ten) .s true, .obj (.viewDense .mat) .s true, .obj (.viewTDense .mat) .s false]),
  (.tensmat, [.scal .s, .obj (.viewTDense .ten) .s true, .obj (.viewDense .mat) .s true, .scal .s, .obj (.viewTDense .mat) .s false]),
  (.tensmat, [.obj (.viewTDense .ten) .s true, .obj (.viewDense .mat) .s true, .obj (.viewTDense .ten) .s false]),
  (.tensmat, [.scal .s, .obj (.viewTDense .ten) .s true, .obj (.viewDense .mat) .s true, .scal .s, .obj (.viewTDense .ten) .s false]),
  (.tensmat, [.obj (.viewTDense .ten) .s true, .obj (.viewDense .ten) .s true, .obj .tdense .s false]),
  (.tensmat, [.scal .s, .obj (.viewTDense .ten) .s true, .obj (.viewDense .ten) .s true, .scal .s, .obj .tdense .s false]),
  (.tensmat, [.obj (.viewTDense .ten) .s true, .obj (.viewDense .ten) .s true, .obj (.viewTDense .vec) .s false]),
  (.tensmat, [.scal .s, .obj (.viewTDense .ten) .s true, .obj (.viewDense .ten) .s true, .scal .s, .obj (.viewTDense .vec) .s false]),
  (.tensmat, [.obj (.viewTDense .ten) .s true, .obj (.viewDense .ten) .s true, .obj (.viewTDense .mat) .s false]),
  (.tensmat, [.scal .s, .obj (.viewTDense .ten) .s true, .obj (.viewDense .ten) .s true, .scal .s, .obj (.viewTDense .mat) .s false]),
  (.tensmat, [.obj (.viewTDense .ten) .s true, .obj (.viewDense .ten) .s true, .obj (.viewTDense .ten) .s false]),
  (.tensmat, [.scal .s, .obj (.viewTDense .ten) .s true, .obj (.viewDense .ten) .s true, .scal .s, .obj (.viewTDense .ten) .s false]),
  (.tensmat, [.obj .tcrs .d true, .obj .dense .d true, .obj .tdense .d false]),
  (.tensmat, [.scal .d, .obj .tcrs .d true, .obj .dense .d true, .scal .d, .obj .tdense .d false]),
  (.tensmat, [.obj .tcrs .d true, .obj .dense .d true, .obj (.viewTDense .vec) .d false]),
  (.tensmat, [.scal .d, .obj .tcrs .d true, .obj .dense .d true, .scal .d, .obj (.viewTDense .vec) .d false]),
  (.tensmat, [.obj .tcrs .d true, .obj .dense .d true, .obj (.viewTDense .mat) .d false]),
  (.tensmat, [.scal .d, .obj .tcrs .d true, .obj .dense .d true, .scal .d, .obj (.viewTDense .mat) .d false]),
  (.tensmat, [.obj .tcrs .d true, .obj .dense .d true, .obj (.viewTDense .ten) .d false]),
  (.tensmat, [.scal .d, .obj .tcrs .d true, .obj .dense .d true, .scal .d, .obj (.viewTDense .ten) .d false]),
  (.tensmat, [.obj .tcrs .d true, .obj (.viewDense .vec) .d true, .obj .tdense .d false]),
  (.tensmat, [.scal .d, .obj .tcrs .d true, .obj (.viewDense .vec) .d true, .scal .d, .obj .tdense .d false]),
  (.tensmat, [.obj .tcrs .d true, .obj (.viewDense .vec) .d true, .obj (.viewTDense .vec) .d false]),
  (.tensmat, [.scal .d, .obj .tcrs .d true, .obj (.viewDense .vec) .d true, .scal .d, .obj (.viewTDense .vec) .d false]),
  (.tensmat, [.obj .tcrs .d true, .obj (.viewDense .vec) .d true, .obj (.viewTDense .mat) .d false]),
  (.tensmat, [.scal .d, .obj .tcrs .d true, .obj (.viewDense .vec) .d true, .scal .d, .obj (.viewTDense .mat) .d false]),
  (.tensmat, [.obj .tcrs .d true, .obj (.viewDense .vec) .d true, .obj (.viewTDense .ten) .d false]),
  (.tensmat, [.scal .d, .obj .tcrs .d true, .obj (.viewDense .vec) .d true, .scal .d, .obj (.viewTDense .ten) .d false]),
  (.tensmat, [.obj .tcrs .d true, .obj (.viewDense .mat) .d true, .obj .tdense .d false]),
  (.tensmat, [.scal .d, .obj .tcrs .d true, .obj (.viewDense .mat) .d true, .scal .d, .obj .tdense .d false]),
  (.tensmat, [.obj .tcrs .d true, .obj (.viewDense .mat) .d true, .obj (.viewTDense .vec) .d false]),
  (.tensmat, [.scal .d, .obj .tcrs .d true, .obj (.viewDense .mat) .d true, .scal .d, .obj (.viewTDense .vec) .d false]),
  (.tensmat, [.obj .tcrs .d true, .obj (.viewDense .mat) .d true, .obj (.viewTDense .mat) .d false]),
  (.tensmat, [.scal .d, .obj .tcrs .d true, .obj (.viewDense .mat) .d true, .scal .d, .obj (.viewTDense .mat) .d false]),
  (.tensmat, [.obj .tcrs .d true, .obj (.viewDense .mat) .d true, .obj (.viewTDense .ten) .d false]),
  (.tensmat, [.scal .d, .obj .tcrs .d true, .obj (.viewDense .mat) .d true, .scal .d, .obj (.viewTDense .ten) .d false]),
  (.tensmat, [.obj .tcrs .d true, .obj (.viewDense .ten) .d true, .obj .tdense .d false]),
  (.tensmat, [.scal .d, .obj .tcrs .d true, .obj (.viewDense .ten) .d true, .scal .d, .obj .tdense .d false]),
  (.tensmat, [.obj .tcrs .d true, .obj (.viewDense .ten) .d true, .obj (.viewTDense .vec) .d false]),
  (.tensmat, [.scal .d, .obj .tcrs .d true, .obj (.viewDense .ten) .d true, .scal .d, .obj (.viewTDense .vec) .d false]),
  (.tensmat, [.obj .tcrs .d true, .obj (.viewDense .ten) .d true, .obj (.viewTDense .mat) .d false]),
  (.tensmat, [.scal .d, .obj .tcrs .d true, .obj (.viewDense .ten) .d true, .scal .d, .obj (.viewTDense .mat) .d false]),
  (.tensmat, [.obj .tcrs .d true, .obj (.viewDense .ten) .d true, .obj (.viewTDense .ten) .d false]),
  (.tensmat, [.scal .d, .obj .tcrs .d true, .obj (.viewDense .ten) .d true, .scal .d, .obj (.viewTDense .ten) .d false]),
  (.tensmat, [.obj .tcrs .s true, .obj .dense .s true, .obj .tdense .s false]),
  (.tensmat, [.scal .s, .obj .tcrs .s true, .obj .dense .s true, .scal .s, .obj .tdense .s false]),
  (.tensmat, [.obj .tcrs .s true, .obj .dense .s true, .obj (.viewTDense .vec) .s false]),
  (.tensmat, [.scal .s, .obj .tcrs .s true, .obj .dense .s true, .scal .s, .obj (.viewTDense .vec) .s false]),
  (.tensmat, [.obj .tcrs .s true, .obj .dense .s true, .obj (.viewTDense .mat) .s false]),
  (.tensmat, [.scal .s, .obj .tcrs .s true, .obj .dense .s true, .scal .s, .obj (.viewTDense .mat) .s false]),
  (.tensmat, [.obj .tcrs .s true, .obj .dense .s true, .obj (.viewTDense .ten) .s false]),
  (.tensmat, [.scal .s, .obj .tcrs .s true, .obj .dense .s true, .scal .s, .obj (.viewTDense .ten) .s false]),
  (.tensmat, [.obj .tcrs .s true, .obj (.viewDense .vec) .s true, .obj .tdense .s false]),
  (.tensmat, [.scal .s, .obj .tcrs .s true, .obj (.viewDense .vec) .s true, .scal .s, .obj .tdense .s false]),
  (.tensmat, [.obj .tcrs .s true, .obj (.viewDense .vec) .s true, .obj (.viewTDense .vec) .s false]),
  (.tensmat, [.scal .s, .obj .tcrs .s true, .obj (.viewDense .vec) .s true, .scal .s, .obj (.viewTDense .vec) .s false]),
  (.tensmat, [.obj .tcrs .s true, .obj (.viewDense .vec) .s true, .obj (.viewTDense .mat) .s false]),
  (.tensmat, [.scal .s, .obj .tcrs .s true, .obj (.viewDense .vec) .s true, .scal .s, .obj (.viewTDense .mat) .s false]),
  (.tensmat, [.obj .tcrs .s true, .obj (.viewDense .vec) .s true, .obj (.viewTDense .ten) .s false]),
  (.tensmat, [.scal .s, .obj .tcrs .s true, .obj (.viewDense .vec) .s true, .scal .s, .obj (.viewTDense .ten) .s false]),
  (.tensmat, [.obj .tcrs .s true, .obj (.viewDense .mat) .s true, .obj .tdense .s false]),
  (.tensmat, [.scal .s, .obj .tcrs .s true, .obj (.viewDense .mat) .s true, .scal .s, .obj .tdense .s false]),
  (.tensmat, [.obj .tcrs .s true, .obj (.viewDense .mat) .s true, .obj (.viewTDense .vec) .s false]),
  (.tensmat, [.scal .s, .obj .tcrs .s true, .obj (.viewDense .mat) .s true, .scal .s, .obj (.viewTDense .vec) .s false]),
  (.tensmat, [.obj .tcrs .s true, .obj (.viewDense .mat) .s true, .obj (.viewTDense .mat) .s false]),
  (.tensmat, [.scal .s, .obj .tcrs .s true, .obj (.viewDense .mat) .s true, .scal .s, .obj (.viewTDense .mat) .s false]),
  (.tensmat, [.obj .tcrs .s true, .obj (.viewDense .mat) .s true, .obj (.viewTDense .ten) .s false]),
  (.tensmat, [.scal .s, .obj .tcrs .s true, .obj (.viewDense .mat) .s true, .scal .s, .obj (.viewTDense .ten) .s false]),
  (.tensmat, [.obj .tcrs .s true, .obj (.viewDense .ten) .s true, .obj .tdense .s false]),
  (.tensmat, [.scal .s, .obj .tcrs .s true, .obj (.viewDense .ten) .s true, .scal .s, .obj .tdense .s false]),
  (.tensmat, [.obj .tcrs .s true, .obj (.viewDense .ten) .s true, .obj (.viewTDense .vec) .s false]),
  (.tensmat, [.scal .s, .obj .tcrs .s true, .obj (.viewDense .ten) .s true, .scal .s, .obj (.viewTDense .vec) .s false]),
  (.tensmat, [.obj .tcrs .s true, .obj (.viewDense .ten) .s true, .obj (.viewTDense .mat) .s false]),
  (.tensmat, [.scal .s, .obj .tcrs .s true, .obj (.viewDense .ten) .s true, .scal .s, .obj (.viewTDense .mat) .s false]),
  (.tensmat, [.obj .tcrs .s true, .obj (.viewDense .ten) .s true, .obj (.viewTDense .ten) .s false]),
  (.tensmat, [.scal .s, .obj .tcrs .s true, .obj (.viewDense .ten) .s true, .scal .s, .obj (.viewTDense .ten) .s false])]

/-- the overloads of `tMattens_0` that are declared -/
def hMattens_0 : List (Fn × List Dispatch.Par) := [
  (.mattens, [.obj .dense .d true, .obj .tdense .d true, .obj .tdense .d false]),
  (.mattens, [.scal .d, .obj .dense .d true, .obj .tdense .d true, .scal .d, .obj .tdense .d false]),
  (.mattens, [.obj .dense .d true, .obj .tdense .d true, .obj (.viewTDense .vec) .d false]),
  (.mattens, [.scal .d, .obj .dense .d true, .obj .tdense .d true, .scal .d, .obj (.viewTDense .vec) .d false]),
  (.mattens, [.obj .dense .d true, .obj .tdense .d true, .obj (.viewTDense .mat) .d false]),
  (.mattens, [.scal .d, .obj .dense .d true, .obj .tdense .d true, .scal .d, .obj (.viewTDense .mat) .d false]),
  (.mattens, [.obj .dense .d true, .obj .tdense .d true, .obj (.viewTDense .ten) .d false]),
  (.mattens, [.scal .d, .obj .dense .d true, .obj .tdense .d true, .scal .d, .obj (.viewTDense .ten) .d false]),
  (.mattens, [.obj .dense .d true, .obj (.viewTDense .vec) .d true, .obj .tdense .d false]),
  (.mattens, [.scal .d, .obj .dense .d true, .obj (.viewTDense .vec) .d true, .scal .d, .obj .tdense .d false]),
  (.mattens, [.obj .dense .d true, .obj (.viewTDense .vec) .d true, .obj (.viewTDense .vec) .d false]),
  (.mattens, [.scal .d, .obj .dense .d true, .obj (.viewTDense .vec) .d true, .scal .d, .obj (.viewTDense .vec) .d false]),
  (.mattens, [.obj .dense .d true, .obj (.viewTDense .vec) .d true, .obj (.viewTDense .mat) .d false]),
  (.mattens, [.scal .d, .obj .dense .d true, .obj (.viewTDense .vec) .d true, .scal .d, .obj (.viewTDense .mat) .d false]),
  (.mattens, [.obj .dense .d true, .obj (.viewTDense .vec) .d true, .obj (.viewTDense .ten) .d false]),
  (.mattens, [.scal .d, .obj .dense .d true, .obj (.viewTDense .vec) .d true, .scal .d, .obj (.viewTDense .ten) .d false]),
  (.mattens, [.obj .dense .d true, .obj (.viewTDense .mat) .d true, .obj .tdense .d false]),
  (.mattens, [.scal .d, .obj .dense .d true, .obj (.viewTDense .mat) .d true, .scal .d, .obj .tdense .d false]),
  (.mattens, [.obj .dense .d true, .obj (.viewTDense .mat) .d true, .obj (.viewTDense .vec) .d false]),
  (.mattens, [.scal .d, .obj .dense .d true, .obj (.viewTDense .mat) .d true, .scal .d, .obj (.viewTDense .vec) .d false]),
  (.mattens, [.obj .dense .d true, .obj (.viewTDense .mat) .d true, .obj (.viewTDense .mat) .d false]),
  (.mattens, [.scal .d, .obj .dense .d true, .obj (.viewTDense .mat) .d true, .scal .d, .obj (.viewTDense .mat) .d false]),
  (.mattens, [.obj .dense .d true, .obj (.viewTDense .mat) .d true, .obj (.viewTDense .ten) .d false]),
  (.mattens, [.scal .d, .obj .dense .d true, .obj (.viewTDense .mat) .d true, .scal .d, .obj (.viewTDense .ten) .d false]),
  (.mattens, [.obj .dense .d true, .obj (.viewTDense .ten) .d true, .obj .tdense .d false]),
  (.mattens, [.scal .d, .obj .dense .d true, .obj (.viewTDense .ten) .d true, .scal .d, .obj .tdense .d false]),
  (.mattens, [.obj .dense .d true, .obj (.viewTDense .ten) .d true, .obj (.viewTDense .vec) .d false]),
  (.mattens, [.scal .d, .obj .dense .d true, .obj (.viewTDense .ten) .d true, .scal .d, .obj (.viewTDense .vec) .d false]),
  (.mattens, [.obj .dense .d true, .obj (.viewTDense .ten) .d true, .obj (.viewTDense .mat) .d false]),
  (.mattens, [.scal .d, .obj .dense .d true, .obj (.viewTDense .ten) .d true, .scal .d, .obj (.viewTDense .mat) .d false]),
  (.mattens, [.obj .dense .d true, .obj (.viewTDense .ten) .d true, .obj (.viewTDense .ten) .d false]),
  (.mattens, [.scal .d, .obj .dense .d true, .obj (.viewTDense .ten) .d true, .scal .d, .obj (.viewTDense .ten) .d false]),
  (.mattens, [.obj (.viewDense .vec) .d true, .obj .tdense .d true, .obj .tdense .d false]),
  (.mattens, [.scal .d, .obj (.viewDense .vec) .d true, .obj .tdense .d true, .scal .d, .obj .tdense .d false]),
  (.mattens, [.obj (.viewDense .vec) .d true, .obj .tdense .d true, .obj (.viewTDense .vec) .d false]),
  (.mattens, [.scal .d, .obj (.viewDense .vec) .d true, .obj .tdense .d true, .scal .d, .obj (.viewTDense .vec) .d false]),
  (.mattens, [.obj (.viewDense .vec) .d true, .obj .tdense .d true, .obj (.viewTDense .mat) .d false]),
  (.mattens, [.scal .d, .obj (.viewDense .vec) .d true, .obj .tdense .d true, .scal .d, .obj (.viewTDense .mat) .d false]),
  (.mattens, [.obj (.viewDense .vec) .d true, .obj .tdense .d true, .obj (.viewTDense .ten) .d false]),
  (.mattens, [.scal .d, .obj (.viewDense .vec) .d true, .obj .tdense .d true, .scal .d, .obj (.viewTDense .ten) .d false]),
  (.mattens, [.obj (.viewDense .vec) .d true, .obj (.viewTDense .vec) .d true, .obj .tdense .d false]),
  (.mattens, [.scal .d, .obj (.viewDense .vec) .d true, .obj (.viewTDense .vec) .d true, .scal .d, .obj .tdense .d false]),
  (.mattens, [.obj (.viewDense .vec) .d true, .obj (.viewTDense .vec) .d true, .obj (.viewTDense .vec) .d false]),
  (.mattens, [.scal .d, .obj (.viewDense .vec) .d true, .obj (.viewTDense .vec) .d true, .scal .d, .obj (.viewTDense .vec) .d false]),
  (.mattens, [.obj (.viewDense .vec) .d true, .obj (.viewTDense .vec) .d true, .obj (.viewTDense .mat) .d false]),
  (.mattens, [.scal .d, .obj (.viewDense .vec) .d true, .obj (.viewTDense .vec) .d true, .scal .d, .obj (.viewTDense .mat) .d false]),
  (.mattens, [.obj (.viewDense .vec) .d true, .obj (.viewTDense .vec) .d true, .obj (.viewTDense .ten) .d false]),
  (.mattens, [.scal .d, .obj (.viewDense .vec) .d true, .obj (.viewTDense .vec) .d true, .scal .d, .obj (.viewTDense .ten) .d false]),
  (.mattens, [.obj (.viewDense .vec) .d true, .obj (.viewTDense .mat) .d true, .obj .tdense .d false]),
  (.mattens, [.scal .d, .obj (.viewDense .vec) .d true, .obj (.viewTDense .mat) .d true, .scal .d, .obj .tdense .d false]),
  (.mattens, [.obj (.viewDense .vec) .d true, .obj (.viewTDense .mat) .d true, .obj (.viewTDense .vec) .d false]),
  (.mattens, [.scal .d, .obj (.viewDense .vec) .d true, .obj (.viewTDense .mat) .d true, .scal .d, .obj (.viewTDense .vec) .d false]),
  (.mattens, [.obj (.viewDense .vec) .d true, .obj (.viewTDense .mat) .d true, .obj (.viewTDense .mat) .d false]),
  (.mattens, [.scal .d, .obj (.viewDense .vec) .d true, .obj (.viewTDense .mat) .d true, .scal .d, .obj (.viewTDense .mat) .d false]),
  (.mattens, [.obj (.viewDense .vec) .d true, .obj (.viewTDense .mat) .d true, .obj (.viewTDense .ten) .d false]),
  (.mattens, [.scal .d, .obj (.viewDense .vec) .d true, .obj (.viewTDense .mat) .d true, .scal .d, .obj (.viewTDense .ten) .d false]),
  (.mattens, [.obj (.viewDense .vec) .d true, .obj (.viewTDense .ten) .d true, .obj .tdense .d false]),
  (.mattens, [.scal .d, .obj (.viewDense .vec) .d true, .obj (.viewTDense .ten) .d true, .scal .d, .obj .tdense .d false]),
  (.mattens, [.obj (.viewDense .vec) .d true, .obj (.viewTDense .ten) .d true, .obj (.viewTDense .vec) .d false]),
  (.mattens, [.scal .d, .obj (.viewDense .vec) .d true, .obj (.viewTDense .ten) .d true, .scal .d, .obj (.viewTDense .vec) .d false]),
  (.mattens, [.obj (.viewDense .vec) .d true, .obj (.viewTDense .ten) .d true, .obj (.viewTDense .mat) .d false]),
  (.mattens, [.scal .d, .obj (.viewDense .vec) .d true, .obj (.viewTDense .ten) .d true, .scal .d, .obj (.viewTDense .mat) .d false]),
  (.mattens, [.obj (.viewDense .vec) .d true, .obj (.viewTDense .ten) .d true, .obj (.viewTDense .ten) .d false]),
  (.mattens, [.scal .d, .obj (.viewDense .vec) .d true, .obj (.viewTDense .ten) .d true, .scal .d, .obj (.viewTDense .ten) .d false]),
  (.mattens, [.obj (.viewDense .mat) .d true, .obj .tdense .d true, .obj .tdense .d false]),
  (.mattens, [.scal .d, .obj (.viewDense .mat) .d true, .obj .tdense .d true, .scal .d, .obj .tdense .d false]),
  (.mattens, [.obj (.viewDense .mat) .d true, .obj .tdense .d true, .obj (.viewTDense .vec) .d false]),
  (.mattens, [.scal .d, .obj (.viewDense .mat) .d true, .obj .tdense .d true, .scal .d, .obj (.viewTDense .vec) .d false]),
  (.mattens, [.obj (.viewDense .mat) .d true, .obj .tdense .d true, .obj (.viewTDense .mat) .d false]),
  (.mattens, [.scal .d, .obj (.viewDense .mat) .d true, .obj .tdense .d true, .scal .d, .obj (.viewTDense .mat) .d false]),
  (.mattens, [.obj (.viewDense .mat) .d true, .obj .tdense .d true, .obj (.viewTDense .ten) .d false]),
  (.mattens, [.scal .d, .obj (.viewDense .mat) .d true, .obj .tdense .d true, .scal .d, .obj (.viewTDense .ten) .d false]),
  (.mattens, [.obj (.viewDense .mat) .d true, .obj (.viewTDense .vec) .d true, .obj .tdense .d false]),
  (.mattens, [.scal .d, .obj (.viewDense .mat) .d true, .obj (.viewTDense .vec) .d true, .scal .d, .obj .tdense .d false]),
  (.mattens, [.obj (.viewDense .mat) .d true, .obj (.viewTDense .vec) .d true, .obj (.viewTDense .vec) .d false]),
  (.mattens, [.scal .d, .obj (.viewDense .mat) .d true, .obj (.viewTDense .vec) .d true, .scal .d, .obj (.viewTDense .vec) .d false]),
  (.mattens, [.obj (.viewDense .mat) .d true, .obj (.viewTDense .vec) .d true, .obj (.viewTDense .mat) .d false]),
  (.mattens, [.scal .d, .obj (.viewDense .mat) .d true, .obj (.viewTDense .vec) .d true, .scal .d, .obj (.viewTDense .mat) .d false]),
  (.mattens, [.obj (.viewDense .mat) .d true, .obj (.viewTDense .vec) .d true, .obj (.viewTDense .ten) .d false]),
  (.mattens, [.scal .d, .obj (.viewDense .mat) .d true, .obj (.viewTDense .vec) .d true, .scal .d, .obj (.viewTDense .ten) .d false])]

/-- the overloads of `tMattens_1` that are declared -/
def hMattens_1 : List (Fn × List Dispatch.Par) := [
  (.mattens, [.obj (.viewDense .mat) .d true, .obj (.viewTDense .mat) .d true, .obj .tdense .d false]),
  (.mattens, [.scal .d, .obj (.viewDense .mat) .d true, .obj (.viewTDense .mat) .d true, .scal .d, .obj .tdense .d false]),
  (.mattens, [.obj (.viewDense .mat) .d true, .obj (.viewTDense .mat) .d true, .obj (.viewTDense .vec) .d false]),
  (.mattens, [.scal .d, .obj (.viewDense .mat) .d true, .obj (.viewTDense .mat) .d true, .scal .d, .obj (.viewTDense .vec) .d false]),
  (.mattens, [.obj (.viewDense .mat) .d true, .obj (.viewTDense .mat) .d true, .obj (.viewTDense .mat) .d false]),
  (.mattens, [.scal .d, .obj (.viewDense .mat) .d true, .obj (.viewTDense .mat) .d true, .scal .d, .obj (.viewTDense .mat) .d false]),
  (.mattens, [.obj (.viewDense .mat) .d true, .obj (.viewTDense .mat) .d true, .obj (.viewTDense .ten) .d false]),
  (.mattens, [.scal .d, .obj (.viewDense .mat) .d true, .obj (.viewTDense .mat) .d true, .scal .d, .obj (.viewTDense .ten) .d false]),
  (.mattens, [.obj (.viewDense .mat) .d true, .obj (.viewTDense .ten) .d true, .obj .tdense .d false]),
  (.mattens, [.scal .d, .obj (.viewDense .mat) .d true, .obj (.viewTDense .ten) .d true, .scal .d, .obj .tdense .d false]),
  (.mattens, [.obj (.viewDense .mat) .d true, .obj (.viewTDense .ten) .d true, .obj (.viewTDense .vec) .d false]),
  (.mattens, [.scal .d, .obj (.viewDense .mat) .d true, .obj (.viewTDense .ten) .d true, .scal .d, .obj (.viewTDense .vec) .d false]),
  (.mattens, [.obj (.viewDense .mat) .d true, .obj (.viewTDense .ten) .d true, .obj (.viewTDense .mat) .d false]),
  (.mattens, [.scal .d, .obj (.viewDense .mat) .d true, .obj (.viewTDense .ten) .d true, .scal .d, .obj (.viewTDense .mat) .d false]),
  (.mattens, [.obj (.viewDense .mat) .d true, .obj (.viewTDense .ten) .d true, .obj (.viewTDense .ten) .d false]),
  (.mattens, [.scal .d, .obj (.viewDense .mat) .d true, .obj (.viewTDense .ten) .d true, .scal .d, .obj (.viewTDense .ten) .d false]),
  (.mattens, [.obj (.viewDense .ten) .d true, .obj .tdense .d true, .obj .tdense .d false]),
  (.mattens, [.scal .d, .obj (.viewDense .ten) .d true, .obj .tdense .d true, .scal .d, .obj .tdense .d false]),
  (.mattens, [.obj (.viewDense .ten) .d true, .obj .tdense .d true, .obj (.viewTDense .vec) .d false]),
  (.mattens, [.scal .d, .obj (.viewDense .ten) .d true, .obj .tdense .d true, .scal .d, .obj (.viewTDense .vec) .d false]),
  (.mattens, [.obj (.viewDense .ten) .d true, .obj .tdense .d true, .obj (.viewTDense .mat) .d false]),
  (.mattens, [.scal .d, .obj (.viewDense .ten) .d true, .obj .tdense .d true, .scal .d, .obj (.viewTDense .mat) .d false]),
  (.mattens, [.obj (.viewDense .ten) .d true, .obj .tdense .d true, .obj (.viewTDense .ten) .d false]),
  (.mattens, [.scal .d, .obj (.viewDense .ten) .d true, .obj .tdense .d true, .scal .d, .obj (.viewTDense .ten) .d false]),
  (.mattens, [.obj (.viewDense .ten) .d true, .obj (.viewTDense .vec) .d true, .obj .tdense .d false]),
  (.mattens, [.scal .d, .obj (.viewDense .ten) .d true, .obj (.viewTDense .vec) .d true, .scal .d, .obj .tdense .d false]),
  (.mattens, [.obj (.viewDense .ten) .d true, .obj (.viewTDense .vec) .d true, .obj (.viewTDense .vec) .d false]),
  (.mattens, [.scal .d, .obj (.viewDense .ten) .d true, .obj (.viewTDense .vec) .d true, .scal .d, .obj (.viewTDense .vec) .d false]),
  (.mattens, [.obj (.viewDense .ten) .d true, .obj (.viewTDense .vec) .d true, .obj (.viewTDense .mat) .d false]),
  (.mattens, [.scal .d, .obj (.viewDense .ten) .d true, .obj (.viewTDense .vec) .d true, .scal .d, .obj (.viewTDense .mat) .d false]),
  (.mattens, [.obj (.viewDense .ten) .d true, .obj (.viewTDense .vec) .d true, .obj (.viewTDense .ten) .d false]),
  (.mattens, [.scal .d, .obj (.viewDense .ten) .d true, .obj (.viewTDense .vec) .d true, .scal .d, .obj (.viewTDense .ten) .d false]),
  (.mattens, [.obj (.viewDense .ten) .d true, .obj (.viewTDense .mat) .d true, .obj .tdense .d false]),
  (.mattens, [.scal .d, .obj (.viewDense .ten) .d true, .obj (.viewTDense .mat) .d true, .scal .d, .obj .tdense .d false]),
  (.mattens, [.obj (.viewDense .ten) .d true, .obj (.viewTDense .mat) .d true, .obj (.viewTDense .vec) .d false]),
  (.mattens, [.scal .d, .obj (.viewDense .ten) .d true, .obj (.viewTDense .mat) .d true, .scal .d, .obj (.viewTDense .vec) .d false]),
  (.mattens, [.obj (.viewDense .ten) .d true, .obj (.viewTDense .mat) .d true, .obj (.viewTDense .mat) .d false]),
  (.mattens, [.scal .d, .obj (.viewDense .ten) .d true, .obj (.viewTDense .mat) .d true, .scal .d, .obj (.viewTDense .mat) .d false]),
  (.mattens, [.obj (.viewDense .ten) .d true, .obj (.viewTDense .mat) .d true, .obj (.viewTDense .ten) .d false]),
  (.mattens, [.scal .d, .obj (.viewDense .ten) .d true, .obj (.viewTDense .mat) .d true, .scal .d, .obj (.viewTDense .ten) .d false]),
  (.mattens, [.obj (.viewDense .ten) .d true, .obj (.viewTDense .ten) .d true, .obj .tdense .d false]),
  (.mattens, [.scal .d, .obj (.viewDense .ten) .d true, .obj (.viewTDense .ten) .d true, .scal .d, .obj .tdense .d false]),
  (.mattens, [.obj (.viewDense .ten) .d true, .obj (.viewTDense .ten) .d true, .obj (.viewTDense .vec) .d false]),
  (.mattens, [.scal .d, .obj (.viewDense .ten) .d true, .obj (.viewTDense .ten) .d true, .scal .d, .obj (.viewTDense .vec) .d false]),
  (.mattens, [.obj (.viewDense .ten) .d true, .obj (.viewTDense .ten) .d true, .obj (.viewTDense .mat) .d false]),
  (.mattens, [.scal .d, .obj (.viewDense .ten) .d true, .obj (.viewTDense .ten) .d true, .scal .d, .obj (.viewTDense .mat) .d false]),
  (.mattens, [.obj (.viewDense .ten) .d true, .obj (.viewTDense .ten) .d true, .obj (.viewTDense .ten) .d false]),
  (.mattens, [.scal .d, .obj (.viewDense .ten) .d true, .obj (.viewTDense .ten) .d true, .scal .d, .obj (.viewTDense .ten) .d false]),
  (.mattens, [.obj .dense .s true, .obj .tdense .s true, .obj .tdense .s false]),
  (.mattens, [.scal .s, .obj .dense .s true, .obj .tdense .s true, .scal .s, .obj .tdense .s false]),
  (.mattens, [.obj .dense .s true, .obj .tdense .s true, .obj (.viewTDense .vec) .s false]),
  (.mattens, [.scal .s, .obj .dense .s true, .obj .tdense .s true, .scal .s, .obj (.viewTDense .vec) .s false]),
  (.mattens, [.obj .dense .s true, .obj .tdense .s true, .obj (.viewTDense .mat) .s false]),
  (.mattens, [.scal .s, .obj .dense .s true, .obj .tdense .s true, .scal .s, .obj (.viewTDense .mat) .s false]),
  (.mattens, [.obj .dense .s true, .obj .tdense .s true, .obj (.viewTDense .ten) .s false]),
  (.mattens, [.scal .s, .obj .dense .s true, .obj .tdense .s true, .scal .s, .obj (.viewTDense .ten) .s false]),
  (.mattens, [.obj .dense .s true, .obj (.viewTDense .vec) .s true, .obj .tdense .s false]),
  (.mattens, [.scal .s, .obj .dense .s true, .obj (.viewTDense .vec) .s true, .scal .s, .obj .tdense .s false]),
  (.mattens, [.obj .dense .s true, .obj (.viewTDense .vec) .s true, .obj (.viewTDense .vec) .s false]),
  (.mattens, [.scal .s, .obj .dense .s true, .obj (.viewTDense .vec) .s true, .scal .s, .obj (.viewTDense .vec) .s false]),
  (.mattens, [.obj .dense .s true, .obj (.viewTDense .vec) .s true, .obj (.viewTDense .mat) .s false]),
  (.mattens, [.scal .s, .obj .dense .s true, .obj (.viewTDense .vec) .s true, .scal .s, .obj (.viewTDense .mat) .s false]),
  (.mattens, [.obj .dense .s true, .obj (.viewTDense .vec) .s true, .obj (.viewTDense .ten) .s false]),
  (.mattens, [.scal .s, .obj .dense .s true, .obj (.viewTDense .vec) .s true, .scal .s, .obj (.viewTDense .ten) .s false]),
  (.mattens, [.obj .dense .s true, .obj (.viewTDense .mat) .s true, .obj .tdense .s false]),
  (.mattens, [.scal .s, .obj .dense .s true, .obj (.viewTDense .mat) .s true, .scal .s, .obj .tdense .s false]),
  (.mattens, [.obj .dense .s true, .obj (.viewTDense .mat) .s true, .obj (.viewTDense .vec) .s false]),
  (.mattens, [.scal .s, .obj .dense .s true, .obj (.viewTDense .mat) .s true, .scal .s, .obj (.viewTDense .vec) .s false]),
  (.mattens, [.obj .dense .s true, .obj (.viewTDense .mat) .s true, .obj (.viewTDense .mat) .s false]),
  (.mattens, [.scal .s, .obj .dense .s true, .obj (.viewTDense .mat) .s true, .scal .s, .obj (.viewTDense .mat) .s false]),
  (.mattens, [.obj .dense .s true, .obj (.viewTDense .mat) .s true, .obj (.viewTDense .ten) .s false]),
  (.mattens, [.scal .s, .obj .dense .s true, .obj (.viewTDense .mat) .s true, .scal .s, .obj (.viewTDense .ten) .s false]),
  (.mattens, [.obj .dense .s true, .obj (.viewTDense .ten) .s true, .obj .tdense .s false]),
  (.mattens, [.scal .s, .obj .dense .s true, .obj (.viewTDense .ten) .s true, .scal .s, .obj .tdense .s false]),
  (.mattens, [.obj .dense .s true, .obj (.viewTDense .ten) .s true, .obj (.viewTDense .vec) .s false]),
  (.mattens, [.scal .s, .obj .dense .s true, .obj (.viewTDense .ten) .s true, .scal .s, .obj (.viewTDense .vec) .s false]),
  (.mattens, [.obj .dense .s true, .obj (.viewTDense .ten) .s true, .obj (.viewTDense .mat) .s false]),
  (.mattens, [.scal .s, .obj .dense .s true, .obj (.viewTDense .ten) .s true, .scal .s, .obj (.viewTDense .mat) .s false]),
  (.mattens, [.obj .dense .s true, .obj (.viewTDense .ten) .s true, .obj (.viewTDense .ten) .s false]),
  (.mattens, [.scal .s, .obj .dense .s true, .obj (.viewTDense .ten) .s true, .scal .s, .obj (.viewTDense .ten) .s false])]

/-- the overloads of `tMattens_2` that are declared -/
def hMattens_2 : List (Fn × List Dispatch.Par) := [
  (.mattens, [.obj (.viewDense .vec) .s true, .obj .tdense .s true, .obj .tdense .s false]),
  (.mattens, [.scal .s, .obj (.viewDense .vec) .s true, .obj .tdense .s true, .scal .s, .obj .tdense .s false]),
  (.mattens, [.obj (.viewDense .vec) .s true, .obj .tdense .s true, .obj (.viewTDense .vec) .s false]),
  (.mattens, [.scal .s, .obj (.viewDense .vec) .s true, .obj .tdense .s true, .scal .s, .obj (.viewTDense .vec) .s false]),
  (.mattens, [.obj (.viewDense .vec) .s true, .obj .tdense .s true, .obj (.viewTDense .mat) .s false]),
  (.mattens, [.scal .s, .obj (.viewDense .vec) .s true, .obj .tdense .s true, .scal .s, .obj (.viewTDense .mat) .s false]),
  (.mattens, [.obj (.viewDense .vec) .s true, .obj .tdense .s true, .obj (.viewTDense .ten) .s false]),
  (.mattens, [.scal .s, .obj (.viewDense .vec) .s true, .obj .tdense .s true, .scal .s, .obj (.viewTDense .ten) .s false]),
  (.mattens, [.obj (.viewDense .vec) .s true, .obj (.viewTDense .vec) .s true, .obj .tdense .s false]),
  (.mattens, [.scal .s, .obj (.viewDense .vec) .s true, .obj (.viewTDense .vec) .s true, .scal .s, .obj .tdense .s false]),
  (.mattens, [.obj (.viewDense .vec) .s true, .obj (.viewTDense .vec) .s true, .obj (.viewTDense .vec) .s false]),
  (.mattens, [.scal .s, .obj (.viewDense .vec) .s true, .obj (.viewTDense .vec) .s true, .scal .s, .obj (.viewTDense .vec) .s false]),
  (.mattens, [.obj (.viewDense .vec) .s true, .obj (.viewTDense .vec) .s true, .obj (.viewTDense .mat) .s false]),
  (.mattens, [.scal .s, .obj (.viewDense .vec) .s true, .obj (.viewTDense .vec) .s true, .scal .s, .obj (.viewTDense .mat) .s false]),
  (.mattens, [.obj (.viewDense .vec) .s true, .obj (.viewTDense .vec) .s true, .obj (.viewTDense .ten) .s false]),
  (.mattens, [.scal .s, .obj (.viewDense .vec) .s true, .obj (.viewTDense .vec) .s true, .scal .s, .obj (.viewTDense .ten) .s false]),
  (.mattens, [.obj (.viewDense .vec) .s true, .obj (.viewTDense .mat) .s true, .obj .tdense .s false]),
  (.mattens, [.scal .s, .obj (.viewDense .vec) .s true, .obj (.viewTDense .mat) .s true, .scal .s, .obj .tdense .s false]),
  (.mattens, [.obj (.viewDense .vec) .s true, .obj (.viewTDense .mat) .s true, .obj (.viewTDense .vec) .s false]),
  (.mattens, [.scal .s, .obj (.viewDense .vec) .s true, .obj (.viewTDense .mat) .s true, .scal .s, .obj (.viewTDense .vec) .s false]),
  (.mattens, [.obj (.viewDense .vec) .s true, .obj (.viewTDense .mat) .s true, .obj (.viewTDense .mat) .s false]),
  (.mattens, [.scal .s, .obj (.viewDense .vec) .s true, .obj (.viewTDense .mat) .s true, .scal .s, .obj (.viewTDense .mat) .s false]),
  (.mattens, [.obj (.viewDense .vec) .s true, .obj (.viewTDense .mat) .s true, .obj (.viewTDense .ten) .s false]),
  (.mattens, [.scal .s, .obj (.viewDense .vec) .s true, .obj (.viewTDense .mat) .s true, .scal .s, .obj (.viewTDense .ten) .s false]),
  (.mattens, [.obj (.viewDense .vec) .s true, .obj (.viewTDense .ten) .s true, .obj .tdense .s false]),
  (.mattens, [.scal .s, .obj (.viewDense .vec) .s true, .obj (.viewTDense .ten) .s true, .scal .s, .obj .tdense .s false]),
  (.mattens, [.obj (.viewDense .vec) .s true, .obj (.viewTDense .ten) .s true, .obj (.viewTDense .vec) .s false]),
  (.mattens, [.scal .s, .obj (.viewDense .vec) .s true, .obj (.viewTDense .ten) .s true, .scal .s, .obj (.viewTDense .vec) .s false]),
  (.mattens, [.obj (.viewDense .vec) .s true, .obj (.viewTDense .ten) .s true, .obj (.viewTDense .mat) .s false]),
  (.mattens, [.scal .s, .obj (.viewDense .vec) .s true, .obj (.viewTDense .ten) .s true, .scal .s, .obj (.viewTDense .mat) .s false]),
  (.mattens, [.obj (.viewDense .vec) .s true, .obj (.viewTDense .ten) .s true, .obj (.viewTDense .ten) .s false]),
  (.mattens, [.scal .s, .obj (.viewDense .vec) .s true, .obj (.viewTDense .ten) .s true, .scal .s, .obj (.viewTDense .ten) .s false]),
  (.mattens, [.obj (.viewDense .mat) .s true, .obj .tdense .s true, .obj .tdense .s false]),
  (.mattens, [.scal .s, .obj (.viewDense .mat) .s true, .obj .tdense .s true, .scal .s, .obj .tdense .s false]),
  (.mattens, [.obj (.viewDense .mat) .s true, .obj .tdense .s true, .obj (.viewTDense .vec) .s false]),
  (.mattens, [.scal .s, .obj (.viewDense .mat) .s true, .obj .tdense .s true, .scal .s, .obj (.viewTDense .vec) .s false]),
  (.mattens, [.obj (.viewDense .mat) .s true, .obj .tdense .s true, .obj (.viewTDense .mat) .s false]),
  (.mattens, [.scal .s, .obj (.viewDense .mat) .s true, .obj .tdense .s true, .scal .s, .obj (.viewTDense .mat) .s false]),
  (.mattens, [.obj (.viewDense .mat) .s true, .obj .tdense .s true, .obj (.viewTDense .ten) .s false]),
  (.mattens, [.scal .s, .obj (.viewDense .mat) .s true, .obj .tdense .s true, .scal .s, .obj (.viewTDense .ten) .s false]),
  (.mattens, [.obj (.viewDense .mat) .s true, .obj (.viewTDense .vec) .s true, .obj .tdense .s false]),
  (.mattens, [.scal .s, .obj (.viewDense .mat) .s true, .obj (.viewTDense .vec) .s true, .scal .s, .obj .tdense .s false]),
  (.mattens, [.obj (.viewDense .mat) .s true, .obj (.viewTDense .vec) .s true, .obj (.viewTDense .vec) .s false]),
  (.mattens, [.scal .s, .obj (.viewDense .mat) .s true, .obj (.viewTDense .vec) .s true, .scal .s, .obj (.viewTDense .vec) .s false]),
  (.mattens, [.obj (.viewDense .mat) .s true, .obj (.viewTDense .vec) .s true, .obj (.viewTDense .mat) .s false]),
  (.mattens, [.scal .s, .obj (.viewDense .mat) .s true, .obj (.viewTDense .vec) .s true, .scal .s, .obj (.viewTDense .mat) .s false]),
  (.mattens, [.obj (.viewDense .mat) .s true, .obj (.viewTDense .vec) .s true, .obj (.viewTDense .ten) .s false]),
  (.mattens, [.scal .s, .obj (.viewDense .mat) .s true, .obj (.viewTDense .vec) .s true, .scal .s, .obj (.viewTDense .ten) .s false]),
  (.mattens, [.obj (.viewDense .mat) .s true, .obj (.viewTDense .mat) .s true, .obj .tdense .s false]),
  (.mattens, [.scal .s, .obj (.viewDense .mat) .s true, .obj (.viewTDense .mat) .s true, .scal .s, .obj .tdense .s false]),
  (.mattens, [.obj (.viewDense .mat) .s true, .obj (.viewTDense .mat) .s true, .obj (.viewTDense .vec) .s false]),
  (.mattens, [.scal .s, .obj (.viewDense .mat) .s true, .obj (.viewTDense .mat) .s true, .scal .s, .obj (.viewTDense .vec) .s false]),
  (.mattens, [.obj (.viewDense .mat) .s true, .obj (.viewTDense .mat) .s true, .obj (.viewTDense .mat) .s false]),
  (.mattens, [.scal .s, .obj (.viewDense .mat) .s true, .obj (.viewTDense .mat) .s true, .scal .s, .obj (.viewTDense .mat) .s false]),
  (.mattens, [.obj (.viewDense .mat) .s true, .obj (.viewTDense .mat) .s true, .obj (.viewTDense .ten) .s false]),
  (.mattens, [.scal .s, .obj (.viewDense .mat) .s true, .obj (.viewTDense .mat) .s true, .scal .s, .obj (.viewTDense .ten) .s false]),
  (.mattens, [.obj (.viewDense .mat) .s true, .obj (.viewTDense .ten) .s true, .obj .tdense .s false]),
  (.mattens, [.scal .s, .obj (.viewDense .mat) .s true, .obj (.viewTDense .ten) .s true, .scal .s, .obj .tdense .s false]),
  (.mattens, [.obj (.viewDense .mat) .s true, .obj (.viewTDense .ten) .s true, .obj (.viewTDense .vec) .s false]),
  (.mattens, [.scal .s, .obj (.viewDense .mat) .s true, .obj (.viewTDense .ten) .s true, .scal .s, .obj (.viewTDense .vec) .s false]),
  (.mattens, [.obj (.viewDense .mat) .s true, .obj (.viewTDense .ten) .s true, .obj (.viewTDense .mat) .s false]),
  (.mattens, [.scal .s, .obj (.viewDense .mat) .s true, .obj (.viewTDense .ten) .s true, .scal .s, .obj (.viewTDense .mat) .s false]),
  (.mattens, [.obj (.viewDense .mat) .s true, .obj (.viewTDense .ten) .s true, .obj (.viewTDense .ten) .s false]),
  (.mattens, [.scal .s, .obj (.viewDense .mat) .s true, .obj (.viewTDense .ten) .s true, .scal .s, .obj (.viewTDense .ten) .s false]),
  (.mattens, [.obj (.viewDense .ten) .s true, .obj .tdense .s true, .obj .tdense .s false]),
  (.mattens, [.scal .s, .obj (.viewDense .ten) .s true, .obj .tdense .s true, .scal .s, .obj .tdense .s false]),
  (.mattens, [.obj (.viewDense .ten) .s true, .obj .tdense .s true, .obj (.viewTDense .vec) .s false]),
  (.mattens, [.scal .s, .obj (.viewDense .ten) .s true, .obj .tdense .s true, .scal .s, .obj (.viewTDense .vec) .s false]),
  (.mattens, [.obj (.viewDense .ten) .s true, .obj .tdense .s true, .obj (.viewTDense .mat) .s false]),
  (.mattens, [.scal .s, .obj (.viewDense .ten) .s true, .obj .tdense .s true, .scal .s, .obj (.viewTDense .mat) .s false]),
  (.mattens, [.obj (.viewDense .ten) .s true, .obj .tdense .s true, .obj (.viewTDense .ten) .s false]),
  (.mattens, [.scal .s, .obj (.viewDense .ten) .s true, .obj .tdense .s true, .scal .s, .obj (.viewTDense .ten) .s false]),
  (.mattens, [.obj (.viewDense .ten) .s true, .obj (.viewTDense .vec) .s true, .obj .tdense .s false]),
  (.mattens, [.scal .s, .obj (.viewDense .ten) .s true, .obj (.viewTDense .vec) .s true, .scal .s, .obj .tdense .s false]),
  (.mattens, [.obj (.viewDense .ten) .s true, .obj (.viewTDense .vec) .s true, .obj (.viewTDense .vec) .s false]),
  (.mattens, [.scal .s, .obj (.viewDense .ten) .s true, .obj (.viewTDense .vec) .s true, .scal .s, .obj (.viewTDense .vec) .s false]),
  (.mattens, [.obj (.viewDense .ten) .s true, .obj (.viewTDense .vec) .s true, .obj (.viewTDense .mat) .s false]),
  (.mattens, [.scal .s, .obj (.viewDense .ten) .s true, .obj (.viewTDense .vec) .s true, .scal .s, .obj (.viewTDense .mat) .s false]),
  (.mattens, [.obj (.viewDense .ten) .s true, .obj (.viewTDense .vec) .s true, .obj (.viewTDense .ten) .s false]),
  (.mattens, [.scal .s, .obj (.viewDense .ten) .s true, .obj (.viewTDense .vec) .s true, .scal .s, .obj (.viewTDense .ten) .s false])]

/-- the overloads of `tMattens_3` that are declared -/
def hMattens_3 : List (Fn × List Dispatch.Par) := [
  (.mattens, [.obj (.viewDense .ten) .s true, .obj (.viewTDense .mat) .s true, .obj .tdense .s false]),
  (.mattens, [.scal .s, .obj (.viewDense .ten) .s true, .obj (.viewTDense .mat) .s true, .scal .s, .obj .tdense .s false]),
  (.mattens, [.obj (.viewDense .ten) .s true, .obj (.viewTDense .mat) .s true, .obj (.viewTDense .vec) .s false]),
  (.mattens, [.scal .s, .obj (.viewDense .ten) .s true, .obj (.viewTDense .mat) .s true, .scal .s, .obj (.viewTDense .vec) .s false]),
  (.mattens, [.obj (.viewDense .ten) .s true, .obj (.viewTDense .mat) .s true, .obj (.viewTDense .mat) .s false]),
  (.mattens, [.scal .s, .obj (.viewDense .ten) .s true, .obj (.viewTDense .mat) .s true, .scal .s, .obj (.viewTDense .mat) .s false]),
  (.mattens, [.obj (.viewDense .ten) .s true, .obj (.viewTDense .mat) .s true, .obj (.viewTDense .ten) .s false]),
  (.mattens, [.scal .s, .obj (.viewDense .ten) .s true, .obj (.viewTDense .mat) .s true, .scal .s, .obj (.viewTDense .ten) .s false]),
  (.mattens, [.obj (.viewDense .ten) .s true, .obj (.viewTDense .ten) .s true, .obj .tdense .s false]),
  (.mattens, [.scal .s, .obj (.viewDense .ten) .s true, .obj (.viewTDense .ten) .s true, .scal .s, .obj .tdense .s false]),
  (.mattens, [.obj (.viewDense .ten) .s true, .obj (.viewTDense .ten) .s true, .obj (.viewTDense .vec) .s false]),
  (.mattens, [.scal .s, .obj (.viewDense .ten) .s true, .obj (.viewTDense .ten) .s true, .scal .s, .obj (.viewTDense .vec) .s false]),
  (.mattens, [.obj (.viewDense .ten) .s true, .obj (.viewTDense .ten) .s true, .obj (.viewTDense .mat) .s false]),
  (.mattens, [.scal .s, .obj (.viewDense .ten) .s true, .obj (.viewTDense .ten) .s true, .scal .s, .obj (.viewTDense .mat) .s false]),
  (.mattens, [.obj (.viewDense .ten) .s true, .obj (.viewTDense .ten) .s true, .obj (.viewTDense .ten) .s false]),
  (.mattens, [.scal .s, .obj (.viewDense .ten) .s true, .obj (.viewTDense .ten) .s true, .scal .s, .obj (.viewTDense .ten) .s false]),
  (.mattens, [.obj .crs .d true, .obj .tdense .d true, .obj .tdense .d false]),
  (.mattens, [.scal .d, .obj .crs .d true, .obj .tdense .d true, .scal .d, .obj .tdense .d false]),
  (.mattens, [.obj .crs .d true, .obj .tdense .d true, .obj (.viewTDense .vec) .d false]),
  (.mattens, [.scal .d, .obj .crs .d true, .obj .tdense .d true, .scal .d, .obj (.viewTDense .vec) .d false]),
  (.mattens, [.obj .crs .d true, .obj .tdense .d true, .obj (.viewTDense .mat) .d false]),
  (.mattens, [.scal .d, .obj .crs .d true, .obj .tdense .d true, .scal .d, .obj (.viewTDense .mat) .d false]),
  (.mattens, [.obj .crs .d true, .obj .tdense .d true, .obj (.viewTDense .ten) .d false]),
  (.mattens, [.scal .d, .obj .crs .d true, .obj .tdense .d true, .scal .d, .obj (.viewTDense .ten) .d false]),
  (.mattens, [.obj .crs .d true, .obj (.viewTDense .vec) .d true, .obj .tdense .d false]),
  (.mattens, [.scal .d, .obj .crs .d true, .obj (.viewTDense .vec) .d true, .scal .d, .obj .tdense .d false]),
  (.mattens, [.obj .crs .d true, .obj (.viewTDense .vec) .d true, .obj (.viewTDense .vec) .d false]),
  (.mattens, [.scal .d, .obj .crs .d true, .obj (.viewTDense .vec) .d true, .scal .d, .obj (.viewTDense .vec) .d false]),
  (.mattens, [.obj .crs .d true, .obj (.viewTDense .vec) .d true, .obj (.viewTDense .mat) .d false]),
  (.mattens, [.scal .d, .obj .crs .d true, .obj (.viewTDense .vec) .d true, .scal .d, .obj (.viewTDense .mat) .d false]),
  (.mattens, [.obj .crs .d true, .obj (.viewTDense .vec) .d true, .obj (.viewTDense .ten) .d false]),
  (.mattens, [.scal .d, .obj .crs .d true, .obj (.viewTDense .vec) .d true, .scal .d, .obj (.viewTDense .ten) .d false]),
  (.mattens, [.obj .crs .d true, .obj (.viewTDense .mat) .d true, .obj .tdense .d false]),
  (.mattens, [.scal .d, .obj .crs .d true, .obj (.viewTDense .mat) .d true, .scal .d, .obj .tdense .d false]),
  (.mattens, [.obj .crs .d true, .obj (.viewTDense .mat) .d true, .obj (.viewTDense .vec) .d false]),
  (.mattens, [.scal .d, .obj .crs .d true, .obj (.viewTDense .mat) .d true, .scal .d, .obj (.viewTDense .vec) .d false]),
  (.mattens, [.obj .crs .d true, .obj (.viewTDense .mat) .d true, .obj (.viewTDense .mat) .d false]),
  (.mattens, [.scal .d, .obj .crs .d true, .obj (.viewTDense .mat) .d true, .scal .d, .obj (.viewTDense .mat) .d false]),
  (.mattens, [.obj .crs .d true, .obj (.viewTDense .mat) .d true, .obj (.viewTDense .ten) .d false]),
  (.mattens, [.scal .d, .obj .crs .d true, .obj (.viewTDense .mat) .d true, .scal .d, .obj (.viewTDense .ten) .d false]),
  (.mattens, [.obj .crs .d true, .obj (.viewTDense .ten) .d true, .obj .tdense .d false]),
  (.mattens, [.scal .d, .obj .crs .d true, .obj (.viewTDense .ten) .d true, .scal .d, .obj .tdense .d false]),
  (.mattens, [.obj .crs .d true, .obj (.viewTDense .ten) .d true, .obj (.viewTDense .vec) .d false]),
  (.mattens, [.scal .d, .obj .crs .d true, .obj (.viewTDense .ten) .d true, .scal .d, .obj (.viewTDense .vec) .d false]),
  (.mattens, [.obj .crs .d true, .obj (.viewTDense .ten) .d true, .obj (.viewTDense .mat) .d false]),
  (.mattens, [.scal .d, .obj .crs .d true, .obj (.viewTDense .ten) .d true, .scal .d, .obj (.viewTDense .mat) .d false]),
  (.mattens, [.obj .crs .d true, .obj (.viewTDense .ten) .d true, .obj (.viewTDense .ten) .d false]),
  (.mattens, [.scal .d, .obj .crs .d true, .obj (.viewTDense .ten) .d true, .scal .d, .obj (.viewTDense .ten) .d false]),
  (.mattens, [.obj .crs .s true, .obj .tdense .s true, .obj .tdense .s false]),
  (.mattens, [.scal .s, .obj .crs .s true, .obj .tdense .s true, .scal .s, .obj .tdense .s false]),
  (.mattens, [.obj .crs .s true, .obj .tdense .s true, .obj (.viewTDense .vec) .s false]),
  (.mattens, [.scal .s, .obj .crs .s true, .obj .tdense .s true, .scal .s, .obj (.viewTDense .vec) .s false]),
  (.mattens, [.obj .crs .s true, .obj .tdense .s true, .obj (.viewTDense .mat) .s false]),
  (.mattens, [.scal .s, .obj .crs .s true, .obj .tdense .s true, .scal .s, .obj (.viewTDense .mat) .s false]),
  (.mattens, [.obj .crs .s true, .obj .tdense .s true, .obj (.viewTDense .ten) .s false]),
  (.mattens, [.scal .s, .obj .crs .s true, .obj .tdense .s true, .scal .s, .obj (.viewTDense .ten) .s false]),
  (.mattens, [.obj .crs .s true, .obj (.viewTDense .vec) .s true, .obj .tdense .s false]),
  (.mattens, [.scal .s, .obj .crs .s true, .obj (.viewTDense .vec) .s true, .scal .s, .obj .tdense .s false]),
  (.mattens, [.obj .crs .s true, .obj (.viewTDense .vec) .s true, .obj (.viewTDense .vec) .s false]),
  (.mattens, [.scal .s, .obj .crs .s true, .obj (.viewTDense .vec) .s true, .scal .s, .obj (.viewTDense .vec) .s false]),
  (.mattens, [.obj .crs .s true, .obj (.viewTDense .vec) .s true, .obj (.viewTDense .mat) .s false]),
  (.mattens, [.scal .s, .obj .crs .s true, .obj (.viewTDense .vec) .s true, .scal .s, .obj (.viewTDense .mat) .s false]),
  (.mattens, [.obj .crs .s true, .obj (.viewTDense .vec) .s true, .obj (.viewTDense .ten) .s false]),
  (.mattens, [.scal .s, .obj .crs .s true, .obj (.viewTDense .vec) .s true, .scal .s, .obj (.viewTDense .ten) .s false]),
  (.mattens, [.obj .crs .s true, .obj (.viewTDense .mat) .s true, .obj .tdense .s false]),
  (.mattens, [.scal .s, .obj .crs .s true, .obj (.viewTDense .mat) .s true, .scal .s, .obj .tdense .s false]),
  (.mattens, [.obj .crs .s true, .obj (.viewTDense .mat) .s true, .obj (.viewTDense .vec) .s false]),
  (.mattens, [.scal .s, .obj .crs .s true, .obj (.viewTDense .mat) .s true, .scal .s, .obj (.viewTDense .vec) .s false]),
  (.mattens, [.obj .crs .s true, .obj (.viewTDense .mat) .s true, .obj (.viewTDense .mat) .s false]),
  (.mattens, [.scal .s, .obj .crs .s true, .obj (.viewTDense .mat) .s true, .scal .s, .obj (.viewTDense .mat) .s false]),
  (.mattens, [.obj .crs .s true, .obj (.viewTDense .mat) .s true, .obj (.viewTDense .ten) .s false]),
  (.mattens, [.scal .s, .obj .crs .s true, .obj (.viewTDense .mat) .s true, .scal .s, .obj (.viewTDense .ten) .s false]),
  (.mattens, [.obj .crs .s true, .obj (.viewTDense .ten) .s true, .obj .tdense .s false]),
  (.mattens, [.scal .s, .obj .crs .s true, .obj (.viewTDense .ten) .s true, .scal .s, .obj .tdense .s false]),
  (.mattens, [.obj .crs .s true, .obj (.viewTDense .ten) .s true, .obj (.viewTDense .vec) .s false]),
  (.mattens, [.scal .s, .obj .crs .s true, .obj (.viewTDense .ten) .s true, .scal .s, .obj (.viewTDense .vec) .s false]),
  (.mattens, [.obj .crs .s true, .obj (.viewTDense .ten) .s true, .obj (.viewTDense .mat) .s false]),
  (.mattens, [.scal .s, .obj .crs .s true, .obj (.viewTDense .ten) .s true, .scal .s, .obj (.viewTDense .mat) .s false]),
  (.mattens, [.obj .crs .s true, .obj (.viewTDense .ten) .s true, .obj (.viewTDense .ten) .s false]),
  (.mattens, [.scal .s, .obj .crs .s true, .obj (.viewTDense .ten) .s true, .scal .s, .obj (.viewTDense .ten) .s false])]

/-- the overloads of `tTensmul_0` that are declared -/
def hTensmul_0 : List (Fn × List Dispatch.Par) := [
  (.tensmul, [.obj .tdense .d true, .obj .tdense .d true, .obj .tdense .d false]),
  (.tensmul, [.scal .d, .obj .tdense .d true, .obj .tdense .d true, .scal .d, .obj .tdense .d false]),
  (.tensmul, [.obj .tdense .d true, .obj .tdense .d true, .obj (.viewTDense .vec) .d false]),
  (.tensmul, [.scal .d, .obj .tdense .d true, .obj .tdense .d true, .scal .d, .obj (.viewTDense .vec) .d false]),
  (.tensmul, [.obj .tdense .d true, .obj .tdense .d true, .obj (.viewTDense .mat) .d false]),
  (.tensmul, [.scal .d, .obj .tdense .d true, .obj .tdense .d true, .scal .d, .obj (.viewTDense .mat) .d false]),
  (.tensmul, [.obj .tdense .d true, .obj .tdense .d true, .obj (.viewTDense .ten) .d false]),
  (.tensmul, [.scal .d, .obj .tdense .d true, .obj .tdense .d true, .scal .d, .obj (.viewTDense .ten) .d false]),
  (.tensmul, [.obj .tdense .d true, .obj (.viewTDense .vec) .d true, .obj .tdense .d false]),
  (.tensmul, [.scal .d, .obj .tdense .d true, .obj (.viewTDense .vec) .d true, .scal .d, .obj .tdense .d false]),
  (.tensmul, [.obj .tdense .d true, .obj (.viewTDense .vec) .d true, .obj (.viewTDense .vec) .d false]),
  (.tensmul, [.scal .d, .obj .tdense .d true, .obj (.viewTDense .vec) .d true, .scal .d, .obj (.viewTDense .vec) .d false]),
  (.tensmul, [.obj .tdense .d true, .obj (.viewTDense .vec) .d true, .obj (.viewTDense .mat) .d false]),
  (.tensmul, [.scal .d, .obj .tdense .d true, .obj (.viewTDense .vec) .d true, .scal .d, .obj (.viewTDense .mat) .d false]),
  (.tensmul, [.obj .tdense .d true, .obj (.viewTDense .vec) .d true, .obj (.viewTDense .ten) .d false]),
  (.tensmul, [.scal .d, .obj .tdense .d true, .obj (.viewTDense .vec) .d true, .scal .d, .obj (.viewTDense .ten) .d false]),
  (.tensmul, [.obj .tdense .d true, .obj (.viewTDense .mat) .d true, .obj .tdense .d false]),
  (.tensmul, [.scal .d, .obj .tdense .d true, .obj (.viewTDense .mat) .d true, .scal .d, .obj .tdense .d false]),
  (.tensmul, [.obj .tdense .d true, .obj (.viewTDense .mat) .d true, .obj (.viewTDense .vec) .d false]),
  (.tensmul, [.scal .d, .obj .tdense .d true, .obj (.viewTDense .mat) .d true, .scal .d, .obj (.viewTDense .vec) .d false]),
  (.tensmul, [.obj .tdense .d true, .obj (.viewTDense .mat) .d true, .obj (.viewTDense .mat) .d false]),
  (.tensmul, [.scal .d, .obj .tdense .d true, .obj (.viewTDense .mat) .d true, .scal .d, .obj (.viewTDense .mat) .d false]),
  (.tensmul, [.obj .tdense .d true, .obj (.viewTDense .mat) .d true, .obj (.viewTDense .ten) .d false]),
  (.tensmul, [.scal .d, .obj .tdense .d true, .obj (.viewTDense .mat) .d true, .scal .d, .obj (.viewTDense .ten) .d false]),
  (.tensmul, [.obj .tdense .d true, .obj (.viewTDense .ten) .d true, .obj .tdense .d false]),
  (.tensmul, [.scal .d, .obj .tdense .d true, .obj (.viewTDense .ten) .d true, .scal .d, .obj .tdense .d false]),
  (.tensmul, [.obj .tdense .d true, .obj (.viewTDense .ten) .d true, .obj (.viewTDense .vec) .d false]),
  (.tensmul, [.scal .d, .obj .tdense .d true, .obj (.viewTDense .ten) .d true, .scal .d, .obj (.viewTDense .vec) .d false]),
  (.tensmul, [.obj .tdense .d true, .obj (.viewTDense .ten) .d true, .obj (.viewTDense .mat) .d false]),
  (.tensmul, [.scal .d, .obj .tdense .d true, .obj (.viewTDense .ten) .d true, .scal .d, .obj (.viewTDense .mat) .d false]),
  (.tensmul, [.obj .tdense .d true, .obj (.viewTDense .ten) .d true, .obj (.viewTDense .ten) .d false]),
  (.tensmul, [.scal .d, .obj .tdense .d true, .obj (.viewTDense .ten) .d true, .scal .d, .obj (.viewTDense .ten) .d false]),
  (.tensmul, [.obj (.viewTDense .vec) .d true, .obj .tdense .d true, .obj .tdense .d false]),
  (.tensmul, [.scal .d, .obj (.viewTDense .vec) .d true, .obj .tdense .d true, .scal .d, .obj .tdense .d false]),
  (.tensmul, [.obj (.viewTDense .vec) .d true, .obj .tdense .d true, .obj (.viewTDense .vec) .d false]),
  (.tensmul, [.scal .d, .obj (.viewTDense .vec) .d true, .obj .tdense .d true, .scal .d, .obj (.viewTDense .vec) .d false]),
  (.tensmul, [.obj (.viewTDense .vec) .d true, .obj .tdense .d true, .obj (.viewTDense .mat) .d false]),
  (.tensmul, [.scal .d, .obj (.viewTDense .vec) .d true, .obj .tdense .d true, .scal .d, .obj (.viewTDense .mat) .d false]),
  (.tensmul, [.obj (.viewTDense .vec) .d true, .obj .tdense .d true, .obj (.viewTDense .ten) .d false]),
  (.tensmul, [.scal .d, .obj (.viewTDense .vec) .d true, .obj .tdense .d true, .scal .d, .obj (.viewTDense .ten) .d false]),
  (.tensmul, [.obj (.viewTDense .vec) .d true, .obj (.viewTDense .vec) .d true, .obj .tdense .d false]),
  (.tensmul, [.scal .d, .obj (.viewTDense .vec) .d true, .obj (.viewTDense .vec) .d true, .scal .d, .obj .tdense .d false]),
  (.tensmul, [.obj (.viewTDense .vec) .d true, .obj (.viewTDense .vec) .d true, .obj (.viewTDense .vec) .d false]),
  (.tensmul, [.scal .d, .obj (.viewTDense .vec) .d true, .obj (.viewTDense .vec) .d true, .scal .d, .obj (.viewTDense .vec) .d false]),
  (.tensmul, [.obj (.viewTDense .vec) .d true, .obj (.viewTDense .vec) .d true, .obj (.viewTDense .mat) .d false]),
  (.tensmul, [.scal .d, .obj (.viewTDense .vec) .d true, .obj (.viewTDense .vec) .d true, .scal .d, .obj (.viewTDense .mat) .d false]),
  (.tensmul, [.obj (.viewTDense .vec) .d true, .obj (.viewTDense .vec) .d true, .obj (.viewTDense .ten) .d false]),
  (.tensmul, [.scal .d, .obj (.viewTDense .vec) .d true, .obj (.viewTDense .vec) .d true, .scal .d, .obj (.viewTDense .ten) .d false]),
  (.tensmul, [.obj (.viewTDense .vec) .d true, .obj (.viewTDense .mat) .d true, .obj .tdense .d false]),
  (.tensmul, [.scal .d, .obj (.viewTDense .vec) .d true, .obj (.viewTDense .mat) .d true, .scal .d, .obj .tdense .d false]),
  (.tensmul, [.obj (.viewTDense .vec) .d true, .obj (.viewTDense .mat) .d true, .obj (.viewTDense .vec) .d false]),
  (.tensmul, [.scal .d, .obj (.viewTDense .vec) .d true, .obj (.viewTDense .mat) .d true, .scal .d, .obj (.viewTDense .vec) .d false]),
  (.tensmul, [.obj (.viewTDense .vec) .d true, .obj (.viewTDense .mat) .d true, .obj (.viewTDense .mat) .d false]),
  (.tensmul, [.scal .d, .obj (.viewTDense .vec) .d true, .obj (.viewTDense .mat) .d true, .scal .d, .obj (.viewTDense .mat) .d false]),
  (.tensmul, [.obj (.viewTDense .vec) .d true, .obj (.viewTDense .mat) .d true, .obj (.viewTDense .ten) .d false]),
  (.tensmul, [.scal .d, .obj (.viewTDense .vec) .d true, .obj (.viewTDense .mat) .d true, .scal .d, .obj (.viewTDense .ten) .d false]),
  (.tensmul, [.obj (.viewTDense .vec) .d true, .obj (.viewTDense .ten) .d true, .obj .tdense .d false]),
  (.tensmul, [.scal .d, .obj (.viewTDense .vec) .d true, .obj (.viewTDense .ten) .d true, .scal .d, .obj .tdense .d false]),
  (.tensmul, [.obj (.viewTDense .vec) .d true, .obj (.viewTDense .ten) .d true, .obj (.viewTDense .vec) .d false]),
  (.tensmul, [.scal .d, .obj (.viewTDense .vec) .d true, .obj (.viewTDense .ten) .d true, .scal .d, .obj (.viewTDense .vec) .d false]),
  (.tensmul, [.obj (.viewTDense .vec) .d true, .obj (.viewTDense .ten) .d true, .obj (.viewTDense .mat) .d false]),
  (.tensmul, [.scal .d, .obj (.viewTDense .vec) .d true, .obj (.viewTDense .ten) .d true, .scal .d, .obj (.viewTDense .mat) .d false]),
  (.tensmul, [.obj (.viewTDense .vec) .d true, .obj (.viewTDense .ten) .d true, .obj (.viewTDense .ten) .d false]),
  (.tensmul, [.scal .d, .obj (.viewTDense .vec) .d true, .obj (.viewTDense .ten) .d true, .scal .d, .obj (.viewTDense .ten) .d false]),
  (.tensmul, [.obj (.viewTDense .mat) .d true, .obj .tdense .d true, .obj .tdense .d false]),
  (.tensmul, [.scal .d, .obj (.viewTDense .mat) .d true, .obj .tdense .d true, .scal .d, .obj .tdense .d false]),
  (.tensmul, [.obj (.viewTDense .mat) .d true, .obj .tdense .d true, .obj (.viewTDense .vec) .d false]),
  (.tensmul, [.scal .d, .obj (.viewTDense .mat) .d true, .obj .tdense .d true, .scal .d, .obj (.viewTDense .vec) .d false]),
  (.tensmul, [.obj (.viewTDense .mat) .d true, .obj .tdense .d true, .obj (.viewTDense .mat) .d false]),
  (.tensmul, [.scal .d, .obj (.viewTDense .mat) .d true, .obj .tdense .d true, .scal .d, .obj (.viewTDense .mat) .d false]),
  (.tensmul, [.obj (.viewTDense .mat) .d true, .obj .tdense .d true, .obj (.viewTDense .ten) .d false]),
  (.tensmul, [.scal .d, .obj (.viewTDense .mat) .d true, .obj .tdense .d true, .scal .d, .obj (.viewTDense .ten) .d false]),
  (.tensmul, [.obj (.viewTDense .mat) .d true, .obj (.viewTDense .vec) .d true, .obj .tdense .d false]),
  (.tensmul, [.scal .d, .obj (.viewTDense .mat) .d true, .obj (.viewTDense .vec) .d true, .scal .d, .obj .tdense .d false]),
  (.tensmul, [.obj (.viewTDense .mat) .d true, .obj (.viewTDense .vec) .d true, .obj (.viewTDense .vec) .d false]),
  (.tensmul, [.scal .d, .obj (.viewTDense .mat) .d true, .obj (.viewTDense .vec) .d true, .scal .d, .obj (.viewTDense .vec) .d false]),
  (.tensmul, [.obj (.viewTDense .mat) .d true, .obj (.viewTDense .vec) .d true, .obj (.viewTDense .mat) .d false]),
  (.tensmul, [.scal .d, .obj (.viewTDense .mat) .d true, .obj (.viewTDense .vec) .d true, .scal .d, .obj (.viewTDense .mat) .d false]),
  (.tensmul, [.obj (.viewTDense .mat) .d true, .obj (.viewTDense .vec) .d true, .obj (.viewTDense .ten) .d false]),
  (.tensmul, [.scal .d, .obj (.viewTDense .mat) .d true, .obj (.viewTDense .vec) .d true, .scal .d, .obj (.viewTDense .ten) .d false])]

/-- the overloads of `tTensmul_1` that are declared -/
def hTensmul_1 : List (Fn × List Dispatch.Par) := [
  (.tensmul, [.obj (.viewTDense .mat) .d true, .obj (.viewTDense .mat) .d true, .obj .tdense .d false]),
  (.tensmul, [.scal .d, .obj (.viewTDense .mat) .d true, .obj (.viewTDense .mat) .d true, .scal .d, .obj .tdense .d false]),
  (.tensmul, [.obj (.viewTDense .mat) .d true, .obj (.viewTDense .mat) .d true, .obj (.viewTDense .vec) .d false]),
  (.tensmul, [.scal .d, .obj (.viewTDense .mat) .d true, .obj (.viewTDense .mat) .d true, .scal .d, .obj (.viewTDense .vec) .d false]),
  (.tensmul, [.obj (.viewTDense .mat) .d true, .obj (.viewTDense .mat) .d true, .obj (.viewTDense .mat) .d false]),
  (.tensmul, [.scal .d, .obj (.viewTDense .mat) .d true, .obj (.viewTDense .mat) .d true, .scal .d, .obj (.viewTDense .mat) .d false]),
  (.tensmul, [.obj (.viewTDense .mat) .d true, .obj (.viewTDense .mat) .d true, .obj (.viewTDense .ten) .d false]),
  (.tensmul, [.scal .d, .obj (.viewTDense .mat) .d true, .obj (.viewTDense .mat) .d true, .scal .d, .obj (.viewTDense .ten) .d false]),
  (.tensmul, [.obj (.viewTDense .mat) .d true, .obj (.viewTDense .ten) .d true, .obj .tdense .d false]),
  (.tensmul, [.scal .d, .obj (.viewTDense .mat) .d true, .obj (.viewTDense .ten) .d true, .scal .d, .obj .tdense .d false]),
  (.tensmul, [.obj (.viewTDense .mat) .d true, .obj (.viewTDense .ten) .d true, .obj (.viewTDense .vec) .d false]),
  (.tensmul, [.scal .d, .obj (.viewTDense .mat) .d true, .obj (.viewTDense .ten) .d true, .scal .d, .obj (.viewTDense .vec) .d false]),
  (.tensmul, [.obj (.viewTDense .mat) .d true, .obj (.viewTDense .ten) .d true, .obj (.viewTDense .mat) .d false]),
  (.tensmul, [.scal .d, .obj (.viewTDense .mat) .d true, .obj (.viewTDense .ten) .d true, .scal .d, .obj (.viewTDense .mat) .d false]),
  (.tensmul, [.obj (.viewTDense .mat) .d true, .obj (.viewTDense .ten) .d true, .obj (.viewTDense .ten) .d false]),
  (.tensmul, [.scal .d, .obj (.viewTDense .mat) .d true, .obj (.viewTDense .ten) .d true, .scal .d, .obj (.viewTDense .ten) .d false]),
  (.tensmul, [.obj (.viewTDense .ten) .d true, .obj .tdense .d true, .obj .tdense .d false]),
  (.tensmul, [.scal .d, .obj (.viewTDense .ten) .d true, .obj .tdense .d true, .scal .d, .obj .tdense .d false]),
  (.tensmul, [.obj (.viewTDense .ten) .d true, .obj .tdense .d true, .obj (.viewTDense .vec) .d false]),
  (.tensmul, [.scal .d, .obj (.viewTDense .ten) .d true, .obj .tdense .d true, .scal .d, .obj (.viewTDense .vec) .d false]),
  (.tensmul, [.obj (.viewTDense .ten) .d true, .obj .tdense .d true, .obj (.viewTDense .mat) .d false]),
  (.tensmul, [.scal .d, .obj (.viewTDense .ten) .d true, .obj .tdense .d true, .scal .d, .obj (.viewTDense .mat) .d false]),
  (.tensmul, [.obj (.viewTDense .ten) .d true, .obj .tdense .d true, .obj (.viewTDense .ten) .d false]),
  (.tensmul, [.scal .d, .obj (.viewTDense .ten) .d true, .obj .tdense .d true, .scal .d, .obj (.viewTDense .ten) .d false]),
  (.tensmul, [.obj (.viewTDense .ten) .d true, .obj (.viewTDense .vec) .d true, .obj .tdense .d false]),
  (.tensmul, [.scal .d, .obj (.viewTDense .ten) .d true, .obj (.viewTDense .vec) .d true, .scal .d, .obj .tdense .d false]),
  (.tensmul, [.obj (.viewTDense .ten) .d true, .obj (.viewTDense .vec) .d true, .obj (.viewTDense .vec) .d false]),
  (.tensmul, [.scal .d, .obj (.viewTDense .ten) .d true, .obj (.viewTDense .vec) .d true, .scal .d, .obj (.viewTDense .vec) .d false]),
  (.tensmul, [.obj (.viewTDense .ten) .d true, .obj (.viewTDense .vec) .d true, .obj (.viewTDense .mat) .d false]),
  (.tensmul, [.scal .d, .obj (.viewTDense .ten) .d true, .obj (.viewTDense .vec) .d true, .scal .d, .obj (.viewTDense .mat) .d false]),
  (.tensmul, [.obj (.viewTDense .ten) .d true, .obj (.viewTDense .vec) .d true, .obj (.viewTDense .ten) .d false]),
  (.tensmul, [.scal .d, .obj (.viewTDense .ten) .d true, .obj (.viewTDense .vec) .d true, .scal .d, .obj (.viewTDense .ten) .d false]),
  (.tensmul, [.obj (.viewTDense .ten) .d true, .obj (.viewTDense .mat) .d true, .obj .tdense .d false]),
  (.tensmul, [.scal .d, .obj (.viewTDense .ten) .d true, .obj (.viewTDense .mat) .d true, .scal .d, .obj .tdense .d false]),
  (.tensmul, [.obj (.viewTDense .ten) .d true, .obj (.viewTDense .mat) .d true, .obj (.viewTDense .vec) .d false]),
  (.tensmul, [.scal .d, .obj (.viewTDense .ten) .d true, .obj (.viewTDense .mat) .d true, .scal .d, .obj (.viewTDense .vec) .d false]),
  (.tensmul, [.obj (.viewTDense .ten) .d true, .obj (.viewTDense .mat) .d true, .obj (.viewTDense .mat) .d false]),
  (.tensmul, [.scal .d, .obj (.viewTDense .ten) .d true, .obj (.viewTDense .mat) .d true, .scal .d, .obj (.viewTDense .mat) .d false]),
  (.tensmul, [.obj (.viewTDense .ten) .d true, .obj (.viewTDense .mat) .d true, .obj (.viewTDense .ten) .d false]),
  (.tensmul, [.scal .d, .obj (.viewTDense .ten) .d true, .obj (.viewTDense .mat) .d true, .scal .d, .obj (.viewTDense .ten) .d false]),
  (.tensmul, [.obj (.viewTDense .ten) .d true, .obj (.viewTDense .ten) .d true, .obj .tdense .d false]),
  (.tensmul, [.scal .d, .obj (.viewTDense .ten) .d true, .obj (.viewTDense .ten) .d true, .scal .d, .obj .tdense .d false]),
  (.tensmul, [.obj (.viewTDense .ten) .d true, .obj (.viewTDense .ten) .d true, .obj (.viewTDense .vec) .d false]),
  (.tensmul, [.scal .d, .obj (.viewTDense .ten) .d true, .obj (.viewTDense .ten) .d true, .scal .d, .obj (.viewTDense .vec) .d false]),
  (.tensmul, [.obj (.viewTDense .ten) .d true, .obj (.viewTDense .ten) .d true, .obj (.viewTDense .mat) .d false]),
  (.tensmul, [.scal .d, .obj (.viewTDense .ten) .d true, .obj (.viewTDense .ten) .d true, .scal .d, .obj (.viewTDense .mat) .d false]),
  (.tensmul, [.obj (.viewTDense .ten) .d true, .obj (.viewTDense .ten) .d true, .obj (.viewTDense .ten) .d false]),
  (.tensmul, [.scal .d, .obj (.viewTDense .ten) .d true, .obj (.viewTDense .ten) .d true, .scal .d, .obj (.viewTDense .ten) .d false]),
  (.tensmul, [.obj .tdense .s true, .obj .tdense .s true, .obj .tdense .s false]),
  (.tensmul, [.scal .s, .obj .tdense .s true, .obj .tdense .s true, .scal .s, .obj .tdense .s false]),
  (.tensmul, [.obj .tdense .s true, .obj .tdense .s true, .obj (.viewTDense .vec) .s false]),
  (.tensmul, [.scal .s, .obj .tdense .s true, .obj .tdense .s true, .scal .s, .obj (.viewTDense .vec) .s false]),
  (.tensmul, [.obj .tdense .s true, .obj .tdense .s true, .obj (.viewTDense .mat) .s false]),
  (.tensmul, [.scal .s, .obj .tdense .s true, .obj .tdense .s true, .scal .s, .obj (.viewTDense .mat) .s false]),
  (.tensmul, [.obj .tdense .s true, .obj .tdense .s true, .obj (.viewTDense .ten) .s false]),
  (.tensmul, [.scal .s, .obj .tdense .s true, .obj .tdense .s true, .scal .s, .obj (.viewTDense .ten) .s false]),
  (.tensmul, [.obj .tdense .s true, .obj (.viewTDense .vec) .s true, .obj .tdense .s false]),
  (.tensmul, [.scal .s, .obj .tdense .s true, .obj (.viewTDense .vec) .s true, .scal .s, .obj .tdense .s false]),
  (.tensmul, [.obj .tdense .s true, .obj (.viewTDense .vec) .s true, .obj (.viewTDense .vec) .s false]),
  (.tensmul, [.scal .s, .obj .tdense .s true, .obj (.viewTDense .vec) .s true, .scal .s, .obj (.viewTDense .vec) .s false]),
  (.tensmul, [.obj .tdense .s true, .obj (.viewTDense .vec) .s true, .obj (.viewTDense .mat) .s false]),
  (.tensmul, [.scal .s, .obj .tdense .s true, .obj (.viewTDense .vec) .s true, .scal .s, .obj (.viewTDense .mat) .s false]),
  (.tensmul, [.obj .tdense .s true, .obj (.viewTDense .vec) .s true, .obj (.viewTDense .ten) .s false]),
  (.tensmul, [.scal .s, .obj .tdense .s true, .obj (.viewTDense .vec) .s true, .scal .s, .obj (.viewTDense .ten) .s false]),
  (.tensmul, [.obj .tdense .s true, .obj (.viewTDense .mat) .s true, .obj .tdense .s false]),
  (.tensmul, [.scal .s, .obj .tdense .s true, .obj (.viewTDense .mat) .s true, .scal .s, .obj .tdense .s false]),
  (.tensmul, [.obj .tdense .s true, .obj (.viewTDense .mat) .s true, .obj (.viewTDense .vec) .s false]),
  (.tensmul, [.scal .s, .obj .tdense .s true, .obj (.viewTDense .mat) .s true, .scal .s, .obj (.viewTDense .vec) .s false]),
  (.tensmul, [.obj .tdense .s true, .obj (.viewTDense .mat) .s true, .obj (.viewTDense .mat) .s false]),
  (.tensmul, [.scal .s, .obj .tdense .s true, .obj (.viewTDense .mat) .s true, .scal .s, .obj (.viewTDense .mat) .s false]),
  (.tensmul, [.obj .tdense .s true, .obj (.viewTDense .mat) .s true, .obj (.viewTDense .ten) .s false]),
  (.tensmul, [.scal .s, .obj .tdense .s true, .obj (.viewTDense .mat) .s true, .scal .s, .obj (.viewTDense .ten) .s false]),
  (.tensmul, [.obj .tdense .s true, .obj (.viewTDense .ten) .s true, .obj .tdense .s false]),
  (.tensmul, [.scal .s, .obj .tdense .s true, .obj (.viewTDense .ten) .s true, .scal .s, .obj .tdense .s false]),
  (.tensmul, [.obj .tdense .s true, .obj (.viewTDense .ten) .s true, .obj (.viewTDense .vec) .s false]),
  (.tensmul, [.scal .s, .obj .tdense .s true, .obj (.viewTDense .ten) .s true, .scal .s, .obj (.viewTDense .vec) .s false]),
  (.tensmul, [.obj .tdense .s true, .obj (.viewTDense .ten) .s true, .obj (.viewTDense .mat) .s false]),
  (.tensmul, [.scal .s, .obj .tdense .s true, .obj (.viewTDense .ten) .s true, .scal .s, .obj (.viewTDense .mat) .s false]),
  (.tensmul, [.obj .tdense .s true, .obj (.viewTDense .ten) .s true, .obj (.viewTDense .ten) .s false]),
  (.tensmul, [.scal .s, .obj .tdense .s true, .obj (.viewTDense .ten) .s true, .scal .s, .obj (.viewTDense .ten) .s false])]

/-- the overloads of `tTensmul_2` that are declared -/
def hTensmul_2 : List (Fn × List Dispatch.Par) := [
  (.tensmul, [.obj (.viewTDense .vec) .s true, .obj .tdense .s true, .obj .tdense .s false]),
  (.tensmul, [.scal .s, .obj (.viewTDense .vec) .s true, .obj .tdense .s true, .scal .s, .obj .tdense .s false]),
  (.tensmul, [.obj (.viewTDense .vec) .s true, .obj .tdense .s true, .obj (.viewTDense .vec) .s false]),
  (.tensmul, [.scal .s, .obj (.viewTDense .vec) .s true, .obj .tdense .s true, .scal .s, .obj (.viewTDense .vec) .s false]),
  (.tensmul, [.obj (.viewTDense .vec) .s true, .obj .tdense .s true, .obj (.viewTDense .mat) .s false]),
  (.tensmul, [.scal .s, .obj (.viewTDense .vec) .s true, .obj .tdense .s true, .scal .s, .obj (.viewTDense .mat) .s false]),
  (.tensmul, [.obj (.viewTDense .vec) .s true, .obj .tdense .s true, .obj (.viewTDense .ten) .s false]),
  (.tensmul, [.scal .s, .obj (.viewTDense .vec) .s true, .obj .tdense .s true, .scal .s, .obj (.viewTDense .ten) .s false]),
  (.tensmul, [.obj (.viewTDense .vec) .s true, .obj (.viewTDense .vec) .s true, .obj .tdense .s false]),
  (.tensmul, [.scal .s, .obj (.viewTDense .vec) .s true, .obj (.viewTDense .vec) .s true, .scal .s, .obj .tdense .s false]),
  (.tensmul, [.obj (.viewTDense .vec) .s true, .obj (.viewTDense .vec) .s true, .obj (.viewTDense .vec) .s false]),
  (.tensmul, [.scal .s, .obj (.viewTDense .vec) .s true, .obj (.viewTDense .vec) .s true, .scal .s, .obj (.viewTDense .vec) .s false]),
  (.tensmul, [.obj (.viewTDense .vec) .s true, .obj (.viewTDense .vec) .s true, .obj (.viewTDense .mat) .s false]),
  (.tensmul, [.scal .s, .obj (.viewTDense .vec) .s true, .obj (.viewTDense .vec) .s true, .scal .s, .obj (.viewTDense .mat) .s false]),
  (.tensmul, [.obj (.viewTDense .vec) .s true, .obj (.viewTDense .vec) .s true, .obj (.viewTDense .ten) .s false]),
  (.tensmul, [.scal .s, .obj (.viewTDense .vec) .s true, .obj (.viewTDense .vec) .s true, .scal .s, .obj (.viewTDense .ten) .s false]),
  (.tensmul, [.obj (.viewTDense .vec) .s true, .obj (.viewTDense .mat) .s true, .obj .tdense .s false]),
  (.tensmul, [.scal .s, .obj (.viewTDense .vec) .s true, .obj (.viewTDense .mat) .s true, .scal .s, .obj .tdense .s false]),
  (.tensmul, [.obj (.viewTDense .vec) .s true, .obj (.viewTDense .mat) .s true, .obj (.viewTDense .vec) .s false]),
  (.tensmul, [.scal .s, .obj (.viewTDense .vec) .s true, .obj (.viewTDense .mat) .s true, .scal .s, .obj (.viewTDense .vec) .s false]),
  (.tensmul, [.obj (.viewTDense .vec) .s true, .obj (.viewTDense .mat) .s true, .obj (.viewTDense .mat) .s false]),
  (.tensmul, [.scal .s, .obj (.viewTDense .vec) .s true, .obj (.viewTDense .mat) .s true, .scal .s, .obj (.viewTDense .mat) .s false]),
  (.tensmul, [.obj (.viewTDense .vec) .s true, .obj (.viewTDense .mat) .s true, .obj (.viewTDense .ten) .s false]),
  (.tensmul, [.scal .s, .obj (.viewTDense .vec) .s true, .obj (.viewTDense .mat) .s true, .scal .s, .obj (.viewTDense .ten) .s false]),
  (.tensmul, [.obj (.viewTDense .vec) .s true, .obj (.viewTDense .ten) .s true, .obj .tdense .s false]),
  (.tensmul, [.scal .s, .obj (.viewTDense .vec) .s true, .obj (.viewTDense .ten) .s true, .scal .s, .obj .tdense .s false]),
  (.tensmul, [.obj (.viewTDense .vec) .s true, .obj (.viewTDense .ten) .s true, .obj (.viewTDense .vec) .s false]),
  (.tensmul, [.scal .s, .obj (.viewTDense .vec) .s true, .obj (.viewTDense .ten) .s true, .scal .s, .obj (.viewTDense .vec) .s false]),
  (.tensmul, [.obj (.viewTDense .vec) .s true, .obj (.viewTDense .ten) .s true, .obj (.viewTDense .mat) .s false]),
  (.tensmul, [.scal .s, .obj (.viewTDense .vec) .s true, .obj (.viewTDense .ten) .s true, .scal .s, .obj (.viewTDense .mat) .s false]),
  (.tensmul, [.obj (.viewTDense .vec) .s true, .obj (.viewTDense .ten) .s true, .obj (.viewTDense .ten) .s false]),
  (.tensmul, [.scal .s, .obj (.viewTDense .vec) .s true, .obj (.viewTDense .ten) .s true, .scal .s, .obj (.viewTDense .ten) .s false]),
  (.tensmul, [.obj (.viewTDense .mat) .s true, .obj .tdense .s true, .obj .tdense .s false]),
  (.tensmul, [.scal .s, .obj (.viewTDense .mat) .s true, .obj .tdense .s true, .scal .s, .obj .tdense .s false]),
  (.tensmul, [.obj (.viewTDense .mat) .s true, .obj .tdense .s true, .obj (.viewTDense .vec) .s false]),
  (.tensmul, [.scal .s, .obj (.viewTDense .mat) .s true, .obj .tdense .s true, .scal .s, .obj (.viewTDense .vec) .s false]),
  (.tensmul, [.obj (.viewTDense .mat) .s true, .obj .tdense .s true, .obj (.viewTDense .mat) .s false]),
  (.tensmul, [.scal .s, .obj (.viewTDense .mat) .s true, .obj .tdense .s true, .scal .s, .obj (.viewTDense .mat) .s false]),
  (.tensmul, [.obj (.viewTDense .mat) .s true, .obj .tdense .s true, .obj (.viewTDense .ten) .s false]),
  (.tensmul, [.scal .s, .obj (.viewTDense .mat) .s true, .obj .tdense .s true, .scal .s, .obj (.viewTDense .ten) .s false]),
  (.tensmul, [.obj (.viewTDense .mat) .s true, .obj (.viewTDense .vec) .s true, .obj .tdense .s false]),
  (.tensmul, [.scal .s, .obj (.viewTDense .mat) .s true, .obj (.viewTDense .vec) .s true, .scal .s, .obj .tdense .s false]),
  (.tensmul, [.obj (.viewTDense .mat) .s true, .obj (.viewTDense .vec) .s true, .obj (.viewTDense .vec) .s false]),
  (.tensmul, [.scal .s, .obj (.viewTDense .mat) .s true, .obj (.viewTDense .vec) .s true, .scal .s, .obj (.viewTDense .vec) .s false]),
  (.tensmul, [.obj (.viewTDense .mat) .s true, .obj (.viewTDense .vec) .s true, .obj (.viewTDense .mat) .s false]),
  (.tensmul, [.scal .s, .obj (.viewTDense .mat) .s true, .obj (.viewTDense .vec) .s true, .scal .s, .obj (.viewTDense .mat) .s false]),
  (.tensmul, [.obj (.viewTDense .mat) .s true, .obj (.viewTDense .vec) .s true, .obj (.viewTDense .ten) .s false]),
  (.tensmul, [.scal .s, .obj (.viewTDense .mat) .s true, .obj (.viewTDense .vec) .s true, .scal .s, .obj (.viewTDense .ten) .s false]),
  (.tensmul, [.obj (.viewTDense .mat) .s true, .obj (.viewTDense .mat) .s true, .obj .tdense .s false]),
  (.tensmul, [.scal .s, .obj (.viewTDense .mat) .s true, .obj (.viewTDense .mat) .s true, .scal .s, .obj .tdense .s false]),
  (.tensmul, [.obj (.viewTDense .mat) .s true, .obj (.viewTDense .mat) .s true, .obj (.viewTDense .vec) .s false]),
  (.tensmul, [.scal .s, .obj (.viewTDense .mat) .s true, .obj (.viewTDense .mat) .s true, .scal .s, .obj (.viewTDense .vec) .s false]),
  (.tensmul, [.obj (.viewTDense .mat) .s true, .obj (.viewTDense .mat) .s true, .obj (.viewTDense .mat) .s false]),
  (.tensmul, [.scal .s, .obj (.viewTDense .mat) .s true, .obj (.viewTDense .mat) .s true, .scal .s, .obj (.viewTDense .mat) .s false]),
  (.tensmul, [.obj (.viewTDense .mat) .s true, .obj (.viewTDense .mat) .s true, .obj (.viewTDense .ten) .s false]),
  (.tensmul, [.scal .s, .obj (.viewTDense .mat) .s true, .obj (.viewTDense .mat) .s true, .scal .s, .obj (.viewTDense .ten) .s false]),
  (.tensmul, [.obj (.viewTDense .mat) .s true, .obj (.viewTDense .ten) .s true, .obj .tdense .s false]),
  (.tensmul, [.scal .s, .obj (.viewTDense .mat) .s true, .obj (.viewTDense .ten) .s true, .scal .s, .obj .tdense .s false]),
  (.tensmul, [.obj (.viewTDense .mat) .s true, .obj (.viewTDense .ten) .s true, .obj (.viewTDense .vec) .s false]),
  (.tensmul, [.scal .s, .obj (.viewTDense .mat) .s true, .obj (.viewTDense .ten) .s true, .scal .s, .obj (.viewTDense .vec) .s false]),
  (.tensmul, [.obj (.viewTDense .mat) .s true, .obj (.viewTDense .ten) .s true, .obj (.viewTDense .mat) .s false]),
  (.tensmul, [.scal .s, .obj (.viewTDense .mat) .s true, .obj (.viewTDense .ten) .s true, .scal .s, .obj (.viewTDense .mat) .s false]),
  (.tensmul, [.obj (.viewTDense .mat) .s true, .obj (.viewTDense .ten) .s true, .obj (.viewTDense .ten) .s false]),
  (.tensmul, [.scal .s, .obj (.viewTDense .mat) .s true, .obj (.viewTDense .ten) .s true, .scal .s, .obj (.viewTDense .ten) .s false]),
  (.tensmul, [.obj (.viewTDense .ten) .s true, .obj .tdense .s true, .obj .tdense .s false]),
  (.tensmul, [.scal .s, .obj (.viewTDense .ten) .s true, .obj .tdense .s true, .scal .s, .obj .tdense .s false]),
  (.tensmul, [.obj (.viewTDense .ten) .s true, .obj .tdense .s true, .obj (.viewTDense .vec) .s false]),
  (.tensmul, [.scal .s, .obj (.viewTDense .ten) .s true, .obj .tdense .s true, .scal .s, .obj (.viewTDense .vec) .s false]),
  (.tensmul, [.obj (.viewTDense .ten) .s true, .obj .tdense .s true, .obj (.viewTDense .mat) .s false]),
  (.tensmul, [.scal .s, .obj (.viewTDense .ten) .s true, .obj .tdense .s true, .scal .s, .obj (.viewTDense .mat) .s false]),
  (.tensmul, [.obj (.viewTDense .ten) .s true, .obj .tdense .s true, .obj (.viewTDense .ten) .s false]),
  (.tensmul, [.scal .s, .obj (.viewTDense .ten) .s true, .obj .tdense .s true, .scal .s, .obj (.viewTDense .ten) .s false]),
  (.tensmul, [.obj (.viewTDense .ten) .s true, .obj (.viewTDense .vec) .s true, .obj .tdense .s false]),
  (.tensmul, [.scal .s, .obj (.viewTDense .ten) .s true, .obj (.viewTDense .vec) .s true, .scal .s, .obj .tdense .s false]),
  (.tensmul, [.obj (.viewTDense .ten) .s true, .obj (.viewTDense .vec) .s true, .obj (.viewTDense .vec) .s false]),
  (.tensmul, [.scal .s, .obj (.viewTDense .ten) .s true, .obj (.viewTDense .vec) .s true, .scal .s, .obj (.viewTDense .vec) .s false]),
  (.tensmul, [.obj (.viewTDense .ten) .s true, .obj (.viewTDense .vec) .s true, .obj (.viewTDense .mat) .s false]),
  (.tensmul, [.scal .s, .obj (.viewTDense .ten) .s true, .obj (.viewTDense .vec) .s true, .scal .s, .obj (.viewTDense .mat) .s false]),
  (.tensmul, [.obj (.viewTDense .ten) .s true, .obj (.viewTDense .vec) .s true, .obj (.viewTDense .ten) .s false]),
  (.tensmul, [.scal .s, .obj (.viewTDense .ten) .s true, .obj (.viewTDense .vec) .s true, .scal .s, .obj (.viewTDense .ten) .s false])]

/-- the overloads of `tTensmul_3` that are declared -/
def hTensmul_3 : List (Fn × List Dispatch.Par) := [
  (.tensmul, [.obj (.viewTDense .ten) .s true, .obj (.viewTDense .mat) .s true, .obj .tdense .s false]),
  (.tensmul, [.scal .s, .obj (.viewTDense .ten) .s true, .obj (.viewTDense .mat) .s true, .scal .s, .obj .tdense .s false]),
  (.tensmul, [.obj (.viewTDense .ten) .s true, .obj (.viewTDense .mat) .s true, .obj (.viewTDense .vec) .s false]),
  (.tensmul, [.scal .s, .obj (.viewTDense .ten) .s true, .obj (.viewTDense .mat) .s true, .scal .s, .obj (.viewTDense .vec) .s false]),
  (.tensmul, [.obj (.viewTDense .ten) .s true, .obj (.viewTDense .mat) .s true, .obj (.viewTDense .mat) .s false]),
  (.tensmul, [.scal .s, .obj (.viewTDense .ten) .s true, .obj (.viewTDense .mat) .s true, .scal .s, .obj (.viewTDense .mat) .s false]),
  (.tensmul, [.obj (.viewTDense .ten) .s true, .obj (.viewTDense .mat) .s true, .obj (.viewTDense .ten) .s false]),
  (.tensmul, [.scal .s, .obj (.viewTDense .ten) .s true, .obj (.viewTDense .mat) .s true, .scal .s, .obj (.viewTDense .ten) .s false]),
  (.tensmul, [.obj (.viewTDense .ten) .s true, .obj (.viewTDense .ten) .s true, .obj .tdense .s false]),
  (.tensmul, [.scal .s, .obj (.viewTDense .ten) .s true, .obj (.viewTDense .ten) .s true, .scal .s, .obj .tdense .s false]),
  (.tensmul, [.obj (.viewTDense .ten) .s true, .obj (.viewTDense .ten) .s true, .obj (.viewTDense .vec) .s false]),
  (.tensmul, [.scal .s, .obj (.viewTDense .ten) .s true, .obj (.viewTDense .ten) .s true, .scal .s, .obj (.viewTDense .vec) .s false]),
  (.tensmul, [.obj (.viewTDense .ten) .s true, .obj (.viewTDense .ten) .s true, .obj (.viewTDense .mat) .s false]),
  (.tensmul, [.scal .s, .obj (.viewTDense .ten) .s true, .obj (.viewTDense .ten) .s true, .scal .s, .obj (.viewTDense .mat) .s false]),
  (.tensmul, [.obj (.viewTDense .ten) .s true, .obj (.viewTDense .ten) .s true, .obj (.viewTDense .ten) .s false]),
  (.tensmul, [.scal .s, .obj (.viewTDense .ten) .s true, .obj (.viewTDense .ten) .s true, .scal .s, .obj (.viewTDense .ten) .s false]),
  (.tensmul, [.obj .tcrs .d true, .obj .tdense .d true, .obj .tdense .d false]),
  (.tensmul, [.scal .d, .obj .tcrs .d true, .obj .tdense .d true, .scal .d, .obj .tdense .d false]),
  (.tensmul, [.obj .tcrs .s true, .obj .tdense .s true, .obj .tdense .s false]),
  (.tensmul, [.scal .s, .obj .tcrs .s true, .obj .tdense .s true, .scal .s, .obj .tdense .s false])]

/-- declared without a definition -/
def hExtra : List (Fn × List Dispatch.Par) := []

/-- all declarations (1704), table by table -/
def declared : List (List (Fn × List Dispatch.Par)) :=
  [hMatvec_0, hMatvec_1, hMatvec_2, hMatvec_3, hMatvec_4, hMatvec_5, hMatvec_6, hMatvec_7, hMatvec_8, hMatvec_9, hMatvec_10, hMatvec_11, hMatmul_0, hMatmul_1, hMatmul_2, hMatmul_3, hTensvec_0, hTensvec_1, hTensvec_2, hTensvec_3, hTensmat_0, hTensmat_1, hTensmat_2, hTensmat_3, hMattens_0, hMattens_1, hMattens_2, hMattens_3, hTensmul_0, hTensmul_1, hTensmul_2, hTensmul_3, hExtra]

end Verif.Product
