import Verif.Model.LineOpSrc

/-!
Generated by tools/header_gen.py from /repo/include/monolish/{blas,vml}/*.hpp: declared row and column operations. Do not edit.
-/

namespace Verif.LineOp

/-- the overloads of `tMatTimes_0` that are declared -/
def hMatTimes_0 : List (Fn × List Par) := [
  (.times_row, [.obj .dense .d true, .obj .vector .d true, .obj .dense .d false]),
  (.times_row, [.obj .dense .d true, .obj .vector .d true, .obj (.viewDense .vec) .d false]),
  (.times_row, [.obj .dense .d true, .obj .vector .d true, .obj (.viewDense .mat) .d false]),
  (.times_row, [.obj .dense .d true, .obj .vector .d true, .obj (.viewDense .ten) .d false]),
  (.times_row, [.obj .dense .d true, .obj (.view1D .vec) .d true, .obj .dense .d false]),
  (.times_row, [.obj .dense .d true, .obj (.view1D .vec) .d true, .obj (.viewDense .vec) .d false]),
  (.times_row, [.obj .dense .d true, .obj (.view1D .vec) .d true, .obj (.viewDense .mat) .d false]),
  (.times_row, [.obj .dense .d true, .obj (.view1D .vec) .d true, .obj (.viewDense .ten) .d false]),
  (.times_row, [.obj .dense .d true, .obj (.view1D .mat) .d true, .obj .dense .d false]),
  (.times_row, [.obj .dense .d true, .obj (.view1D .mat) .d true, .obj (.viewDense .vec) .d false]),
  (.times_row, [.obj .dense .d true, .obj (.view1D .mat) .d true, .obj (.viewDense .mat) .d false]),
  (.times_row, [.obj .dense .d true, .obj (.view1D .mat) .d true, .obj (.viewDense .ten) .d false]),
  (.times_row, [.obj .dense .d true, .obj (.view1D .ten) .d true, .obj .dense .d false]),
  (.times_row, [.obj .dense .d true, .obj (.view1D .ten) .d true, .obj (.viewDense .vec) .d false]),
  (.times_row, [.obj .dense .d true, .obj (.view1D .ten) .d true, .obj (.viewDense .mat) .d false]),
  (.times_row, [.obj .dense .d true, .obj (.view1D .ten) .d true, .obj (.viewDense .ten) .d false]),
  (.times_row, [.obj (.viewDense .vec) .d true, .obj .vector .d true, .obj .dense .d false]),
  (.times_row, [.obj (.viewDense .vec) .d true, .obj .vector .d true, .obj (.viewDense .vec) .d false]),
  (.times_row, [.obj (.viewDense .vec) .d true, .obj .vector .d true, .obj (.viewDense .mat) .d false]),
  (.times_row, [.obj (.viewDense .vec) .d true, .obj .vector .d true, .obj (.viewDense .ten) .d false]),
  (.times_row, [.obj (.viewDense .vec) .d true, .obj (.view1D .vec) .d true, .obj .dense .d false]),
  (.times_row, [.obj (.viewDense .vec) .d true, .obj (.view1D .vec) .d true, .obj (.viewDense .vec) .d false]),
  (.times_row, [.obj (.viewDense .vec) .d true, .obj (.view1D .vec) .d true, .obj (.viewDense .mat) .d false]),
  (.times_row, [.obj (.viewDense .vec) .d true, .obj (.view1D .vec) .d true, .obj (.viewDense .ten) .d false]),
  (.times_row, [.obj (.viewDense .vec) .d true, .obj (.view1D .mat) .d true, .obj .dense .d false]),
  (.times_row, [.obj (.viewDense .vec) .d true, .obj (.view1D .mat) .d true, .obj (.viewDense .vec) .d false]),
  (.times_row, [.obj (.viewDense .vec) .d true, .obj (.view1D .mat) .d true, .obj (.viewDense .mat) .d false]),
  (.times_row, [.obj (.viewDense .vec) .d true, .obj (.view1D .mat) .d true, .obj (.viewDense .ten) .d false]),
  (.times_row, [.obj (.viewDense .vec) .d true, .obj (.view1D .ten) .d true, .obj .dense .d false]),
  (.times_row, [.obj (.viewDense .vec) .d true, .obj (.view1D .ten) .d true, .obj (.viewDense .vec) .d false]),
  (.times_row, [.obj (.viewDense .vec) .d true, .obj (.view1D .ten) .d true, .obj (.viewDense .mat) .d false]),
  (.times_row, [.obj (.viewDense .vec) .d true, .obj (.view1D .ten) .d true, .obj (.viewDense .ten) .d false]),
  (.times_row, [.obj (.viewDense .mat) .d true, .obj .vector .d true, .obj .dense .d false]),
  (.times_row, [.obj (.viewDense .mat) .d true, .obj .vector .d true, .obj (.viewDense .vec) .d false]),
  (.times_row, [.obj (.viewDense .mat) .d true, .obj .vector .d true, .obj (.viewDense .mat) .d false]),
  (.times_row, [.obj (.viewDense .mat) .d true, .obj .vector .d true, .obj (.viewDense .ten) .d false]),
  (.times_row, [.obj (.viewDense .mat) .d true, .obj (.view1D .vec) .d true, .obj .dense .d false]),
  (.times_row, [.obj (.viewDense .mat) .d true, .obj (.view1D .vec) .d true, .obj (.viewDense .vec) .d false]),
  (.times_row, [.obj (.viewDense .mat) .d true, .obj (.view1D .vec) .d true, .obj (.viewDense .mat) .d false]),
  (.times_row, [.obj (.viewDense .mat) .d true, .obj (.view1D .vec) .d true, .obj (.viewDense .ten) .d false]),
  (.times_row, [.obj (.viewDense .mat) .d true, .obj (.view1D .mat) .d true, .obj .dense .d false]),
  (.times_row, [.obj (.viewDense .mat) .d true, .obj (.view1D .mat) .d true, .obj (.viewDense .vec) .d false]),
  (.times_row, [.obj (.viewDense .mat) .d true, .obj (.view1D .mat) .d true, .obj (.viewDense .mat) .d false]),
  (.times_row, [.obj (.viewDense .mat) .d true, .obj (.view1D .mat) .d true, .obj (.viewDense .ten) .d false]),
  (.times_row, [.obj (.viewDense .mat) .d true, .obj (.view1D .ten) .d true, .obj .dense .d false]),
  (.times_row, [.obj (.viewDense .mat) .d true, .obj (.view1D .ten) .d true, .obj (.viewDense .vec) .d false]),
  (.times_row, [.obj (.viewDense .mat) .d true, .obj (.view1D .ten) .d true, .obj (.viewDense .mat) .d false]),
  (.times_row, [.obj (.viewDense .mat) .d true, .obj (.view1D .ten) .d true, .obj (.viewDense .ten) .d false]),
  (.times_row, [.obj (.viewDense .ten) .d true, .obj .vector .d true, .obj .dense .d false]),
  (.times_row, [.obj (.viewDense .ten) .d true, .obj .vector .d true, .obj (.viewDense .vec) .d false]),
  (.times_row, [.obj (.viewDense .ten) .d true, .obj .vector .d true, .obj (.viewDense .mat) .d false]),
  (.times_row, [.obj (.viewDense .ten) .d true, .obj .vector .d true, .obj (.viewDense .ten) .d false]),
  (.times_row, [.obj (.viewDense .ten) .d true, .obj (.view1D .vec) .d true, .obj .dense .d false]),
  (.times_row, [.obj (.viewDense .ten) .d true, .obj (.view1D .vec) .d true, .obj (.viewDense .vec) .d false]),
  (.times_row, [.obj (.viewDense .ten) .d true, .obj (.view1D .vec) .d true, .obj (.viewDense .mat) .d false]),
  (.times_row, [.obj (.viewDense .ten) .d true, .obj (.view1D .vec) .d true, .obj (.viewDense .ten) .d false]),
  (.times_row, [.obj (.viewDense .ten) .d true, .obj (.view1D .mat) .d true, .obj .dense .d false]),
  (.times_row, [.obj (.viewDense .ten) .d true, .obj (.view1D .mat) .d true, .obj (.viewDense .vec) .d false]),
  (.times_row, [.obj (.viewDense .ten) .d true, .obj (.view1D .mat) .d true, .obj (.viewDense .mat) .d false]),
  (.times_row, [.obj (.viewDense .ten) .d true, .obj (.view1D .mat) .d true, .obj (.viewDense .ten) .d false]),
  (.times_row, [.obj (.viewDense .ten) .d true, .obj (.view1D .ten) .d true, .obj .dense .d false]),
  (.times_row, [.obj (.viewDense .ten) .d true, .obj (.view1D .ten) .d true, .obj (.viewDense .vec) .d false]),
  (.times_row, [.obj (.viewDense .ten) .d true, .obj (.view1D .ten) .d true, .obj (.viewDense .mat) .d false]),
  (.times_row, [.obj (.viewDense .ten) .d true, .obj (.view1D .ten) .d true, .obj (.viewDense .ten) .d false]),
  (.times_row, [.obj .crs .d true, .obj .vector .d true, .obj .crs .d false]),
  (.times_row, [.obj .crs .d true, .obj (.view1D .vec) .d true, .obj .crs .d false]),
  (.times_row, [.obj .dense .s true, .obj .vector .s true, .obj .dense .s false]),
  (.times_row, [.obj .dense .s true, .obj .vector .s true, .obj (.viewDense .vec) .s false]),
  (.times_row, [.obj .dense .s true, .obj .vector .s true, .obj (.viewDense .mat) .s false]),
  (.times_row, [.obj .dense .s true, .obj .vector .s true, .obj (.viewDense .ten) .s false]),
  (.times_row, [.obj .dense .s true, .obj (.view1D .vec) .s true, .obj .dense .s false]),
  (.times_row, [.obj .dense .s true, .obj (.view1D .vec) .s true, .obj (.viewDense .vec) .s false]),
  (.times_row, [.obj .dense .s true, .obj (.view1D .vec) .s true, .obj (.viewDense .mat) .s false]),
  (.times_row, [.obj .dense .s true, .obj (.view1D .vec) .s true, .obj (.viewDense .ten) .s false]),
  (.times_row, [.obj .dense .s true, .obj (.view1D .mat) .s true, .obj .dense .s false]),
  (.times_row, [.obj .dense .s true, .obj (.view1D .mat) .s true, .obj (.viewDense .vec) .s false]),
  (.times_row, [.obj .dense .s true, .obj (.view1D .mat) .s true, .obj (.viewDense .mat) .s false]),
  (.times_row, [.obj .dense .s true, .obj (.view1D .mat) .s true, .obj (.viewDense .ten) .s false])]

/-- the overloads of `tMatTimes_1` that are declared -/
def hMatTimes_1 : List (Fn × List Par) := [
  (.times_row, [.obj .dense .s true, .obj (.view1D .ten) .s true, .obj .dense .s false]),
  (.times_row, [.obj .dense .s true, .obj (.view1D .ten) .s true, .obj (.viewDense .vec) .s false]),
  (.times_row, [.obj .dense .s true, .obj (.view1D .ten) .s true, .obj (.viewDense .mat) .s false]),
  (.times_row, [.obj .dense .s true, .obj (.view1D .ten) .s true, .obj (.viewDense .ten) .s false]),
  (.times_row, [.obj (.viewDense .vec) .s true, .obj .vector .s true, .obj .dense .s false]),
  (.times_row, [.obj (.viewDense .vec) .s true, .obj .vector .s true, .obj (.viewDense .vec) .s false]),
  (.times_row, [.obj (.viewDense .vec) .s true, .obj .vector .s true, .obj (.viewDense .mat) .s false]),
  (.times_row, [.obj (.viewDense .vec) .s true, .obj .vector .s true, .obj (.viewDense .ten) .s false]),
  (.times_row, [.obj (.viewDense .vec) .s true, .obj (.view1D .vec) .s true, .obj .dense .s false]),
  (.times_row, [.obj (.viewDense .vec) .s true, .obj (.view1D .vec) .s true, .obj (.viewDense .vec) .s false]),
  (.times_row, [.obj (.viewDense .vec) .s true, .obj (.view1D .vec) .s true, .obj (.viewDense .mat) .s false]),
  (.times_row, [.obj (.viewDense .vec) .s true, .obj (.view1D .vec) .s true, .obj (.viewDense .ten) .s false]),
  (.times_row, [.obj (.viewDense .vec) .s true, .obj (.view1D .mat) .s true, .obj .dense .s false]),
  (.times_row, [.obj (.viewDense .vec) .s true, .obj (.view1D .mat) .s true, .obj (.viewDense .vec) .s false]),
  (.times_row, [.obj (.viewDense .vec) .s true, .obj (.view1D .mat) .s true, .obj (.viewDense .mat) .s false]),
  (.times_row, [.obj (.viewDense .vec) .s true, .obj (.view1D .mat) .s true, .obj (.viewDense .ten) .s false]),
  (.times_row, [.obj (.viewDense .vec) .s true, .obj (.view1D .ten) .s true, .obj .dense .s false]),
  (.times_row, [.obj (.viewDense .vec) .s true, .obj (.view1D .ten) .s true, .obj (.viewDense .vec) .s false]),
  (.times_row, [.obj (.viewDense .vec) .s true, .obj (.view1D .ten) .s true, .obj (.viewDense .mat) .s false]),
  (.times_row, [.obj (.viewDense .vec) .s true, .obj (.view1D .ten) .s true, .obj (.viewDense .ten) .s false]),
  (.times_row, [.obj (.viewDense .mat) .s true, .obj .vector .s true, .obj .dense .s false]),
  (.times_row, [.obj (.viewDense .mat) .s true, .obj .vector .s true, .obj (.viewDense .vec) .s false]),
  (.times_row, [.obj (.viewDense .mat) .s true, .obj .vector .s true, .obj (.viewDense .mat) .s false]),
  (.times_row, [.obj (.viewDense .mat) .s true, .obj .vector .s true, .obj (.viewDense .ten) .s false]),
  (.times_row, [.obj (.viewDense .mat) .s true, .obj (.view1D .vec) .s true, .obj .dense .s false]),
  (.times_row, [.obj (.viewDense .mat) .s true, .obj (.view1D .vec) .s true, .obj (.viewDense .vec) .s false]),
  (.times_row, [.obj (.viewDense .mat) .s true, .obj (.view1D .vec) .s true, .obj (.viewDense .mat) .s false]),
  (.times_row, [.obj (.viewDense .mat) .s true, .obj (.view1D .vec) .s true, .obj (.viewDense .ten) .s false]),
  (.times_row, [.obj (.viewDense .mat) .s true, .obj (.view1D .mat) .s true, .obj .dense .s false]),
  (.times_row, [.obj (.viewDense .mat) .s true, .obj (.view1D .mat) .s true, .obj (.viewDense .vec) .s false]),
  (.times_row, [.obj (.viewDense .mat) .s true, .obj (.view1D .mat) .s true, .obj (.viewDense .mat) .s false]),
  (.times_row, [.obj (.viewDense .mat) .s true, .obj (.view1D .mat) .s true, .obj (.viewDense .ten) .s false]),
  (.times_row, [.obj (.viewDense .mat) .s true, .obj (.view1D .ten) .s true, .obj .dense .s false]),
  (.times_row, [.obj (.viewDense .mat) .s true, .obj (.view1D .ten) .s true, .obj (.viewDense .vec) .s false]),
  (.times_row, [.obj (.viewDense .mat) .s true, .obj (.view1D .ten) .s true, .obj (.viewDense .mat) .s false]),
  (.times_row, [.obj (.viewDense .mat) .s true, .obj (.view1D .ten) .s true, .obj (.viewDense .ten) .s false]),
  (.times_row, [.obj (.viewDense .ten) .s true, .obj .vector .s true, .obj .dense .s false]),
  (.times_row, [.obj (.viewDense .ten) .s true, .obj .vector .s true, .obj (.viewDense .vec) .s false]),
  (.times_row, [.obj (.viewDense .ten) .s true, .obj .vector .s true, .obj (.viewDense .mat) .s false]),
  (.times_row, [.obj (.viewDense .ten) .s true, .obj .vector .s true, .obj (.viewDense .ten) .s false]),
  (.times_row, [.obj (.viewDense .ten) .s true, .obj (.view1D .vec) .s true, .obj .dense .s false]),
  (.times_row, [.obj (.viewDense .ten) .s true, .obj (.view1D .vec) .s true, .obj (.viewDense .vec) .s false]),
  (.times_row, [.obj (.viewDense .ten) .s true, .obj (.view1D .vec) .s true, .obj (.viewDense .mat) .s false]),
  (.times_row, [.obj (.viewDense .ten) .s true, .obj (.view1D .vec) .s true, .obj (.viewDense .ten) .s false]),
  (.times_row, [.obj (.viewDense .ten) .s true, .obj (.view1D .mat) .s true, .obj .dense .s false]),
  (.times_row, [.obj (.viewDense .ten) .s true, .obj (.view1D .mat) .s true, .obj (.viewDense .vec) .s false]),
  (.times_row, [.obj (.viewDense .ten) .s true, .obj (.view1D .mat) .s true, .obj (.viewDense .mat) .s false]),
  (.times_row, [.obj (.viewDense .ten) .s true, .obj (.view1D .mat) .s true, .obj (.viewDense .ten) .s false]),
  (.times_row, [.obj (.viewDense .ten) .s true, .obj (.view1D .ten) .s true, .obj .dense .s false]),
  (.times_row, [.obj (.viewDense .ten) .s true, .obj (.view1D .ten) .s true, .obj (.viewDense .vec) .s false]),
  (.times_row, [.obj (.viewDense .ten) .s true, .obj (.view1D .ten) .s true, .obj (.viewDense .mat) .s false]),
  (.times_row, [.obj (.viewDense .ten) .s true, .obj (.view1D .ten) .s true, .obj (.viewDense .ten) .s false]),
  (.times_row, [.obj .crs .s true, .obj .vector .s true, .obj .crs .s false]),
  (.times_row, [.obj .crs .s true, .obj (.view1D .vec) .s true, .obj .crs .s false]),
  (.times_col, [.obj .dense .d true, .obj .vector .d true, .obj .dense .d false]),
  (.times_col, [.obj .dense .d true, .obj .vector .d true, .obj (.viewDense .vec) .d false]),
  (.times_col, [.obj .dense .d true, .obj .vector .d true, .obj (.viewDense .mat) .d false]),
  (.times_col, [.obj .dense .d true, .obj .vector .d true, .obj (.viewDense .ten) .d false]),
  (.times_col, [.obj .dense .d true, .obj (.view1D .vec) .d true, .obj .dense .d false]),
  (.times_col, [.obj .dense .d true, .obj (.view1D .vec) .d true, .obj (.viewDense .vec) .d false]),
  (.times_col, [.obj .dense .d true, .obj (.view1D .vec) .d true, .obj (.viewDense .mat) .d false]),
  (.times_col, [.obj .dense .d true, .obj (.view1D .vec) .d true, .obj (.viewDense .ten) .d false]),
  (.times_col, [.obj .dense .d true, .obj (.view1D .mat) .d true, .obj .dense .d false]),
  (.times_col, [.obj .dense .d true, .obj (.view1D .mat) .d true, .obj (.viewDense .vec) .d false]),
  (.times_col, [.obj .dense .d true, .obj (.view1D .mat) .d true, .obj (.viewDense .mat) .d false]),
  (.times_col, [.obj .dense .d true, .obj (.view1D .mat) .d true, .obj (.viewDense .ten) .d false]),
  (.times_col, [.obj .dense .d true, .obj (.view1D .ten) .d true, .obj .dense .d false]),
  (.times_col, [.obj .dense .d true, .obj (.view1D .ten) .d true, .obj (.viewDense .vec) .d false]),
  (.times_col, [.obj .dense .d true, .obj (.view1D .ten) .d true, .obj (.viewDense .mat) .d false]),
  (.times_col, [.obj .dense .d true, .obj (.view1D .ten) .d true, .obj (.viewDense .ten) .d false]),
  (.times_col, [.obj (.viewDense .vec) .d true, .obj .vector .d true, .obj .dense .d false]),
  (.times_col, [.obj (.viewDense .vec) .d true, .obj .vector .d true, .obj (.viewDense .vec) .d false]),
  (.times_col, [.obj (.viewDense .vec) .d true, .obj .vector .d true, .obj (.viewDense .mat) .d false]),
  (.times_col, [.obj (.viewDense .vec) .d true, .obj .vector .d true, .obj (.viewDense .ten) .d false]),
  (.times_col, [.obj (.viewDense .vec) .d true, .obj (.view1D .vec) .d true, .obj .dense .d false]),
  (.times_col, [.obj (.viewDense .vec) .d true, .obj (.view1D .vec) .d true, .obj (.viewDense .vec) .d false]),
  (.times_col, [.obj (.viewDense .vec) .d true, .obj (.view1D .vec) .d true, .obj (.viewDense .mat) .d false]),
  (.times_col, [.obj (.viewDense .vec) .d true, .obj (.view1D .vec) .d true, .obj (.viewDense .ten) .d false])]

/-- the overloads of `tMatTimes_2` that are declared -/
def hMatTimes_2 : List (Fn × List Par) := [
  (.times_col, [.obj (.viewDense .vec) .d true, .obj (.view1D .mat) .d true, .obj .dense .d false]),
  (.times_col, [.obj (.viewDense .vec) .d true, .obj (.view1D .mat) .d true, .obj (.viewDense .vec) .d false]),
  (.times_col, [.obj (.viewDense .vec) .d true, .obj (.view1D .mat) .d true, .obj (.viewDense .mat) .d false]),
  (.times_col, [.obj (.viewDense .vec) .d true, .obj (.view1D .mat) .d true, .obj (.viewDense .ten) .d false]),
  (.times_col, [.obj (.viewDense .vec) .d true, .obj (.view1D .ten) .d true, .obj .dense .d false]),
  (.times_col, [.obj (.viewDense .vec) .d true, .obj (.view1D .ten) .d true, .obj (.viewDense .vec) .d false]),
  (.times_col, [.obj (.viewDense .vec) .d true, .obj (.view1D .ten) .d true, .obj (.viewDense .mat) .d false]),
  (.times_col, [.obj (.viewDense .vec) .d true, .obj (.view1D .ten) .d true, .obj (.viewDense .ten) .d false]),
  (.times_col, [.obj (.viewDense .mat) .d true, .obj .vector .d true, .obj .dense .d false]),
  (.times_col, [.obj (.viewDense .mat) .d true, .obj .vector .d true, .obj (.viewDense .vec) .d false]),
  (.times_col, [.obj (.viewDense .mat) .d true, .obj .vector .d true, .obj (.viewDense .mat) .d false]),
  (.times_col, [.obj (.viewDense .mat) .d true, .obj .vector .d true, .obj (.viewDense .ten) .d false]),
  (.times_col, [.obj (.viewDense .mat) .d true, .obj (.view1D .vec) .d true, .obj .dense .d false]),
  (.times_col, [.obj (.viewDense .mat) .d true, .obj (.view1D .vec) .d true, .obj (.viewDense .vec) .d false]),
  (.times_col, [.obj (.viewDense .mat) .d true, .obj (.view1D .vec) .d true, .obj (.viewDense .mat) .d false]),
  (.times_col, [.obj (.viewDense .mat) .d true, .obj (.view1D .vec) .d true, .obj (.viewDense .ten) .d false]),
  (.times_col, [.obj (.viewDense .mat) .d true, .obj (.view1D .mat) .d true, .obj .dense .d false]),
  (.times_col, [.obj (.viewDense .mat) .d true, .obj (.view1D .mat) .d true, .obj (.viewDense .vec) .d false]),
  (.times_col, [.obj (.viewDense .mat) .d true, .obj (.view1D .mat) .d true, .obj (.viewDense .mat) .d false]),
  (.times_col, [.obj (.viewDense .mat) .d true, .obj (.view1D .mat) .d true, .obj (.viewDense .ten) .d false]),
  (.times_col, [.obj (.viewDense .mat) .d true, .obj (.view1D .ten) .d true, .obj .dense .d false]),
  (.times_col, [.obj (.viewDense .mat) .d true, .obj (.view1D .ten) .d true, .obj (.viewDense .vec) .d false]),
  (.times_col, [.obj (.viewDense .mat) .d true, .obj (.view1D .ten) .d true, .obj (.viewDense .mat) .d false]),
  (.times_col, [.obj (.viewDense .mat) .d true, .obj (.view1D .ten) .d true, .obj (.viewDense .ten) .d false]),
  (.times_col, [.obj (.viewDense .ten) .d true, .obj .vector .d true, .obj .dense .d false]),
  (.times_col, [.obj (.viewDense .ten) .d true, .obj .vector .d true, .obj (.viewDense .vec) .d false]),
  (.times_col, [.obj (.viewDense .ten) .d true, .obj .vector .d true, .obj (.viewDense .mat) .d false]),
  (.times_col, [.obj (.viewDense .ten) .d true, .obj .vector .d true, .obj (.viewDense .ten) .d false]),
  (.times_col, [.obj (.viewDense .ten) .d true, .obj (.view1D .vec) .d true, .obj .dense .d false]),
  (.times_col, [.obj (.viewDense .ten) .d true, .obj (.view1D .vec) .d true, .obj (.viewDense .vec) .d false]),
  (.times_col, [.obj (.viewDense .ten) .d true, .obj (.view1D .vec) .d true, .obj (.viewDense .mat) .d false]),
  (.times_col, [.obj (.viewDense .ten) .d true, .obj (.view1D .vec) .d true, .obj (.viewDense .ten) .d false]),
  (.times_col, [.obj (.viewDense .ten) .d true, .obj (.view1D .mat) .d true, .obj .dense .d false]),
  (.times_col, [.obj (.viewDense .ten) .d true, .obj (.view1D .mat) .d true, .obj (.viewDense .vec) .d false]),
  (.times_col, [.obj (.viewDense .ten) .d true, .obj (.view1D .mat) .d true, .obj (.viewDense .mat) .d false]),
  (.times_col, [.obj (.viewDense .ten) .d true, .obj (.view1D .mat) .d true, .obj (.viewDense .ten) .d false]),
  (.times_col, [.obj (.viewDense .ten) .d true, .obj (.view1D .ten) .d true, .obj .dense .d false]),
  (.times_col, [.obj (.viewDense .ten) .d true, .obj (.view1D .ten) .d true, .obj (.viewDense .vec) .d false]),
  (.times_col, [.obj (.viewDense .ten) .d true, .obj (.view1D .ten) .d true, .obj (.viewDense .mat) .d false]),
  (.times_col, [.obj (.viewDense .ten) .d true, .obj (.view1D .ten) .d true, .obj (.viewDense .ten) .d false]),
  (.times_col, [.obj .crs .d true, .obj .vector .d true, .obj .crs .d false]),
  (.times_col, [.obj .crs .d true, .obj (.view1D .vec) .d true, .obj .crs .d false]),
  (.times_col, [.obj .dense .s true, .obj .vector .s true, .obj .dense .s false]),
  (.times_col, [.obj .dense .s true, .obj .vector .s true, .obj (.viewDense .vec) .s false]),
  (.times_col, [.obj .dense .s true, .obj .vector .s true, .obj (.viewDense .mat) .s false]),
  (.times_col, [.obj .dense .s true, .obj .vector .s true, .obj (.viewDense .ten) .s false]),
  (.times_col, [.obj .dense .s true, .obj (.view1D .vec) .s true, .obj .dense .s false]),
  (.times_col, [.obj .dense .s true, .obj (.view1D .vec) .s true, .obj (.viewDense .vec) .s false]),
  (.times_col, [.obj .dense .s true, .obj (.view1D .vec) .s true, .obj (.viewDense .mat) .s false]),
  (.times_col, [.obj .dense .s true, .obj (.view1D .vec) .s true, .obj (.viewDense .ten) .s false]),
  (.times_col, [.obj .dense .s true, .obj (.view1D .mat) .s true, .obj .dense .s false]),
  (.times_col, [.obj .dense .s true, .obj (.view1D .mat) .s true, .obj (.viewDense .vec) .s false]),
  (.times_col, [.obj .dense .s true, .obj (.view1D .mat) .s true, .obj (.viewDense .mat) .s false]),
  (.times_col, [.obj .dense .s true, .obj (.view1D .mat) .s true, .obj (.viewDense .ten) .s false]),
  (.times_col, [.obj .dense .s true, .obj (.view1D .ten) .s true, .obj .dense .s false]),
  (.times_col, [.obj .dense .s true, .obj (.view1D .ten) .s true, .obj (.viewDense .vec) .s false]),
  (.times_col, [.obj .dense .s true, .obj (.view1D .ten) .s true, .obj (.viewDense .mat) .s false]),
  (.times_col, [.obj .dense .s true, .obj (.view1D .ten) .s true, .obj (.viewDense .ten) .s false]),
  (.times_col, [.obj (.viewDense .vec) .s true, .obj .vector .s true, .obj .dense .s false]),
  (.times_col, [.obj (.viewDense .vec) .s true, .obj .vector .s true, .obj (.viewDense .vec) .s false]),
  (.times_col, [.obj (.viewDense .vec) .s true, .obj .vector .s true, .obj (.viewDense .mat) .s false]),
  (.times_col, [.obj (.viewDense .vec) .s true, .obj .vector .s true, .obj (.viewDense .ten) .s false]),
  (.times_col, [.obj (.viewDense .vec) .s true, .obj (.view1D .vec) .s true, .obj .dense .s false]),
  (.times_col, [.obj (.viewDense .vec) .s true, .obj (.view1D .vec) .s true, .obj (.viewDense .vec) .s false]),
  (.times_col, [.obj (.viewDense .vec) .s true, .obj (.view1D .vec) .s true, .obj (.viewDense .mat) .s false]),
  (.times_col, [.obj (.viewDense .vec) .s true, .obj (.view1D .vec) .s true, .obj (.viewDense .ten) .s false]),
  (.times_col, [.obj (.viewDense .vec) .s true, .obj (.view1D .mat) .s true, .obj .dense .s false]),
  (.times_col, [.obj (.viewDense .vec) .s true, .obj (.view1D .mat) .s true, .obj (.viewDense .vec) .s false]),
  (.times_col, [.obj (.viewDense .vec) .s true, .obj (.view1D .mat) .s true, .obj (.viewDense .mat) .s false]),
  (.times_col, [.obj (.viewDense .vec) .s true, .obj (.view1D .mat) .s true, .obj (.viewDense .ten) .s false]),
  (.times_col, [.obj (.viewDense .vec) .s true, .obj (.view1D .ten) .s true, .obj .dense .s false]),
  (.times_col, [.obj (.viewDense .vec) .s true, .obj (.view1D .ten) .s true, .obj (.viewDense .vec) .s false]),
  (.times_col, [.obj (.viewDense .vec) .s true, .obj (.view1D .ten) .s true, .obj (.viewDense .mat) .s false]),
  (.times_col, [.obj (.viewDense .vec) .s true, .obj (.view1D .ten) .s true, .obj (.viewDense .ten) .s false]),
  (.times_col, [.obj (.viewDense .mat) .s true, .obj .vector .s true, .obj .dense .s false]),
  (.times_col, [.obj (.viewDense .mat) .s true, .obj .vector .s true, .obj (.viewDense .vec) .s false]),
  (.times_col, [.obj (.viewDense .mat) .s true, .obj .vector .s true, .obj (.viewDense .mat) .s false]),
  (.times_col, [.obj (.viewDense .mat) .s true, .obj .vector .s true, .obj (.viewDense .ten) .s false])]

/-- the overloads of `tMatTimes_3` that are declared -/
def hMatTimes_3 : List (Fn × List Par) := [
  (.times_col, [.obj (.viewDense .mat) .s true, .obj (.view1D .vec) .s true, .obj .dense .s false]),
  (.times_col, [.obj (.viewDense .mat) .s true, .obj (.view1D .vec) .s true, .obj (.viewDense .vec) .s false]),
  (.times_col, [.obj (.viewDense .mat) .s true, .obj (.view1D .vec) .s true, .obj (.viewDense .mat) .s false]),
  (.times_col, [.obj (.viewDense .mat) .s true, .obj (.view1D .vec) .s true, .obj (.viewDense .ten) .s false]),
  (.times_col, [.obj (.viewDense .mat) .s true, .obj (.view1D .mat) .s true, .obj .dense .s false]),
  (.times_col, [.obj (.viewDense .mat) .s true, .obj (.view1D .mat) .s true, .obj (.viewDense .vec) .s false]),
  (.times_col, [.obj (.viewDense .mat) .s true, .obj (.view1D .mat) .s true, .obj (.viewDense .mat) .s false]),
  (.times_col, [.obj (.viewDense .mat) .s true, .obj (.view1D .mat) .s true, .obj (.viewDense .ten) .s false]),
  (.times_col, [.obj (.viewDense .mat) .s true, .obj (.view1D .ten) .s true, .obj .dense .s false]),
  (.times_col, [.obj (.viewDense .mat) .s true, .obj (.view1D .ten) .s true, .obj (.viewDense .vec) .s false]),
  (.times_col, [.obj (.viewDense .mat) .s true, .obj (.view1D .ten) .s true, .obj (.viewDense .mat) .s false]),
  (.times_col, [.obj (.viewDense .mat) .s true, .obj (.view1D .ten) .s true, .obj (.viewDense .ten) .s false]),
  (.times_col, [.obj (.viewDense .ten) .s true, .obj .vector .s true, .obj .dense .s false]),
  (.times_col, [.obj (.viewDense .ten) .s true, .obj .vector .s true, .obj (.viewDense .vec) .s false]),
  (.times_col, [.obj (.viewDense .ten) .s true, .obj .vector .s true, .obj (.viewDense .mat) .s false]),
  (.times_col, [.obj (.viewDense .ten) .s true, .obj .vector .s true, .obj (.viewDense .ten) .s false]),
  (.times_col, [.obj (.viewDense .ten) .s true, .obj (.view1D .vec) .s true, .obj .dense .s false]),
  (.times_col, [.obj (.viewDense .ten) .s true, .obj (.view1D .vec) .s true, .obj (.viewDense .vec) .s false]),
  (.times_col, [.obj (.viewDense .ten) .s true, .obj (.view1D .vec) .s true, .obj (.viewDense .mat) .s false]),
  (.times_col, [.obj (.viewDense .ten) .s true, .obj (.view1D .vec) .s true, .obj (.viewDense .ten) .s false]),
  (.times_col, [.obj (.viewDense .ten) .s true, .obj (.view1D .mat) .s true, .obj .dense .s false]),
  (.times_col, [.obj (.viewDense .ten) .s true, .obj (.view1D .mat) .s true, .obj (.viewDense .vec) .s false]),
  (.times_col, [.obj (.viewDense .ten) .s true, .obj (.view1D .mat) .s true, .obj (.viewDense .mat) .s false]),
  (.times_col, [.obj (.viewDense .ten) .s true, .obj (.view1D .mat) .s true, .obj (.viewDense .ten) .s false]),
  (.times_col, [.obj (.viewDense .ten) .s true, .obj (.view1D .ten) .s true, .obj .dense .s false]),
  (.times_col, [.obj (.viewDense .ten) .s true, .obj (.view1D .ten) .s true, .obj (.viewDense .vec) .s false]),
  (.times_col, [.obj (.viewDense .ten) .s true, .obj (.view1D .ten) .s true, .obj (.viewDense .mat) .s false]),
  (.times_col, [.obj (.viewDense .ten) .s true, .obj (.view1D .ten) .s true, .obj (.viewDense .ten) .s false]),
  (.times_col, [.obj .crs .s true, .obj .vector .s true, .obj .crs .s false]),
  (.times_col, [.obj .crs .s true, .obj (.view1D .vec) .s true, .obj .crs .s false]),
  (.times_row, [.obj .dense .d true, .num, .obj .vector .d true, .obj .dense .d false]),
  (.times_row, [.obj .dense .d true, .num, .obj .vector .d true, .obj (.viewDense .vec) .d false]),
  (.times_row, [.obj .dense .d true, .num, .obj .vector .d true, .obj (.viewDense .mat) .d false]),
  (.times_row, [.obj .dense .d true, .num, .obj .vector .d true, .obj (.viewDense .ten) .d false]),
  (.times_row, [.obj .dense .d true, .num, .obj (.view1D .vec) .d true, .obj .dense .d false]),
  (.times_row, [.obj .dense .d true, .num, .obj (.view1D .vec) .d true, .obj (.viewDense .vec) .d false]),
  (.times_row, [.obj .dense .d true, .num, .obj (.view1D .vec) .d true, .obj (.viewDense .mat) .d false]),
  (.times_row, [.obj .dense .d true, .num, .obj (.view1D .vec) .d true, .obj (.viewDense .ten) .d false]),
  (.times_row, [.obj .dense .d true, .num, .obj (.view1D .mat) .d true, .obj .dense .d false]),
  (.times_row, [.obj .dense .d true, .num, .obj (.view1D .mat) .d true, .obj (.viewDense .vec) .d false]),
  (.times_row, [.obj .dense .d true, .num, .obj (.view1D .mat) .d true, .obj (.viewDense .mat) .d false]),
  (.times_row, [.obj .dense .d true, .num, .obj (.view1D .mat) .d true, .obj (.viewDense .ten) .d false]),
  (.times_row, [.obj .dense .d true, .num, .obj (.view1D .ten) .d true, .obj .dense .d false]),
  (.times_row, [.obj .dense .d true, .num, .obj (.view1D .ten) .d true, .obj (.viewDense .vec) .d false]),
  (.times_row, [.obj .dense .d true, .num, .obj (.view1D .ten) .d true, .obj (.viewDense .mat) .d false]),
  (.times_row, [.obj .dense .d true, .num, .obj (.view1D .ten) .d true, .obj (.viewDense .ten) .d false]),
  (.times_row, [.obj (.viewDense .vec) .d true, .num, .obj .vector .d true, .obj .dense .d false]),
  (.times_row, [.obj (.viewDense .vec) .d true, .num, .obj .vector .d true, .obj (.viewDense .vec) .d false]),
  (.times_row, [.obj (.viewDense .vec) .d true, .num, .obj .vector .d true, .obj (.viewDense .mat) .d false]),
  (.times_row, [.obj (.viewDense .vec) .d true, .num, .obj .vector .d true, .obj (.viewDense .ten) .d false]),
  (.times_row, [.obj (.viewDense .vec) .d true, .num, .obj (.view1D .vec) .d true, .obj .dense .d false]),
  (.times_row, [.obj (.viewDense .vec) .d true, .num, .obj (.view1D .vec) .d true, .obj (.viewDense .vec) .d false]),
  (.times_row, [.obj (.viewDense .vec) .d true, .num, .obj (.view1D .vec) .d true, .obj (.viewDense .mat) .d false]),
  (.times_row, [.obj (.viewDense .vec) .d true, .num, .obj (.view1D .vec) .d true, .obj (.viewDense .ten) .d false]),
  (.times_row, [.obj (.viewDense .vec) .d true, .num, .obj (.view1D .mat) .d true, .obj .dense .d false]),
  (.times_row, [.obj (.viewDense .vec) .d true, .num, .obj (.view1D .mat) .d true, .obj (.viewDense .vec) .d false]),
  (.times_row, [.obj (.viewDense .vec) .d true, .num, .obj (.view1D .mat) .d true, .obj (.viewDense .mat) .d false]),
  (.times_row, [.obj (.viewDense .vec) .d true, .num, .obj (.view1D .mat) .d true, .obj (.viewDense .ten) .d false]),
  (.times_row, [.obj (.viewDense .vec) .d true, .num, .obj (.view1D .ten) .d true, .obj .dense .d false]),
  (.times_row, [.obj (.viewDense .vec) .d true, .num, .obj (.view1D .ten) .d true, .obj (.viewDense .vec) .d false]),
  (.times_row, [.obj (.viewDense .vec) .d true, .num, .obj (.view1D .ten) .d true, .obj (.viewDense .mat) .d false]),
  (.times_row, [.obj (.viewDense .vec) .d true, .num, .obj (.view1D .ten) .d true, .obj (.viewDense .ten) .d false]),
  (.times_row, [.obj (.viewDense .mat) .d true, .num, .obj .vector .d true, .obj .dense .d false]),
  (.times_row, [.obj (.viewDense .mat) .d true, .num, .obj .vector .d true, .obj (.viewDense .vec) .d false]),
  (.times_row, [.obj (.viewDense .mat) .d true, .num, .obj .vector .d true, .obj (.viewDense .mat) .d false]),
  (.times_row, [.obj (.viewDense .mat) .d true, .num, .obj .vector .d true, .obj (.viewDense .ten) .d false]),
  (.times_row, [.obj (.viewDense .mat) .d true, .num, .obj (.view1D .vec) .d true, .obj .dense .d false]),
  (.times_row, [.obj (.viewDense .mat) .d true, .num, .obj (.view1D .vec) .d true, .obj (.viewDense .vec) .d false]),
  (.times_row, [.obj (.viewDense .mat) .d true, .num, .obj (.view1D .vec) .d true, .obj (.viewDense .mat) .d false]),
  (.times_row, [.obj (.viewDense .mat) .d true, .num, .obj (.view1D .vec) .d true, .obj (.viewDense .ten) .d false]),
  (.times_row, [.obj (.viewDense .mat) .d true, .num, .obj (.view1D .mat) .d true, .obj .dense .d false]),
  (.times_row, [.obj (.viewDense .mat) .d true, .num, .obj (.view1D .mat) .d true, .obj (.viewDense .vec) .d false]),
  (.times_row, [.obj (.viewDense .mat) .d true, .num, .obj (.view1D .mat) .d true, .obj (.viewDense .mat) .d false]),
  (.times_row, [.obj (.viewDense .mat) .d true, .num, .obj (.view1D .mat) .d true, .obj (.viewDense .ten) .d false]),
  (.times_row, [.obj (.viewDense .mat) .d true, .num, .obj (.view1D .ten) .d true, .obj .dense .d false]),
  (.times_row, [.obj (.viewDense .mat) .d true, .num, .obj (.view1D .ten) .d true, .obj (.viewDense .vec) .d false]),
  (.times_row, [.obj (.viewDense .mat) .d true, .num, .obj (.view1D .ten) .d true, .obj (.viewDense .mat) .d false]),
  (.times_row, [.obj (.viewDense .mat) .d true, .num, .obj (.view1D .ten) .d true, .obj (.viewDense .ten) .d false])]

/-- the overloads of `tMatTimes_4` that are declared -/
def hMatTimes_4 : List (Fn × List Par) := [
  (.times_row, [.obj (.viewDense .ten) .d true, .num, .obj .vector .d true, .obj .dense .d false]),
  (.times_row, [.obj (.viewDense .ten) .d true, .num, .obj .vector .d true, .obj (.viewDense .vec) .d false]),
  (.times_row, [.obj (.viewDense .ten) .d true, .num, .obj .vector .d true, .obj (.viewDense .mat) .d false]),
  (.times_row, [.obj (.viewDense .ten) .d true, .num, .obj .vector .d true, .obj (.viewDense .ten) .d false]),
  (.times_row, [.obj (.viewDense .ten) .d true, .num, .obj (.view1D .vec) .d true, .obj .dense .d false]),
  (.times_row, [.obj (.viewDense .ten) .d true, .num, .obj (.view1D .vec) .d true, .obj (.viewDense .vec) .d false]),
  (.times_row, [.obj (.viewDense .ten) .d true, .num, .obj (.view1D .vec) .d true, .obj (.viewDense .mat) .d false]),
  (.times_row, [.obj (.viewDense .ten) .d true, .num, .obj (.view1D .vec) .d true, .obj (.viewDense .ten) .d false]),
  (.times_row, [.obj (.viewDense .ten) .d true, .num, .obj (.view1D .mat) .d true, .obj .dense .d false]),
  (.times_row, [.obj (.viewDense .ten) .d true, .num, .obj (.view1D .mat) .d true, .obj (.viewDense .vec) .d false]),
  (.times_row, [.obj (.viewDense .ten) .d true, .num, .obj (.view1D .mat) .d true, .obj (.viewDense .mat) .d false]),
  (.times_row, [.obj (.viewDense .ten) .d true, .num, .obj (.view1D .mat) .d true, .obj (.viewDense .ten) .d false]),
  (.times_row, [.obj (.viewDense .ten) .d true, .num, .obj (.view1D .ten) .d true, .obj .dense .d false]),
  (.times_row, [.obj (.viewDense .ten) .d true, .num, .obj (.view1D .ten) .d true, .obj (.viewDense .vec) .d false]),
  (.times_row, [.obj (.viewDense .ten) .d true, .num, .obj (.view1D .ten) .d true, .obj (.viewDense .mat) .d false]),
  (.times_row, [.obj (.viewDense .ten) .d true, .num, .obj (.view1D .ten) .d true, .obj (.viewDense .ten) .d false]),
  (.times_row, [.obj .crs .d true, .num, .obj .vector .d true, .obj .crs .d false]),
  (.times_row, [.obj .crs .d true, .num, .obj (.view1D .vec) .d true, .obj .crs .d false]),
  (.times_row, [.obj .dense .s true, .num, .obj .vector .s true, .obj .dense .s false]),
  (.times_row, [.obj .dense .s true, .num, .obj .vector .s true, .obj (.viewDense .vec) .s false]),
  (.times_row, [.obj .dense .s true, .num, .obj .vector .s true, .obj (.viewDense .mat) .s false]),
  (.times_row, [.obj .dense .s true, .num, .obj .vector .s true, .obj (.viewDense .ten) .s false]),
  (.times_row, [.obj .dense .s true, .num, .obj (.view1D .vec) .s true, .obj .dense .s false]),
  (.times_row, [.obj .dense .s true, .num, .obj (.view1D .vec) .s true, .obj (.viewDense .vec) .s false]),
  (.times_row, [.obj .dense .s true, .num, .obj (.view1D .vec) .s true, .obj (.viewDense .mat) .s false]),
  (.times_row, [.obj .dense .s true, .num, .obj (.view1D .vec) .s true, .obj (.viewDense .ten) .s false]),
  (.times_row, [.obj .dense .s true, .num, .obj (.view1D .mat) .s true, .obj .dense .s false]),
  (.times_row, [.obj .dense .s true, .num, .obj (.view1D .mat) .s true, .obj (.viewDense .vec) .s false]),
  (.times_row, [.obj .dense .s true, .num, .obj (.view1D .mat) .s true, .obj (.viewDense .mat) .s false]),
  (.times_row, [.obj .dense .s true, .num, .obj (.view1D .mat) .s true, .obj (.viewDense .ten) .s false]),
  (.times_row, [.obj .dense .s true, .num, .obj (.view1D .ten) .s true, .obj .dense .s false]),
  (.times_row, [.obj .dense .s true, .num, .obj (.view1D .ten) .s true, .obj (.viewDense .vec) .s false]),
  (.times_row, [.obj .dense .s true, .num, .obj (.view1D .ten) .s true, .obj (.viewDense .mat) .s false]),
  (.times_row, [.obj .dense .s true, .num, .obj (.view1D .ten) .s true, .obj (.viewDense .ten) .s false]),
  (.times_row, [.obj (.viewDense .vec) .s true, .num, .obj .vector .s true, .obj .dense .s false]),
  (.times_row, [.obj (.viewDense .vec) .s true, .num, .obj .vector .s true, .obj (.viewDense .vec) .s false]),
  (.times_row, [.obj (.viewDense .vec) .s true, .num, .obj .vector .s true, .obj (.viewDense .mat) .s false]),
  (.times_row, [.obj (.viewDense .vec) .s true, .num, .obj .vector .s true, .obj (.viewDense .ten) .s false]),
  (.times_row, [.obj (.viewDense .vec) .s true, .num, .obj (.view1D .vec) .s true, .obj .dense .s false]),
  (.times_row, [.obj (.viewDense .vec) .s true, .num, .obj (.view1D .vec) .s true, .obj (.viewDense .vec) .s false]),
  (.times_row, [.obj (.viewDense .vec) .s true, .num, .obj (.view1D .vec) .s true, .obj (.viewDense .mat) .s false]),
  (.times_row, [.obj (.viewDense .vec) .s true, .num, .obj (.view1D .vec) .s true, .obj (.viewDense .ten) .s false]),
  (.times_row, [.obj (.viewDense .vec) .s true, .num, .obj (.view1D .mat) .s true, .obj .dense .s false]),
  (.times_row, [.obj (.viewDense .vec) .s true, .num, .obj (.view1D .mat) .s true, .obj (.viewDense .vec) .s false]),
  (.times_row, [.obj (.viewDense .vec) .s true, .num, .obj (.view1D .mat) .s true, .obj (.viewDense .mat) .s false]),
  (.times_row, [.obj (.viewDense .vec) .s true, .num, .obj (.view1D .mat) .s true, .obj (.viewDense .ten) .s false]),
  (.times_row, [.obj (.viewDense .vec) .s true, .num, .obj (.view1D .ten) .s true, .obj .dense .s false]),
  (.times_row, [.obj (.viewDense .vec) .s true, .num, .obj (.view1D .ten) .s true, .obj (.viewDense .vec) .s false]),
  (.times_row, [.obj (.viewDense .vec) .s true, .num, .obj (.view1D .ten) .s true, .obj (.viewDense .mat) .s false]),
  (.times_row, [.obj (.viewDense .vec) .s true, .num, .obj (.view1D .ten) .s true, .obj (.viewDense .ten) .s false]),
  (.times_row, [.obj (.viewDense .mat) .s true, .num, .obj .vector .s true, .obj .dense .s false]),
  (.times_row, [.obj (.viewDense .mat) .s true, .num, .obj .vector .s true, .obj (.viewDense .vec) .s false]),
  (.times_row, [.obj (.viewDense .mat) .s true, .num, .obj .vector .s true, .obj (.viewDense .mat) .s false]),
  (.times_row, [.obj (.viewDense .mat) .s true, .num, .obj .vector .s true, .obj (.viewDense .ten) .s false]),
  (.times_row, [.obj (.viewDense .mat) .s true, .num, .obj (.view1D .vec) .s true, .obj .dense .s false]),
  (.times_row, [.obj (.viewDense .mat) .s true, .num, .obj (.view1D .vec) .s true, .obj (.viewDense .vec) .s false]),
  (.times_row, [.obj (.viewDense .mat) .s true, .num, .obj (.view1D .vec) .s true, .obj (.viewDense .mat) .s false]),
  (.times_row, [.obj (.viewDense .mat) .s true, .num, .obj (.view1D .vec) .s true, .obj (.viewDense .ten) .s false]),
  (.times_row, [.obj (.viewDense .mat) .s true, .num, .obj (.view1D .mat) .s true, .obj .dense .s false]),
  (.times_row, [.obj (.viewDense .mat) .s true, .num, .obj (.view1D .mat) .s true, .obj (.viewDense .vec) .s false]),
  (.times_row, [.obj (.viewDense .mat) .s true, .num, .obj (.view1D .mat) .s true, .obj (.viewDense .mat) .s false]),
  (.times_row, [.obj (.viewDense .mat) .s true, .num, .obj (.view1D .mat) .s true, .obj (.viewDense .ten) .s false]),
  (.times_row, [.obj (.viewDense .mat) .s true, .num, .obj (.view1D .ten) .s true, .obj .dense .s false]),
  (.times_row, [.obj (.viewDense .mat) .s true, .num, .obj (.view1D .ten) .s true, .obj (.viewDense .vec) .s false]),
  (.times_row, [.obj (.viewDense .mat) .s true, .num, .obj (.view1D .ten) .s true, .obj (.viewDense .mat) .s false]),
  (.times_row, [.obj (.viewDense .mat) .s true, .num, .obj (.view1D .ten) .s true, .obj (.viewDense .ten) .s false]),
  (.times_row, [.obj (.viewDense .ten) .s true, .num, .obj .vector .s true, .obj .dense .s false]),
  (.times_row, [.obj (.viewDense .ten) .s true, .num, .obj .vector .s true, .obj (.viewDense .vec) .s false]),
  (.times_row, [.obj (.viewDense .ten) .s true, .num, .obj .vector .s true, .obj (.viewDense .mat) .s false]),
  (.times_row, [.obj (.viewDense .ten) .s true, .num, .obj .vector .s true, .obj (.viewDense .ten) .s false]),
  (.times_row, [.obj (.viewDense .ten) .s true, .num, .obj (.view1D .vec) .s true, .obj .dense .s false]),
  (.times_row, [.obj (.viewDense .ten) .s true, .num, .obj (.view1D .vec) .s true, .obj (.viewDense .vec) .s false]),
  (.times_row, [.obj (.viewDense .ten) .s true, .num, .obj (.view1D .vec) .s true, .obj (.viewDense .mat) .s false]),
  (.times_row, [.obj (.viewDense .ten) .s true, .num, .obj (.view1D .vec) .s true, .obj (.viewDense .ten) .s false]),
  (.times_row, [.obj (.viewDense .ten) .s true, .num, .obj (.view1D .mat) .s true, .obj .dense .s false]),
  (.times_row, [.obj (.viewDense .ten) .s true, .num, .obj (.view1D .mat) .s true, .obj (.viewDense .vec) .s false]),
  (.times_row, [.obj (.viewDense .ten) .s true, .num, .obj (.view1D .mat) .s true, .obj (.viewDense .mat) .s false]),
  (.times_row, [.obj (.viewDense .ten) .s true, .num, .obj (.view1D .mat) .s true, .obj (.viewDense .ten) .s false])]

/-- the overloads of `tMatTimes_5` that are declared -/
def hMatTimes_5 : List (Fn × List Par) := [
  (.times_row, [.obj (.viewDense .ten) .s true, .num, .obj (.view1D .ten) .s true, .obj .dense .s false]),
  (.times_row, [.obj (.viewDense .ten) .s true, .num, .obj (.view1D .ten) .s true, .obj (.viewDense .vec) .s false]),
  (.times_row, [.obj (.viewDense .ten) .s true, .num, .obj (.view1D .ten) .s true, .obj (.viewDense .mat) .s false]),
  (.times_row, [.obj (.viewDense .ten) .s true, .num, .obj (.view1D .ten) .s true, .obj (.viewDense .ten) .s false]),
  (.times_row, [.obj .crs .s true, .num, .obj .vector .s true, .obj .crs .s false]),
  (.times_row, [.obj .crs .s true, .num, .obj (.view1D .vec) .s true, .obj .crs .s false]),
  (.times_col, [.obj .dense .d true, .num, .obj .vector .d true, .obj .dense .d false]),
  (.times_col, [.obj .dense .d true, .num, .obj .vector .d true, .obj (.viewDense .vec) .d false]),
  (.times_col, [.obj .dense .d true, .num, .obj .vector .d true, .obj (.viewDense .mat) .d false]),
  (.times_col, [.obj .dense .d true, .num, .obj .vector .d true, .obj (.viewDense .ten) .d false]),
  (.times_col, [.obj .dense .d true, .num, .obj (.view1D .vec) .d true, .obj .dense .d false]),
  (.times_col, [.obj .dense .d true, .num, .obj (.view1D .vec) .d true, .obj (.viewDense .vec) .d false]),
  (.times_col, [.obj .dense .d true, .num, .obj (.view1D .vec) .d true, .obj (.viewDense .mat) .d false]),
  (.times_col, [.obj .dense .d true, .num, .obj (.view1D .vec) .d true, .obj (.viewDense .ten) .d false]),
  (.times_col, [.obj .dense .d true, .num, .obj (.view1D .mat) .d true, .obj .dense .d false]),
  (.times_col, [.obj .dense .d true, .num, .obj (.view1D .mat) .d true, .obj (.viewDense .vec) .d false]),
  (.times_col, [.obj .dense .d true, .num, .obj (.view1D .mat) .d true, .obj (.viewDense .mat) .d false]),
  (.times_col, [.obj .dense .d true, .num, .obj (.view1D .mat) .d true, .obj (.viewDense .ten) .d false]),
  (.times_col, [.obj .dense .d true, .num, .obj (.view1D .ten) .d true, .obj .dense .d false]),
  (.times_col, [.obj .dense .d true, .num, .obj (.view1D .ten) .d true, .obj (.viewDense .vec) .d false]),
  (.times_col, [.obj .dense .d true, .num, .obj (.view1D .ten) .d true, .obj (.viewDense .mat) .d false]),
  (.times_col, [.obj .dense .d true, .num, .obj (.view1D .ten) .d true, .obj (.viewDense .ten) .d false]),
  (.times_col, [.obj (.viewDense .vec) .d true, .num, .obj .vector .d true, .obj .dense .d false]),
  (.times_col, [.obj (.viewDense .vec) .d true, .num, .obj .vector .d true, .obj (.viewDense .vec) .d false]),
  (.times_col, [.obj (.viewDense .vec) .d true, .num, .obj .vector .d true, .obj (.viewDense .mat) .d false]),
  (.times_col, [.obj (.viewDense .vec) .d true, .num, .obj .vector .d true, .obj (.viewDense .ten) .d false]),
  (.times_col, [.obj (.viewDense .vec) .d true, .num, .obj (.view1D .vec) .d true, .obj .dense .d false]),
  (.times_col, [.obj (.viewDense .vec) .d true, .num, .obj (.view1D .vec) .d true, .obj (.viewDense .vec) .d false]),
  (.times_col, [.obj (.viewDense .vec) .d true, .num, .obj (.view1D .vec) .d true, .obj (.viewDense .mat) .d false]),
  (.times_col, [.obj (.viewDense .vec) .d true, .num, .obj (.view1D .vec) .d true, .obj (.viewDense .ten) .d false]),
  (.times_col, [.obj (.viewDense .vec) .d true, .num, .obj (.view1D .mat) .d true, .obj .dense .d false]),
  (.times_col, [.obj (.viewDense .vec) .d true, .num, .obj (.view1D .mat) .d true, .obj (.viewDense .vec) .d false]),
  (.times_col, [.obj (.viewDense .vec) .d true, .num, .obj (.view1D .mat) .d true, .obj (.viewDense .mat) .d false]),
  (.times_col, [.obj (.viewDense .vec) .d true, .num, .obj (.view1D .mat) .d true, .obj (.viewDense .ten) .d false]),
  (.times_col, [.obj (.viewDense .vec) .d true, .num, .obj (.view1D .ten) .d true, .obj .dense .d false]),
  (.times_col, [.obj (.viewDense .vec) .d true, .num, .obj (.view1D .ten) .d true, .obj (.viewDense .vec) .d false]),
  (.times_col, [.obj (.viewDense .vec) .d true, .num, .obj (.view1D .ten) .d true, .obj (.viewDense .mat) .d false]),
  (.times_col, [.obj (.viewDense .vec) .d true, .num, .obj (.view1D .ten) .d true, .obj (.viewDense .ten) .d false]),
  (.times_col, [.obj (.viewDense .mat) .d true, .num, .obj .vector .d true, .obj .dense .d false]),
  (.times_col, [.obj (.viewDense .mat) .d true, .num, .obj .vector .d true, .obj (.viewDense .vec) .d false]),
  (.times_col, [.obj (.viewDense .mat) .d true, .num, .obj .vector .d true, .obj (.viewDense .mat) .d false]),
  (.times_col, [.obj (.viewDense .mat) .d true, .num, .obj .vector .d true, .obj (.viewDense .ten) .d false]),
  (.times_col, [.obj (.viewDense .mat) .d true, .num, .obj (.view1D .vec) .d true, .obj .dense .d false]),
  (.times_col, [.obj (.viewDense .mat) .d true, .num, .obj (.view1D .vec) .d true, .obj (.viewDense .vec) .d false]),
  (.times_col, [.obj (.viewDense .mat) .d true, .num, .obj (.view1D .vec) .d true, .obj (.viewDense .mat) .d false]),
  (.times_col, [.obj (.viewDense .mat) .d true, .num, .obj (.view1D .vec) .d true, .obj (.viewDense .ten) .d false]),
  (.times_col, [.obj (.viewDense .mat) .d true, .num, .obj (.view1D .mat) .d true, .obj .dense .d false]),
  (.times_col, [.obj (.viewDense .mat) .d true, .num, .obj (.view1D .mat) .d true, .obj (.viewDense .vec) .d false]),
  (.times_col, [.obj (.viewDense .mat) .d true, .num, .obj (.view1D .mat) .d true, .obj (.viewDense .mat) .d false]),
  (.times_col, [.obj (.viewDense .mat) .d true, .num, .obj (.view1D .mat) .d true, .obj (.viewDense .ten) .d false]),
  (.times_col, [.obj (.viewDense .mat) .d true, .num, .obj (.view1D .ten) .d true, .obj .dense .d false]),
  (.times_col, [.obj (.viewDense .mat) .d true, .num, .obj (.view1D .ten) .d true, .obj (.viewDense .vec) .d false]),
  (.times_col, [.obj (.viewDense .mat) .d true, .num, .obj (.view1D .ten) .d true, .obj (.viewDense .mat) .d false]),
  (.times_col, [.obj (.viewDense .mat) .d true, .num, .obj (.view1D .ten) .d true, .obj (.viewDense .ten) .d false]),
  (.times_col, [.obj (.viewDense .ten) .d true, .num, .obj .vector .d true, .obj .dense .d false]),
  (.times_col, [.obj (.viewDense .ten) .d true, .num, .obj .vector .d true, .obj (.viewDense .vec) .d false]),
  (.times_col, [.obj (.viewDense .ten) .d true, .num, .obj .vector .d true, .obj (.viewDense .mat) .d false]),
  (.times_col, [.obj (.viewDense .ten) .d true, .num, .obj .vector .d true, .obj (.viewDense .ten) .d false]),
  (.times_col, [.obj (.viewDense .ten) .d true, .num, .obj (.view1D .vec) .d true, .obj .dense .d false]),
  (.times_col, [.obj (.viewDense .ten) .d true, .num, .obj (.view1D .vec) .d true, .obj (.viewDense .vec) .d false]),
  (.times_col, [.obj (.viewDense .ten) .d true, .num, .obj (.view1D .vec) .d true, .obj (.viewDense .mat) .d false]),
  (.times_col, [.obj (.viewDense .ten) .d true, .num, .obj (.view1D .vec) .d true, .obj (.viewDense .ten) .d false]),
  (.times_col, [.obj (.viewDense .ten) .d true, .num, .obj (.view1D .mat) .d true, .obj .dense .d false]),
  (.times_col, [.obj (.viewDense .ten) .d true, .num, .obj (.view1D .mat) .d true, .obj (.viewDense .vec) .d false]),
  (.times_col, [.obj (.viewDense .ten) .d true, .num, .obj (.view1D .mat) .d true, .obj (.viewDense .mat) .d false]),
  (.times_col, [.obj (.viewDense .ten) .d true, .num, .obj (.view1D .mat) .d true, .obj (.viewDense .ten) .d false]),
  (.times_col, [.obj (.viewDense .ten) .d true, .num, .obj (.view1D .ten) .d true, .obj .dense .d false]),
  (.times_col, [.obj (.viewDense .ten) .d true, .num, .obj (.view1D .ten) .d true, .obj (.viewDense .vec) .d false]),
  (.times_col, [.obj (.viewDense .ten) .d true, .num, .obj (.view1D .ten) .d true, .obj (.viewDense .mat) .d false]),
  (.times_col, [.obj (.viewDense .ten) .d true, .num, .obj (.view1D .ten) .d true, .obj (.viewDense .ten) .d false]),
  (.times_col, [.obj .crs .d true, .num, .obj .vector .d true, .obj .crs .d false]),
  (.times_col, [.obj .crs .d true, .num, .obj (.view1D .vec) .d true, .obj .crs .d false]),
  (.times_col, [.obj .dense .s true, .num, .obj .vector .s true, .obj .dense .s false]),
  (.times_col, [.obj .dense .s true, .num, .obj .vector .s true, .obj (.viewDense .vec) .s false]),
  (.times_col, [.obj .dense .s true, .num, .obj .vector .s true, .obj (.viewDense .mat) .s false]),
  (.times_col, [.obj .dense .s true, .num, .obj .vector .s true, .obj (.viewDense .ten) .s false])]

/-- the overloads of `tMatTimes_6` that are declared -/
def hMatTimes_6 : List (Fn × List Par) := [
  (.times_col, [.obj .dense .s true, .num, .obj (.view1D .vec) .s true, .obj .dense .s false]),
  (.times_col, [.obj .dense .s true, .num, .obj (.view1D .vec) .s true, .obj (.viewDense .vec) .s false]),
  (.times_col, [.obj .dense .s true, .num, .obj (.view1D .vec) .s true, .obj (.viewDense .mat) .s false]),
  (.times_col, [.obj .dense .s true, .num, .obj (.view1D .vec) .s true, .obj (.viewDense .ten) .s false]),
  (.times_col, [.obj .dense .s true, .num, .obj (.view1D .mat) .s true, .obj .dense .s false]),
  (.times_col, [.obj .dense .s true, .num, .obj (.view1D .mat) .s true, .obj (.viewDense .vec) .s false]),
  (.times_col, [.obj .dense .s true, .num, .obj (.view1D .mat) .s true, .obj (.viewDense .mat) .s false]),
  (.times_col, [.obj .dense .s true, .num, .obj (.view1D .mat) .s true, .obj (.viewDense .ten) .s false]),
  (.times_col, [.obj .dense .s true, .num, .obj (.view1D .ten) .s true, .obj .dense .s false]),
  (.times_col, [.obj .dense .s true, .num, .obj (.view1D .ten) .s true, .obj (.viewDense .vec) .s false]),
  (.times_col, [.obj .dense .s true, .num, .obj (.view1D .ten) .s true, .obj (.viewDense .mat) .s false]),
  (.times_col, [.obj .dense .s true, .num, .obj (.view1D .ten) .s true, .obj (.viewDense .ten) .s false]),
  (.times_col, [.obj (.viewDense .vec) .s true, .num, .obj .vector .s true, .obj .dense .s false]),
  (.times_col, [.obj (.viewDense .vec) .s true, .num, .obj .vector .s true, .obj (.viewDense .vec) .s false]),
  (.times_col, [.obj (.viewDense .vec) .s true, .num, .obj .vector .s true, .obj (.viewDense .mat) .s false]),
  (.times_col, [.obj (.viewDense .vec) .s true, .num, .obj .vector .s true, .obj (.viewDense .ten) .s false]),
  (.times_col, [.obj (.viewDense .vec) .s true, .num, .obj (.view1D .vec) .s true, .obj .dense .s false]),
  (.times_col, [.obj (.viewDense .vec) .s true, .num, .obj (.view1D .vec) .s true, .obj (.viewDense .vec) .s false]),
  (.times_col, [.obj (.viewDense .vec) .s true, .num, .obj (.view1D .vec) .s true, .obj (.viewDense .mat) .s false]),
  (.times_col, [.obj (.viewDense .vec) .s true, .num, .obj (.view1D .vec) .s true, .obj (.viewDense .ten) .s false]),
  (.times_col, [.obj (.viewDense .vec) .s true, .num, .obj (.view1D .mat) .s true, .obj .dense .s false]),
  (.times_col, [.obj (.viewDense .vec) .s true, .num, .obj (.view1D .mat) .s true, .obj (.viewDense .vec) .s false]),
  (.times_col, [.obj (.viewDense .vec) .s true, .num, .obj (.view1D .mat) .s true, .obj (.viewDense .mat) .s false]),
  (.times_col, [.obj (.viewDense .vec) .s true, .num, .obj (.view1D .mat) .s true, .obj (.viewDense .ten) .s false]),
  (.times_col, [.obj (.viewDense .vec) .s true, .num, .obj (.view1D .ten) .s true, .obj .dense .s false]),
  (.times_col, [.obj (.viewDense .vec) .s true, .num, .obj (.view1D .ten) .s true, .obj (.viewDense .vec) .s false]),
  (.times_col, [.obj (.viewDense .vec) .s true, .num, .obj (.view1D .ten) .s true, .obj (.viewDense .mat) .s false]),
  (.times_col, [.obj (.viewDense .vec) .s true, .num, .obj (.view1D .ten) .s true, .obj (.viewDense .ten) .s false]),
  (.times_col, [.obj (.viewDense .mat) .s true, .num, .obj .vector .s true, .obj .dense .s false]),
  (.times_col, [.obj (.viewDense .mat) .s true, .num, .obj .vector .s true, .obj (.viewDense .vec) .s false]),
  (.times_col, [.obj (.viewDense .mat) .s true, .num, .obj .vector .s true, .obj (.viewDense .mat) .s false]),
  (.times_col, [.obj (.viewDense .mat) .s true, .num, .obj .vector .s true, .obj (.viewDense .ten) .s false]),
  (.times_col, [.obj (.viewDense .mat) .s true, .num, .obj (.view1D .vec) .s true, .obj .dense .s false]),
  (.times_col, [.obj (.viewDense .mat) .s true, .num, .obj (.view1D .vec) .s true, .obj (.viewDense .vec) .s false]),
  (.times_col, [.obj (.viewDense .mat) .s true, .num, .obj (.view1D .vec) .s true, .obj (.viewDense .mat) .s false]),
  (.times_col, [.obj (.viewDense .mat) .s true, .num, .obj (.view1D .vec) .s true, .obj (.viewDense .ten) .s false]),
  (.times_col, [.obj (.viewDense .mat) .s true, .num, .obj (.view1D .mat) .s true, .obj .dense .s false]),
  (.times_col, [.obj (.viewDense .mat) .s true, .num, .obj (.view1D .mat) .s true, .obj (.viewDense .vec) .s false]),
  (.times_col, [.obj (.viewDense .mat) .s true, .num, .obj (.view1D .mat) .s true, .obj (.viewDense .mat) .s false]),
  (.times_col, [.obj (.viewDense .mat) .s true, .num, .obj (.view1D .mat) .s true, .obj (.viewDense .ten) .s false]),
  (.times_col, [.obj (.viewDense .mat) .s true, .num, .obj (.view1D .ten) .s true, .obj .dense .s false]),
  (.times_col, [.obj (.viewDense .mat) .s true, .num, .obj (.view1D .ten) .s true, .obj (.viewDense .vec) .s false]),
  (.times_col, [.obj (.viewDense .mat) .s true, .num, .obj (.view1D .ten) .s true, .obj (.viewDense .mat) .s false]),
  (.times_col, [.obj (.viewDense .mat) .s true, .num, .obj (.view1D .ten) .s true, .obj (.viewDense .ten) .s false]),
  (.times_col, [.obj (.viewDense .ten) .s true, .num, .obj .vector .s true, .obj .dense .s false]),
  (.times_col, [.obj (.viewDense .ten) .s true, .num, .obj .vector .s true, .obj (.viewDense .vec) .s false]),
  (.times_col, [.obj (.viewDense .ten) .s true, .num, .obj .vector .s true, .obj (.viewDense .mat) .s false]),
  (.times_col, [.obj (.viewDense .ten) .s true, .num, .obj .vector .s true, .obj (.viewDense .ten) .s false]),
  (.times_col, [.obj (.viewDense .ten) .s true, .num, .obj (.view1D .vec) .s true, .obj .dense .s false]),
  (.times_col, [.obj (.viewDense .ten) .s true, .num, .obj (.view1D .vec) .s true, .obj (.viewDense .vec) .s false]),
  (.times_col, [.obj (.viewDense .ten) .s true, .num, .obj (.view1D .vec) .s true, .obj (.viewDense .mat) .s false]),
  (.times_col, [.obj (.viewDense .ten) .s true, .num, .obj (.view1D .vec) .s true, .obj (.viewDense .ten) .s false]),
  (.times_col, [.obj (.viewDense .ten) .s true, .num, .obj (.view1D .mat) .s true, .obj .dense .s false]),
  (.times_col, [.obj (.viewDense .ten) .s true, .num, .obj (.view1D .mat) .s true, .obj (.viewDense .vec) .s false]),
  (.times_col, [.obj (.viewDense .ten) .s true, .num, .obj (.view1D .mat) .s true, .obj (.viewDense .mat) .s false]),
  (.times_col, [.obj (.viewDense .ten) .s true, .num, .obj (.view1D .mat) .s true, .obj (.viewDense .ten) .s false]),
  (.times_col, [.obj (.viewDense .ten) .s true, .num, .obj (.view1D .ten) .s true, .obj .dense .s false]),
  (.times_col, [.obj (.viewDense .ten) .s true, .num, .obj (.view1D .ten) .s true, .obj (.viewDense .vec) .s false]),
  (.times_col, [.obj (.viewDense .ten) .s true, .num, .obj (.view1D .ten) .s true, .obj (.viewDense .mat) .s false]),
  (.times_col, [.obj (.viewDense .ten) .s true, .num, .obj (.view1D .ten) .s true, .obj (.viewDense .ten) .s false]),
  (.times_col, [.obj .crs .s true, .num, .obj .vector .s true, .obj .crs .s false]),
  (.times_col, [.obj .crs .s true, .num, .obj (.view1D .vec) .s true, .obj .crs .s false])]

/-- the overloads of `tMatAdds_0` that are declared -/
def hMatAdds_0 : List (Fn × List Par) := [
  (.adds_row, [.obj .dense .d true, .obj .vector .d true, .obj .dense .d false]),
  (.adds_row, [.obj .dense .d true, .obj .vector .d true, .obj (.viewDense .vec) .d false]),
  (.adds_row, [.obj .dense .d true, .obj .vector .d true, .obj (.viewDense .mat) .d false]),
  (.adds_row, [.obj .dense .d true, .obj .vector .d true, .obj (.viewDense .ten) .d false]),
  (.adds_row, [.obj .dense .d true, .obj (.view1D .vec) .d true, .obj .dense .d false]),
  (.adds_row, [.obj .dense .d true, .obj (.view1D .vec) .d true, .obj (.viewDense .vec) .d false]),
  (.adds_row, [.obj .dense .d true, .obj (.view1D .vec) .d true, .obj (.viewDense .mat) .d false]),
  (.adds_row, [.obj .dense .d true, .obj (.view1D .vec) .d true, .obj (.viewDense .ten) .d false]),
  (.adds_row, [.obj .dense .d true, .obj (.view1D .mat) .d true, .obj .dense .d false]),
  (.adds_row, [.obj .dense .d true, .obj (.view1D .mat) .d true, .obj (.viewDense .vec) .d false]),
  (.adds_row, [.obj .dense .d true, .obj (.view1D .mat) .d true, .obj (.viewDense .mat) .d false]),
  (.adds_row, [.obj .dense .d true, .obj (.view1D .mat) .d true, .obj (.viewDense .ten) .d false]),
  (.adds_row, [.obj .dense .d true, .obj (.view1D .ten) .d true, .obj .dense .d false]),
  (.adds_row, [.obj .dense .d true, .obj (.view1D .ten) .d true, .obj (.viewDense .vec) .d false]),
  (.adds_row, [.obj .dense .d true, .obj (.view1D .ten) .d true, .obj (.viewDense .mat) .d false]),
  (.adds_row, [.obj .dense .d true, .obj (.view1D .ten) .d true, .obj (.viewDense .ten) .d false]),
  (.adds_row, [.obj (.viewDense .vec) .d true, .obj .vector .d true, .obj .dense .d false]),
  (.adds_row, [.obj (.viewDense .vec) .d true, .obj .vector .d true, .obj (.viewDense .vec) .d false]),
  (.adds_row, [.obj (.viewDense .vec) .d true, .obj .vector .d true, .obj (.viewDense .mat) .d false]),
  (.adds_row, [.obj (.viewDense .vec) .d true, .obj .vector .d true, .obj (.viewDense .ten) .d false]),
  (.adds_row, [.obj (.viewDense .vec) .d true, .obj (.view1D .vec) .d true, .obj .dense .d false]),
  (.adds_row, [.obj (.viewDense .vec) .d true, .obj (.view1D .vec) .d true, .obj (.viewDense .vec) .d false]),
  (.adds_row, [.obj (.viewDense .vec) .d true, .obj (.view1D .vec) .d true, .obj (.viewDense .mat) .d false]),
  (.adds_row, [.obj (.viewDense .vec) .d true, .obj (.view1D .vec) .d true, .obj (.viewDense .ten) .d false]),
  (.adds_row, [.obj (.viewDense .vec) .d true, .obj (.view1D .mat) .d true, .obj .dense .d false]),
  (.adds_row, [.obj (.viewDense .vec) .d true, .obj (.view1D .mat) .d true, .obj (.viewDense .vec) .d false]),
  (.adds_row, [.obj (.viewDense .vec) .d true, .obj (.view1D .mat) .d true, .obj (.viewDense .mat) .d false]),
  (.adds_row, [.obj (.viewDense .vec) .d true, .obj (.view1D .mat) .d true, .obj (.viewDense .ten) .d false]),
  (.adds_row, [.obj (.viewDense .vec) .d true, .obj (.view1D .ten) .d true, .obj .dense .d false]),
  (.adds_row, [.obj (.viewDense .vec) .d true, .obj (.view1D .ten) .d true, .obj (.viewDense .vec) .d false]),
  (.adds_row, [.obj (.viewDense .vec) .d true, .obj (.view1D .ten) .d true, .obj (.viewDense .mat) .d false]),
  (.adds_row, [.obj (.viewDense .vec) .d true, .obj (.view1D .ten) .d true, .obj (.viewDense .ten) .d false]),
  (.adds_row, [.obj (.viewDense .mat) .d true, .obj .vector .d true, .obj .dense .d false]),
  (.adds_row, [.obj (.viewDense .mat) .d true, .obj .vector .d true, .obj (.viewDense .vec) .d false]),
  (.adds_row, [.obj (.viewDense .mat) .d true, .obj .vector .d true, .obj (.viewDense .mat) .d false]),
  (.adds_row, [.obj (.viewDense .mat) .d true, .obj .vector .d true, .obj (.viewDense .ten) .d false]),
  (.adds_row, [.obj (.viewDense .mat) .d true, .obj (.view1D .vec) .d true, .obj .dense .d false]),
  (.adds_row, [.obj (.viewDense .mat) .d true, .obj (.view1D .vec) .d true, .obj (.viewDense .vec) .d false]),
  (.adds_row, [.obj (.viewDense .mat) .d true, .obj (.view1D .vec) .d true, .obj (.viewDense .mat) .d false]),
  (.adds_row, [.obj (.viewDense .mat) .d true, .obj (.view1D .vec) .d true, .obj (.viewDense .ten) .d false]),
  (.adds_row, [.obj (.viewDense .mat) .d true, .obj (.view1D .mat) .d true, .obj .dense .d false]),
  (.adds_row, [.obj (.viewDense .mat) .d true, .obj (.view1D .mat) .d true, .obj (.viewDense .vec) .d false]),
  (.adds_row, [.obj (.viewDense .mat) .d true, .obj (.view1D .mat) .d true, .obj (.viewDense .mat) .d false]),
  (.adds_row, [.obj (.viewDense .mat) .d true, .obj (.view1D .mat) .d true, .obj (.viewDense .ten) .d false]),
  (.adds_row, [.obj (.viewDense .mat) .d true, .obj (.view1D .ten) .d true, .obj .dense .d false]),
  (.adds_row, [.obj (.viewDense .mat) .d true, .obj (.view1D .ten) .d true, .obj (.viewDense .vec) .d false]),
  (.adds_row, [.obj (.viewDense .mat) .d true, .obj (.view1D .ten) .d true, .obj (.viewDense .mat) .d false]),
  (.adds_row, [.obj (.viewDense .mat) .d true, .obj (.view1D .ten) .d true, .obj (.viewDense .ten) .d false]),
  (.adds_row, [.obj (.viewDense .ten) .d true, .obj .vector .d true, .obj .dense .d false]),
  (.adds_row, [.obj (.viewDense .ten) .d true, .obj .vector .d true, .obj (.viewDense .vec) .d false]),
  (.adds_row, [.obj (.viewDense .ten) .d true, .obj .vector .d true, .obj (.viewDense .mat) .d false]),
  (.adds_row, [.obj (.viewDense .ten) .d true, .obj .vector .d true, .obj (.viewDense .ten) .d false]),
  (.adds_row, [.obj (.viewDense .ten) .d true, .obj (.view1D .vec) .d true, .obj .dense .d false]),
  (.adds_row, [.obj (.viewDense .ten) .d true, .obj (.view1D .vec) .d true, .obj (.viewDense .vec) .d false]),
  (.adds_row, [.obj (.viewDense .ten) .d true, .obj (.view1D .vec) .d true, .obj (.viewDense .mat) .d false]),
  (.adds_row, [.obj (.viewDense .ten) .d true, .obj (.view1D .vec) .d true, .obj (.viewDense .ten) .d false]),
  (.adds_row, [.obj (.viewDense .ten) .d true, .obj (.view1D .mat) .d true, .obj .dense .d false]),
  (.adds_row, [.obj (.viewDense .ten) .d true, .obj (.view1D .mat) .d true, .obj (.viewDense .vec) .d false]),
  (.adds_row, [.obj (.viewDense .ten) .d true, .obj (.view1D .mat) .d true, .obj (.viewDense .mat) .d false]),
  (.adds_row, [.obj (.viewDense .ten) .d true, .obj (.view1D .mat) .d true, .obj (.viewDense .ten) .d false]),
  (.adds_row, [.obj (.viewDense .ten) .d true, .obj (.view1D .ten) .d true, .obj .dense .d false]),
  (.adds_row, [.obj (.viewDense .ten) .d true, .obj (.view1D .ten) .d true, .obj (.viewDense .vec) .d false]),
  (.adds_row, [.obj (.viewDense .ten) .d true, .obj (.view1D .ten) .d true, .obj (.viewDense .mat) .d false]),
  (.adds_row, [.obj (.viewDense .ten) .d true, .obj (.view1D .ten) .d true, .obj (.viewDense .ten) .d false]),
  (.adds_row, [.obj .dense .s true, .obj .vector .s true, .obj .dense .s false]),
  (.adds_row, [.obj .dense .s true, .obj .vector .s true, .obj (.viewDense .vec) .s false]),
  (.adds_row, [.obj .dense .s true, .obj .vector .s true, .obj (.viewDense .mat) .s false]),
  (.adds_row, [.obj .dense .s true, .obj .vector .s true, .obj (.viewDense .ten) .s false]),
  (.adds_row, [.obj .dense .s true, .obj (.view1D .vec) .s true, .obj .dense .s false]),
  (.adds_row, [.obj .dense .s true, .obj (.view1D .vec) .s true, .obj (.viewDense .vec) .s false]),
  (.adds_row, [.obj .dense .s true, .obj (.view1D .vec) .s true, .obj (.viewDense .mat) .s false]),
  (.adds_row, [.obj .dense .s true, .obj (.view1D .vec) .s true, .obj (.viewDense .ten) .s false]),
  (.adds_row, [.obj .dense .s true, .obj (.view1D .mat) .s true, .obj .dense .s false]),
  (.adds_row, [.obj .dense .s true, .obj (.view1D .mat) .s true, .obj (.viewDense .vec) .s false]),
  (.adds_row, [.obj .dense .s true, .obj (.view1D .mat) .s true, .obj (.viewDense .mat) .s false]),
  (.adds_row, [.obj .dense .s true, .obj (.view1D .mat) .s true, .obj (.viewDense .ten) .s false]),
  (.adds_row, [.obj .dense .s true, .obj (.view1D .ten) .s true, .obj .dense .s false]),
  (.adds_row, [.obj .dense .s true, .obj (.view1D .ten) .s true, .obj (.viewDense .vec) .s false]),
  (.adds_row, [.obj .dense .s true, .obj (.view1D .ten) .s true, .obj (.viewDense .mat) .s false]),
  (.adds_row, [.obj .dense .s true, .obj (.view1D .ten) .s true, .obj (.viewDense .ten) .s false])]

/-- the overloads of `tMatAdds_1` that are declared -/
def hMatAdds_1 : List (Fn × List Par) := [
  (.adds_row, [.obj (.viewDense .vec) .s true, .obj .vector .s true, .obj .dense .s false]),
  (.adds_row, [.obj (.viewDense .vec) .s true, .obj .vector .s true, .obj (.viewDense .vec) .s false]),
  (.adds_row, [.obj (.viewDense .vec) .s true, .obj .vector .s true, .obj (.viewDense .mat) .s false]),
  (.adds_row, [.obj (.viewDense .vec) .s true, .obj .vector .s true, .obj (.viewDense .ten) .s false]),
  (.adds_row, [.obj (.viewDense .vec) .s true, .obj (.view1D .vec) .s true, .obj .dense .s false]),
  (.adds_row, [.obj (.viewDense .vec) .s true, .obj (.view1D .vec) .s true, .obj (.viewDense .vec) .s false]),
  (.adds_row, [.obj (.viewDense .vec) .s true, .obj (.view1D .vec) .s true, .obj (.viewDense .mat) .s false]),
  (.adds_row, [.obj (.viewDense .vec) .s true, .obj (.view1D .vec) .s true, .obj (.viewDense .ten) .s false]),
  (.adds_row, [.obj (.viewDense .vec) .s true, .obj (.view1D .mat) .s true, .obj .dense .s false]),
  (.adds_row, [.obj (.viewDense .vec) .s true, .obj (.view1D .mat) .s true, .obj (.viewDense .vec) .s false]),
  (.adds_row, [.obj (.viewDense .vec) .s true, .obj (.view1D .mat) .s true, .obj (.viewDense .mat) .s false]),
  (.adds_row, [.obj (.viewDense .vec) .s true, .obj (.view1D .mat) .s true, .obj (.viewDense .ten) .s false]),
  (.adds_row, [.obj (.viewDense .vec) .s true, .obj (.view1D .ten) .s true, .obj .dense .s false]),
  (.adds_row, [.obj (.viewDense .vec) .s true, .obj (.view1D .ten) .s true, .obj (.viewDense .vec) .s false]),
  (.adds_row, [.obj (.viewDense .vec) .s true, .obj (.view1D .ten) .s true, .obj (.viewDense .mat) .s false]),
  (.adds_row, [.obj (.viewDense .vec) .s true, .obj (.view1D .ten) .s true, .obj (.viewDense .ten) .s false]),
  (.adds_row, [.obj (.viewDense .mat) .s true, .obj .vector .s true, .obj .dense .s false]),
  (.adds_row, [.obj (.viewDense .mat) .s true, .obj .vector .s true, .obj (.viewDense .vec) .s false]),
  (.adds_row, [.obj (.viewDense .mat) .s true, .obj .vector .s true, .obj (.viewDense .mat) .s false]),
  (.adds_row, [.obj (.viewDense .mat) .s true, .obj .vector .s true, .obj (.viewDense .ten) .s false]),
  (.adds_row, [.obj (.viewDense .mat) .s true, .obj (.view1D .vec) .s true, .obj .dense .s false]),
  (.adds_row, [.obj (.viewDense .mat) .s true, .obj (.view1D .vec) .s true, .obj (.viewDense .vec) .s false]),
  (.adds_row, [.obj (.viewDense .mat) .s true, .obj (.view1D .vec) .s true, .obj (.viewDense .mat) .s false]),
  (.adds_row, [.obj (.viewDense .mat) .s true, .obj (.view1D .vec) .s true, .obj (.viewDense .ten) .s false]),
  (.adds_row, [.obj (.viewDense .mat) .s true, .obj (.view1D .mat) .s true, .obj .dense .s false]),
  (.adds_row, [.obj (.viewDense .mat) .s true, .obj (.view1D .mat) .s true, .obj (.viewDense .vec) .s false]),
  (.adds_row, [.obj (.viewDense .mat) .s true, .obj (.view1D .mat) .s true, .obj (.viewDense .mat) .s false]),
  (.adds_row, [.obj (.viewDense .mat) .s true, .obj (.view1D .mat) .s true, .obj (.viewDense .ten) .s false]),
  (.adds_row, [.obj (.viewDense .mat) .s true, .obj (.view1D .ten) .s true, .obj .dense .s false]),
  (.adds_row, [.obj (.viewDense .mat) .s true, .obj (.view1D .ten) .s true, .obj (.viewDense .vec) .s false]),
  (.adds_row, [.obj (.viewDense .mat) .s true, .obj (.view1D .ten) .s true, .obj (.viewDense .mat) .s false]),
  (.adds_row, [.obj (.viewDense .mat) .s true, .obj (.view1D .ten) .s true, .obj (.viewDense .ten) .s false]),
  (.adds_row, [.obj (.viewDense .ten) .s true, .obj .vector .s true, .obj .dense .s false]),
  (.adds_row, [.obj (.viewDense .ten) .s true, .obj .vector .s true, .obj (.viewDense .vec) .s false]),
  (.adds_row, [.obj (.viewDense .ten) .s true, .obj .vector .s true, .obj (.viewDense .mat) .s false]),
  (.adds_row, [.obj (.viewDense .ten) .s true, .obj .vector .s true, .obj (.viewDense .ten) .s false]),
  (.adds_row, [.obj (.viewDense .ten) .s true, .obj (.view1D .vec) .s true, .obj .dense .s false]),
  (.adds_row, [.obj (.viewDense .ten) .s true, .obj (.view1D .vec) .s true, .obj (.viewDense .vec) .s false]),
  (.adds_row, [.obj (.viewDense .ten) .s true, .obj (.view1D .vec) .s true, .obj (.viewDense .mat) .s false]),
  (.adds_row, [.obj (.viewDense .ten) .s true, .obj (.view1D .vec) .s true, .obj (.viewDense .ten) .s false]),
  (.adds_row, [.obj (.viewDense .ten) .s true, .obj (.view1D .mat) .s true, .obj .dense .s false]),
  (.adds_row, [.obj (.viewDense .ten) .s true, .obj (.view1D .mat) .s true, .obj (.viewDense .vec) .s false]),
  (.adds_row, [.obj (.viewDense .ten) .s true, .obj (.view1D .mat) .s true, .obj (.viewDense .mat) .s false]),
  (.adds_row, [.obj (.viewDense .ten) .s true, .obj (.view1D .mat) .s true, .obj (.viewDense .ten) .s false]),
  (.adds_row, [.obj (.viewDense .ten) .s true, .obj (.view1D .ten) .s true, .obj .dense .s false]),
  (.adds_row, [.obj (.viewDense .ten) .s true, .obj (.view1D .ten) .s true, .obj (.viewDense .vec) .s false]),
  (.adds_row, [.obj (.viewDense .ten) .s true, .obj (.view1D .ten) .s true, .obj (.viewDense .mat) .s false]),
  (.adds_row, [.obj (.viewDense .ten) .s true, .obj (.view1D .ten) .s true, .obj (.viewDense .ten) .s false]),
  (.adds_col, [.obj .dense .d true, .obj .vector .d true, .obj .dense .d false]),
  (.adds_col, [.obj .dense .d true, .obj .vector .d true, .obj (.viewDense .vec) .d false]),
  (.adds_col, [.obj .dense .d true, .obj .vector .d true, .obj (.viewDense .mat) .d false]),
  (.adds_col, [.obj .dense .d true, .obj .vector .d true, .obj (.viewDense .ten) .d false]),
  (.adds_col, [.obj .dense .d true, .obj (.view1D .vec) .d true, .obj .dense .d false]),
  (.adds_col, [.obj .dense .d true, .obj (.view1D .vec) .d true, .obj (.viewDense .vec) .d false]),
  (.adds_col, [.obj .dense .d true, .obj (.view1D .vec) .d true, .obj (.viewDense .mat) .d false]),
  (.adds_col, [.obj .dense .d true, .obj (.view1D .vec) .d true, .obj (.viewDense .ten) .d false]),
  (.adds_col, [.obj .dense .d true, .obj (.view1D .mat) .d true, .obj .dense .d false]),
  (.adds_col, [.obj .dense .d true, .obj (.view1D .mat) .d true, .obj (.viewDense .vec) .d false]),
  (.adds_col, [.obj .dense .d true, .obj (.view1D .mat) .d true, .obj (.viewDense .mat) .d false]),
  (.adds_col, [.obj .dense .d true, .obj (.view1D .mat) .d true, .obj (.viewDense .ten) .d false]),
  (.adds_col, [.obj .dense .d true, .obj (.view1D .ten) .d true, .obj .dense .d false]),
  (.adds_col, [.obj .dense .d true, .obj (.view1D .ten) .d true, .obj (.viewDense .vec) .d false]),
  (.adds_col, [.obj .dense .d true, .obj (.view1D .ten) .d true, .obj (.viewDense .mat) .d false]),
  (.adds_col, [.obj .dense .d true, .obj (.view1D .ten) .d true, .obj (.viewDense .ten) .d false]),
  (.adds_col, [.obj (.viewDense .vec) .d true, .obj .vector .d true, .obj .dense .d false]),
  (.adds_col, [.obj (.viewDense .vec) .d true, .obj .vector .d true, .obj (.viewDense .vec) .d false]),
  (.adds_col, [.obj (.viewDense .vec) .d true, .obj .vector .d true, .obj (.viewDense .mat) .d false]),
  (.adds_col, [.obj (.viewDense .vec) .d true, .obj .vector .d true, .obj (.viewDense .ten) .d false]),
  (.adds_col, [.obj (.viewDense .vec) .d true, .obj (.view1D .vec) .d true, .obj .dense .d false]),
  (.adds_col, [.obj (.viewDense .vec) .d true, .obj (.view1D .vec) .d true, .obj (.viewDense .vec) .d false]),
  (.adds_col, [.obj (.viewDense .vec) .d true, .obj (.view1D .vec) .d true, .obj (.viewDense .mat) .d false]),
  (.adds_col, [.obj (.viewDense .vec) .d true, .obj (.view1D .vec) .d true, .obj (.viewDense .ten) .d false]),
  (.adds_col, [.obj (.viewDense .vec) .d true, .obj (.view1D .mat) .d true, .obj .dense .d false]),
  (.adds_col, [.obj (.viewDense .vec) .d true, .obj (.view1D .mat) .d true, .obj (.viewDense .vec) .d false]),
  (.adds_col, [.obj (.viewDense .vec) .d true, .obj (.view1D .mat) .d true, .obj (.viewDense .mat) .d false]),
  (.adds_col, [.obj (.viewDense .vec) .d true, .obj (.view1D .mat) .d true, .obj (.viewDense .ten) .d false]),
  (.adds_col, [.obj (.viewDense .vec) .d true, .obj (.view1D .ten) .d true, .obj .dense .d false]),
  (.adds_col, [.obj (.viewDense .vec) .d true, .obj (.view1D .ten) .d true, .obj (.viewDense .vec) .d false]),
  (.adds_col, [.obj (.viewDense .vec) .d true, .obj (.view1D .ten) .d true, .obj (.viewDense .mat) .d false]),
  (.adds_col, [.obj (.viewDense .vec) .d true, .obj (.view1D .ten) .d true, .obj (.viewDense .ten) .d false])]

/-- the overloads of `tMatAdds_2` that are declared -/
def hMatAdds_2 : List (Fn × List Par) := [
  (.adds_col, [.obj (.viewDense .mat) .d true, .obj .vector .d true, .obj .dense .d false]),
  (.adds_col, [.obj (.viewDense .mat) .d true, .obj .vector .d true, .obj (.viewDense .vec) .d false]),
  (.adds_col, [.obj (.viewDense .mat) .d true, .obj .vector .d true, .obj (.viewDense .mat) .d false]),
  (.adds_col, [.obj (.viewDense .mat) .d true, .obj .vector .d true, .obj (.viewDense .ten) .d false]),
  (.adds_col, [.obj (.viewDense .mat) .d true, .obj (.view1D .vec) .d true, .obj .dense .d false]),
  (.adds_col, [.obj (.viewDense .mat) .d true, .obj (.view1D .vec) .d true, .obj (.viewDense .vec) .d false]),
  (.adds_col, [.obj (.viewDense .mat) .d true, .obj (.view1D .vec) .d true, .obj (.viewDense .mat) .d false]),
  (.adds_col, [.obj (.viewDense .mat) .d true, .obj (.view1D .vec) .d true, .obj (.viewDense .ten) .d false]),
  (.adds_col, [.obj (.viewDense .mat) .d true, .obj (.view1D .mat) .d true, .obj .dense .d false]),
  (.adds_col, [.obj (.viewDense .mat) .d true, .obj (.view1D .mat) .d true, .obj (.viewDense .vec) .d false]),
  (.adds_col, [.obj (.viewDense .mat) .d true, .obj (.view1D .mat) .d true, .obj (.viewDense .mat) .d false]),
  (.adds_col, [.obj (.viewDense .mat) .d true, .obj (.view1D .mat) .d true, .obj (.viewDense .ten) .d false]),
  (.adds_col, [.obj (.viewDense .mat) .d true, .obj (.view1D .ten) .d true, .obj .dense .d false]),
  (.adds_col, [.obj (.viewDense .mat) .d true, .obj (.view1D .ten) .d true, .obj (.viewDense .vec) .d false]),
  (.adds_col, [.obj (.viewDense .mat) .d true, .obj (.view1D .ten) .d true, .obj (.viewDense .mat) .d false]),
  (.adds_col, [.obj (.viewDense .mat) .d true, .obj (.view1D .ten) .d true, .obj (.viewDense .ten) .d false]),
  (.adds_col, [.obj (.viewDense .ten) .d true, .obj .vector .d true, .obj .dense .d false]),
  (.adds_col, [.obj (.viewDense .ten) .d true, .obj .vector .d true, .obj (.viewDense .vec) .d false]),
  (.adds_col, [.obj (.viewDense .ten) .d true, .obj .vector .d true, .obj (.viewDense .mat) .d false]),
  (.adds_col, [.obj (.viewDense .ten) .d true, .obj .vector .d true, .obj (.viewDense .ten) .d false]),
  (.adds_col, [.obj (.viewDense .ten) .d true, .obj (.view1D .vec) .d true, .obj .dense .d false]),
  (.adds_col, [.obj (.viewDense .ten) .d true, .obj (.view1D .vec) .d true, .obj (.viewDense .vec) .d false]),
  (.adds_col, [.obj (.viewDense .ten) .d true, .obj (.view1D .vec) .d true, .obj (.viewDense .mat) .d false]),
  (.adds_col, [.obj (.viewDense .ten) .d true, .obj (.view1D .vec) .d true, .obj (.viewDense .ten) .d false]),
  (.adds_col, [.obj (.viewDense .ten) .d true, .obj (.view1D .mat) .d true, .obj .dense .d false]),
  (.adds_col, [.obj (.viewDense .ten) .d true, .obj (.view1D .mat) .d true, .obj (.viewDense .vec) .d false]),
  (.adds_col, [.obj (.viewDense .ten) .d true, .obj (.view1D .mat) .d true, .obj (.viewDense .mat) .d false]),
  (.adds_col, [.obj (.viewDense .ten) .d true, .obj (.view1D .mat) .d true, .obj (.viewDense .ten) .d false]),
  (.adds_col, [.obj (.viewDense .ten) .d true, .obj (.view1D .ten) .d true, .obj .dense .d false]),
  (.adds_col, [.obj (.viewDense .ten) .d true, .obj (.view1D .ten) .d true, .obj (.viewDense .vec) .d false]),
  (.adds_col, [.obj (.viewDense .ten) .d true, .obj (.view1D .ten) .d true, .obj (.viewDense .mat) .d false]),
  (.adds_col, [.obj (.viewDense .ten) .d true, .obj (.view1D .ten) .d true, .obj (.viewDense .ten) .d false]),
  (.adds_col, [.obj .dense .s true, .obj .vector .s true, .obj .dense .s false]),
  (.adds_col, [.obj .dense .s true, .obj .vector .s true, .obj (.viewDense .vec) .s false]),
  (.adds_col, [.obj .dense .s true, .obj .vector .s true, .obj (.viewDense .mat) .s false]),
  (.adds_col, [.obj .dense .s true, .obj .vector .s true, .obj (.viewDense .ten) .s false]),
  (.adds_col, [.obj .dense .s true, .obj (.view1D .vec) .s true, .obj .dense .s false]),
  (.adds_col, [.obj .dense .s true, .obj (.view1D .vec) .s true, .obj (.viewDense .vec) .s false]),
  (.adds_col, [.obj .dense .s true, .obj (.view1D .vec) .s true, .obj (.viewDense .mat) .s false]),
  (.adds_col, [.obj .dense .s true, .obj (.view1D .vec) .s true, .obj (.viewDense .ten) .s false]),
  (.adds_col, [.obj .dense .s true, .obj (.view1D .mat) .s true, .obj .dense .s false]),
  (.adds_col, [.obj .dense .s true, .obj (.view1D .mat) .s true, .obj (.viewDense .vec) .s false]),
  (.adds_col, [.obj .dense .s true, .obj (.view1D .mat) .s true, .obj (.viewDense .mat) .s false]),
  (.adds_col, [.obj .dense .s true, .obj (.view1D .mat) .s true, .obj (.viewDense .ten) .s false]),
  (.adds_col, [.obj .dense .s true, .obj (.view1D .ten) .s true, .obj .dense .s false]),
  (.adds_col, [.obj .dense .s true, .obj (.view1D .ten) .s true, .obj (.viewDense .vec) .s false]),
  (.adds_col, [.obj .dense .s true, .obj (.view1D .ten) .s true, .obj (.viewDense .mat) .s false]),
  (.adds_col, [.obj .dense .s true, .obj (.view1D .ten) .s true, .obj (.viewDense .ten) .s false]),
  (.adds_col, [.obj (.viewDense .vec) .s true, .obj .vector .s true, .obj .dense .s false]),
  (.adds_col, [.obj (.viewDense .vec) .s true, .obj .vector .s true, .obj (.viewDense .vec) .s false]),
  (.adds_col, [.obj (.viewDense .vec) .s true, .obj .vector .s true, .obj (.viewDense .mat) .s false]),
  (.adds_col, [.obj (.viewDense .vec) .s true, .obj .vector .s true, .obj (.viewDense .ten) .s false]),
  (.adds_col, [.obj (.viewDense .vec) .s true, .obj (.view1D .vec) .s true, .obj .dense .s false]),
  (.adds_col, [.obj (.viewDense .vec) .s true, .obj (.view1D .vec) .s true, .obj (.viewDense .vec) .s false]),
  (.adds_col, [.obj (.viewDense .vec) .s true, .obj (.view1D .vec) .s true, .obj (.viewDense .mat) .s false]),
  (.adds_col, [.obj (.viewDense .vec) .s true, .obj (.view1D .vec) .s true, .obj (.viewDense .ten) .s false]),
  (.adds_col, [.obj (.viewDense .vec) .s true, .obj (.view1D .mat) .s true, .obj .dense .s false]),
  (.adds_col, [.obj (.viewDense .vec) .s true, .obj (.view1D .mat) .s true, .obj (.viewDense .vec) .s false]),
  (.adds_col, [.obj (.viewDense .vec) .s true, .obj (.view1D .mat) .s true, .obj (.viewDense .mat) .s false]),
  (.adds_col, [.obj (.viewDense .vec) .s true, .obj (.view1D .mat) .s true, .obj (.viewDense .ten) .s false]),
  (.adds_col, [.obj (.viewDense .vec) .s true, .obj (.view1D .ten) .s true, .obj .dense .s false]),
  (.adds_col, [.obj (.viewDense .vec) .s true, .obj (.view1D .ten) .s true, .obj (.viewDense .vec) .s false]),
  (.adds_col, [.obj (.viewDense .vec) .s true, .obj (.view1D .ten) .s true, .obj (.viewDense .mat) .s false]),
  (.adds_col, [.obj (.viewDense .vec) .s true, .obj (.view1D .ten) .s true, .obj (.viewDense .ten) .s false]),
  (.adds_col, [.obj (.viewDense .mat) .s true, .obj .vector .s true, .obj .dense .s false]),
  (.adds_col, [.obj (.viewDense .mat) .s true, .obj .vector .s true, .obj (.viewDense .vec) .s false]),
  (.adds_col, [.obj (.viewDense .mat) .s true, .obj .vector .s true, .obj (.viewDense .mat) .s false]),
  (.adds_col, [.obj (.viewDense .mat) .s true, .obj .vector .s true, .obj (.viewDense .ten) .s false]),
  (.adds_col, [.obj (.viewDense .mat) .s true, .obj (.view1D .vec) .s true, .obj .dense .s false]),
  (.adds_col, [.obj (.viewDense .mat) .s true, .obj (.view1D .vec) .s true, .obj (.viewDense .vec) .s false]),
  (.adds_col, [.obj (.viewDense .mat) .s true, .obj (.view1D .vec) .s true, .obj (.viewDense .mat) .s false]),
  (.adds_col, [.obj (.viewDense .mat) .s true, .obj (.view1D .vec) .s true, .obj (.viewDense .ten) .s false]),
  (.adds_col, [.obj (.viewDense .mat) .s true, .obj (.view1D .mat) .s true, .obj .dense .s false]),
  (.adds_col, [.obj (.viewDense .mat) .s true, .obj (.view1D .mat) .s true, .obj (.viewDense .vec) .s false]),
  (.adds_col, [.obj (.viewDense .mat) .s true, .obj (.view1D .mat) .s true, .obj (.viewDense .mat) .s false]),
  (.adds_col, [.obj (.viewDense .mat) .s true, .obj (.view1D .mat) .s true, .obj (.viewDense .ten) .s false]),
  (.adds_col, [.obj (.viewDense .mat) .s true, .obj (.view1D .ten) .s true, .obj .dense .s false]),
  (.adds_col, [.obj (.viewDense .mat) .s true, .obj (.view1D .ten) .s true, .obj (.viewDense .vec) .s false]),
  (.adds_col, [.obj (.viewDense .mat) .s true, .obj (.view1D .ten) .s true, .obj (.viewDense .mat) .s false]),
  (.adds_col, [.obj (.viewDense .mat) .s true, .obj (.view1D .ten) .s true, .obj (.viewDense .ten) .s false])]

/-- the overloads of `tMatAdds_3` that are declared -/
def hMatAdds_3 : List (Fn × List Par) := [
  (.adds_col, [.obj (.viewDense .ten) .s true, .obj .vector .s true, .obj .dense .s false]),
  (.adds_col, [.obj (.viewDense .ten) .s true, .obj .vector .s true, .obj (.viewDense .vec) .s false]),
  (.adds_col, [.obj (.viewDense .ten) .s true, .obj .vector .s true, .obj (.viewDense .mat) .s false]),
  (.adds_col, [.obj (.viewDense .ten) .s true, .obj .vector .s true, .obj (.viewDense .ten) .s false]),
  (.adds_col, [.obj (.viewDense .ten) .s true, .obj (.view1D .vec) .s true, .obj .dense .s false]),
  (.adds_col, [.obj (.viewDense .ten) .s true, .obj (.view1D .vec) .s true, .obj (.viewDense .vec) .s false]),
  (.adds_col, [.obj (.viewDense .ten) .s true, .obj (.view1D .vec) .s true, .obj (.viewDense .mat) .s false]),
  (.adds_col, [.obj (.viewDense .ten) .s true, .obj (.view1D .vec) .s true, .obj (.viewDense .ten) .s false]),
  (.adds_col, [.obj (.viewDense .ten) .s true, .obj (.view1D .mat) .s true, .obj .dense .s false]),
  (.adds_col, [.obj (.viewDense .ten) .s true, .obj (.view1D .mat) .s true, .obj (.viewDense .vec) .s false]),
  (.adds_col, [.obj (.viewDense .ten) .s true, .obj (.view1D .mat) .s true, .obj (.viewDense .mat) .s false]),
  (.adds_col, [.obj (.viewDense .ten) .s true, .obj (.view1D .mat) .s true, .obj (.viewDense .ten) .s false]),
  (.adds_col, [.obj (.viewDense .ten) .s true, .obj (.view1D .ten) .s true, .obj .dense .s false]),
  (.adds_col, [.obj (.viewDense .ten) .s true, .obj (.view1D .ten) .s true, .obj (.viewDense .vec) .s false]),
  (.adds_col, [.obj (.viewDense .ten) .s true, .obj (.view1D .ten) .s true, .obj (.viewDense .mat) .s false]),
  (.adds_col, [.obj (.viewDense .ten) .s true, .obj (.view1D .ten) .s true, .obj (.viewDense .ten) .s false]),
  (.adds_row, [.obj .dense .d true, .num, .obj .vector .d true, .obj .dense .d false]),
  (.adds_row, [.obj .dense .d true, .num, .obj .vector .d true, .obj (.viewDense .vec) .d false]),
  (.adds_row, [.obj .dense .d true, .num, .obj .vector .d true, .obj (.viewDense .mat) .d false]),
  (.adds_row, [.obj .dense .d true, .num, .obj .vector .d true, .obj (.viewDense .ten) .d false]),
  (.adds_row, [.obj .dense .d true, .num, .obj (.view1D .vec) .d true, .obj .dense .d false]),
  (.adds_row, [.obj .dense .d true, .num, .obj (.view1D .vec) .d true, .obj (.viewDense .vec) .d false]),
  (.adds_row, [.obj .dense .d true, .num, .obj (.view1D .vec) .d true, .obj (.viewDense .mat) .d false]),
  (.adds_row, [.obj .dense .d true, .num, .obj (.view1D .vec) .d true, .obj (.viewDense .ten) .d false]),
  (.adds_row, [.obj .dense .d true, .num, .obj (.view1D .mat) .d true, .obj .dense .d false]),
  (.adds_row, [.obj .dense .d true, .num, .obj (.view1D .mat) .d true, .obj (.viewDense .vec) .d false]),
  (.adds_row, [.obj .dense .d true, .num, .obj (.view1D .mat) .d true, .obj (.viewDense .mat) .d false]),
  (.adds_row, [.obj .dense .d true, .num, .obj (.view1D .mat) .d true, .obj (.viewDense .ten) .d false]),
  (.adds_row, [.obj .dense .d true, .num, .obj (.view1D .ten) .d true, .obj .dense .d false]),
  (.adds_row, [.obj .dense .d true, .num, .obj (.view1D .ten) .d true, .obj (.viewDense .vec) .d false]),
  (.adds_row, [.obj .dense .d true, .num, .obj (.view1D .ten) .d true, .obj (.viewDense .mat) .d false]),
  (.adds_row, [.obj .dense .d true, .num, .obj (.view1D .ten) .d true, .obj (.viewDense .ten) .d false]),
  (.adds_row, [.obj (.viewDense .vec) .d true, .num, .obj .vector .d true, .obj .dense .d false]),
  (.adds_row, [.obj (.viewDense .vec) .d true, .num, .obj .vector .d true, .obj (.viewDense .vec) .d false]),
  (.adds_row, [.obj (.viewDense .vec) .d true, .num, .obj .vector .d true, .obj (.viewDense .mat) .d false]),
  (.adds_row, [.obj (.viewDense .vec) .d true, .num, .obj .vector .d true, .obj (.viewDense .ten) .d false]),
  (.adds_row, [.obj (.viewDense .vec) .d true, .num, .obj (.view1D .vec) .d true, .obj .dense .d false]),
  (.adds_row, [.obj (.viewDense .vec) .d true, .num, .obj (.view1D .vec) .d true, .obj (.viewDense .vec) .d false]),
  (.adds_row, [.obj (.viewDense .vec) .d true, .num, .obj (.view1D .vec) .d true, .obj (.viewDense .mat) .d false]),
  (.adds_row, [.obj (.viewDense .vec) .d true, .num, .obj (.view1D .vec) .d true, .obj (.viewDense .ten) .d false]),
  (.adds_row, [.obj (.viewDense .vec) .d true, .num, .obj (.view1D .mat) .d true, .obj .dense .d false]),
  (.adds_row, [.obj (.viewDense .vec) .d true, .num, .obj (.view1D .mat) .d true, .obj (.viewDense .vec) .d false]),
  (.adds_row, [.obj (.viewDense .vec) .d true, .num, .obj (.view1D .mat) .d true, .obj (.viewDense .mat) .d false]),
  (.adds_row, [.obj (.viewDense .vec) .d true, .num, .obj (.view1D .mat) .d true, .obj (.viewDense .ten) .d false]),
  (.adds_row, [.obj (.viewDense .vec) .d true, .num, .obj (.view1D .ten) .d true, .obj .dense .d false]),
  (.adds_row, [.obj (.viewDense .vec) .d true, .num, .obj (.view1D .ten) .d true, .obj (.viewDense .vec) .d false]),
  (.adds_row, [.obj (.viewDense .vec) .d true, .num, .obj (.view1D .ten) .d true, .obj (.viewDense .mat) .d false]),
  (.adds_row, [.obj (.viewDense .vec) .d true, .num, .obj (.view1D .ten) .d true, .obj (.viewDense .ten) .d false]),
  (.adds_row, [.obj (.viewDense .mat) .d true, .num, .obj .vector .d true, .obj .dense .d false]),
  (.adds_row, [.obj (.viewDense .mat) .d true, .num, .obj .vector .d true, .obj (.viewDense .vec) .d false]),
  (.adds_row, [.obj (.viewDense .mat) .d true, .num, .obj .vector .d true, .obj (.viewDense .mat) .d false]),
  (.adds_row, [.obj (.viewDense .mat) .d true, .num, .obj .vector .d true, .obj (.viewDense .ten) .d false]),
  (.adds_row, [.obj (.viewDense .mat) .d true, .num, .obj (.view1D .vec) .d true, .obj .dense .d false]),
  (.adds_row, [.obj (.viewDense .mat) .d true, .num, .obj (.view1D .vec) .d true, .obj (.viewDense .vec) .d false]),
  (.adds_row, [.obj (.viewDense .mat) .d true, .num, .obj (.view1D .vec) .d true, .obj (.viewDense .mat) .d false]),
  (.adds_row, [.obj (.viewDense .mat) .d true, .num, .obj (.view1D .vec) .d true, .obj (.viewDense .ten) .d false]),
  (.adds_row, [.obj (.viewDense .mat) .d true, .num, .obj (.view1D .mat) .d true, .obj .dense .d false]),
  (.adds_row, [.obj (.viewDense .mat) .d true, .num, .obj (.view1D .mat) .d true, .obj (.viewDense .vec) .d false]),
  (.adds_row, [.obj (.viewDense .mat) .d true, .num, .obj (.view1D .mat) .d true, .obj (.viewDense .mat) .d false]),
  (.adds_row, [.obj (.viewDense .mat) .d true, .num, .obj (.view1D .mat) .d true, .obj (.viewDense .ten) .d false]),
  (.adds_row, [.obj (.viewDense .mat) .d true, .num, .obj (.view1D .ten) .d true, .obj .dense .d false]),
  (.adds_row, [.obj (.viewDense .mat) .d true, .num, .obj (.view1D .ten) .d true, .obj (.viewDense .vec) .d false]),
  (.adds_row, [.obj (.viewDense .mat) .d true, .num, .obj (.view1D .ten) .d true, .obj (.viewDense .mat) .d false]),
  (.adds_row, [.obj (.viewDense .mat) .d true, .num, .obj (.view1D .ten) .d true, .obj (.viewDense .ten) .d false]),
  (.adds_row, [.obj (.viewDense .ten) .d true, .num, .obj .vector .d true, .obj .dense .d false]),
  (.adds_row, [.obj (.viewDense .ten) .d true, .num, .obj .vector .d true, .obj (.viewDense .vec) .d false]),
  (.adds_row, [.obj (.viewDense .ten) .d true, .num, .obj .vector .d true, .obj (.viewDense .mat) .d false]),
  (.adds_row, [.obj (.viewDense .ten) .d true, .num, .obj .vector .d true, .obj (.viewDense .ten) .d false]),
  (.adds_row, [.obj (.viewDense .ten) .d true, .num, .obj (.view1D .vec) .d true, .obj .dense .d false]),
  (.adds_row, [.obj (.viewDense .ten) .d true, .num, .obj (.view1D .vec) .d true, .obj (.viewDense .vec) .d false]),
  (.adds_row, [.obj (.viewDense .ten) .d true, .num, .obj (.view1D .vec) .d true, .obj (.viewDense .mat) .d false]),
  (.adds_row, [.obj (.viewDense .ten) .d true, .num, .obj (.view1D .vec) .d true, .obj (.viewDense .ten) .d false]),
  (.adds_row, [.obj (.viewDense .ten) .d true, .num, .obj (.view1D .mat) .d true, .obj .dense .d false]),
  (.adds_row, [.obj (.viewDense .ten) .d true, .num, .obj (.view1D .mat) .d true, .obj (.viewDense .vec) .d false]),
  (.adds_row, [.obj (.viewDense .ten) .d true, .num, .obj (.view1D .mat) .d true, .obj (.viewDense .mat) .d false]),
  (.adds_row, [.obj (.viewDense .ten) .d true, .num, .obj (.view1D .mat) .d true, .obj (.viewDense .ten) .d false]),
  (.adds_row, [.obj (.viewDense .ten) .d true, .num, .obj (.view1D .ten) .d true, .obj .dense .d false]),
  (.adds_row, [.obj (.viewDense .ten) .d true, .num, .obj (.view1D .ten) .d true, .obj (.viewDense .vec) .d false]),
  (.adds_row, [.obj (.viewDense .ten) .d true, .num, .obj (.view1D .ten) .d true, .obj (.viewDense .mat) .d false]),
  (.adds_row, [.obj (.viewDense .ten) .d true, .num, .obj (.view1D .ten) .d true, .obj (.viewDense .ten) .d false])]

/-- the overloads of `tMatAdds_4` that are declared -/
def hMatAdds_4 : List (Fn × List Par) := [
  (.adds_row, [.obj .dense .s true, .num, .obj .vector .s true, .obj .dense .s false]),
  (.adds_row, [.obj .dense .s true, .num, .obj .vector .s true, .obj (.viewDense .vec) .s false]),
  (.adds_row, [.obj .dense .s true, .num, .obj .vector .s true, .obj (.viewDense .mat) .s false]),
  (.adds_row, [.obj .dense .s true, .num, .obj .vector .s true, .obj (.viewDense .ten) .s false]),
  (.adds_row, [.obj .dense .s true, .num, .obj (.view1D .vec) .s true, .obj .dense .s false]),
  (.adds_row, [.obj .dense .s true, .num, .obj (.view1D .vec) .s true, .obj (.viewDense .vec) .s false]),
  (.adds_row, [.obj .dense .s true, .num, .obj (.view1D .vec) .s true, .obj (.viewDense .mat) .s false]),
  (.adds_row, [.obj .dense .s true, .num, .obj (.view1D .vec) .s true, .obj (.viewDense .ten) .s false]),
  (.adds_row, [.obj .dense .s true, .num, .obj (.view1D .mat) .s true, .obj .dense .s false]),
  (.adds_row, [.obj .dense .s true, .num, .obj (.view1D .mat) .s true, .obj (.viewDense .vec) .s false]),
  (.adds_row, [.obj .dense .s true, .num, .obj (.view1D .mat) .s true, .obj (.viewDense .mat) .s false]),
  (.adds_row, [.obj .dense .s true, .num, .obj (.view1D .mat) .s true, .obj (.viewDense .ten) .s false]),
  (.adds_row, [.obj .dense .s true, .num, .obj (.view1D .ten) .s true, .obj .dense .s false]),
  (.adds_row, [.obj .dense .s true, .num, .obj (.view1D .ten) .s true, .obj (.viewDense .vec) .s false]),
  (.adds_row, [.obj .dense .s true, .num, .obj (.view1D .ten) .s true, .obj (.viewDense .mat) .s false]),
  (.adds_row, [.obj .dense .s true, .num, .obj (.view1D .ten) .s true, .obj (.viewDense .ten) .s false]),
  (.adds_row, [.obj (.viewDense .vec) .s true, .num, .obj .vector .s true, .obj .dense .s false]),
  (.adds_row, [.obj (.viewDense .vec) .s true, .num, .obj .vector .s true, .obj (.viewDense .vec) .s false]),
  (.adds_row, [.obj (.viewDense .vec) .s true, .num, .obj .vector .s true, .obj (.viewDense .mat) .s false]),
  (.adds_row, [.obj (.viewDense .vec) .s true, .num, .obj .vector .s true, .obj (.viewDense .ten) .s false]),
  (.adds_row, [.obj (.viewDense .vec) .s true, .num, .obj (.view1D .vec) .s true, .obj .dense .s false]),
  (.adds_row, [.obj (.viewDense .vec) .s true, .num, .obj (.view1D .vec) .s true, .obj (.viewDense .vec) .s false]),
  (.adds_row, [.obj (.viewDense .vec) .s true, .num, .obj (.view1D .vec) .s true, .obj (.viewDense .mat) .s false]),
  (.adds_row, [.obj (.viewDense .vec) .s true, .num, .obj (.view1D .vec) .s true, .obj (.viewDense .ten) .s false]),
  (.adds_row, [.obj (.viewDense .vec) .s true, .num, .obj (.view1D .mat) .s true, .obj .dense .s false]),
  (.adds_row, [.obj (.viewDense .vec) .s true, .num, .obj (.view1D .mat) .s true, .obj (.viewDense .vec) .s false]),
  (.adds_row, [.obj (.viewDense .vec) .s true, .num, .obj (.view1D .mat) .s true, .obj (.viewDense .mat) .s false]),
  (.adds_row, [.obj (.viewDense .vec) .s true, .num, .obj (.view1D .mat) .s true, .obj (.viewDense .ten) .s false]),
  (.adds_row, [.obj (.viewDense .vec) .s true, .num, .obj (.view1D .ten) .s true, .obj .dense .s false]),
  (.adds_row, [.obj (.viewDense .vec) .s true, .num, .obj (.view1D .ten) .s true, .obj (.viewDense .vec) .s false]),
  (.adds_row, [.obj (.viewDense .vec) .s true, .num, .obj (.view1D .ten) .s true, .obj (.viewDense .mat) .s false]),
  (.adds_row, [.obj (.viewDense .vec) .s true, .num, .obj (.view1D .ten) .s true, .obj (.viewDense .ten) .s false]),
  (.adds_row, [.obj (.viewDense .mat) .s true, .num, .obj .vector .s true, .obj .dense .s false]),
  (.adds_row, [.obj (.viewDense .mat) .s true, .num, .obj .vector .s true, .obj (.viewDense .vec) .s false]),
  (.adds_row, [.obj (.viewDense .mat) .s true, .num, .obj .vector .s true, .obj (.viewDense .mat) .s false]),
  (.adds_row, [.obj (.viewDense .mat) .s true, .num, .obj .vector .s true, .obj (.viewDense .ten) .s false]),
  (.adds_row, [.obj (.viewDense .mat) .s true, .num, .obj (.view1D .vec) .s true, .obj .dense .s false]),
  (.adds_row, [.obj (.viewDense .mat) .s true, .num, .obj (.view1D .vec) .s true, .obj (.viewDense .vec) .s false]),
  (.adds_row, [.obj (.viewDense .mat) .s true, .num, .obj (.view1D .vec) .s true, .obj (.viewDense .mat) .s false]),
  (.adds_row, [.obj (.viewDense .mat) .s true, .num, .obj (.view1D .vec) .s true, .obj (.viewDense .ten) .s false]),
  (.adds_row, [.obj (.viewDense .mat) .s true, .num, .obj (.view1D .mat) .s true, .obj .dense .s false]),
  (.adds_row, [.obj (.viewDense .mat) .s true, .num, .obj (.view1D .mat) .s true, .obj (.viewDense .vec) .s false]),
  (.adds_row, [.obj (.viewDense .mat) .s true, .num, .obj (.view1D .mat) .s true, .obj (.viewDense .mat) .s false]),
  (.adds_row, [.obj (.viewDense .mat) .s true, .num, .obj (.view1D .mat) .s true, .obj (.viewDense .ten) .s false]),
  (.adds_row, [.obj (.viewDense .mat) .s true, .num, .obj (.view1D .ten) .s true, .obj .dense .s false]),
  (.adds_row, [.obj (.viewDense .mat) .s true, .num, .obj (.view1D .ten) .s true, .obj (.viewDense .vec) .s false]),
  (.adds_row, [.obj (.viewDense .mat) .s true, .num, .obj (.view1D .ten) .s true, .obj (.viewDense .mat) .s false]),
  (.adds_row, [.obj (.viewDense .mat) .s true, .num, .obj (.view1D .ten) .s true, .obj (.viewDense .ten) .s false]),
  (.adds_row, [.obj (.viewDense .ten) .s true, .num, .obj .vector .s true, .obj .dense .s false]),
  (.adds_row, [.obj (.viewDense .ten) .s true, .num, .obj .vector .s true, .obj (.viewDense .vec) .s false]),
  (.adds_row, [.obj (.viewDense .ten) .s true, .num, .obj .vector .s true, .obj (.viewDense .mat) .s false]),
  (.adds_row, [.obj (.viewDense .ten) .s true, .num, .obj .vector .s true, .obj (.viewDense .ten) .s false]),
  (.adds_row, [.obj (.viewDense .ten) .s true, .num, .obj (.view1D .vec) .s true, .obj .dense .s false]),
  (.adds_row, [.obj (.viewDense .ten) .s true, .num, .obj (.view1D .vec) .s true, .obj (.viewDense .vec) .s false]),
  (.adds_row, [.obj (.viewDense .ten) .s true, .num, .obj (.view1D .vec) .s true, .obj (.viewDense .mat) .s false]),
  (.adds_row, [.obj (.viewDense .ten) .s true, .num, .obj (.view1D .vec) .s true, .obj (.viewDense .ten) .s false]),
  (.adds_row, [.obj (.viewDense .ten) .s true, .num, .obj (.view1D .mat) .s true, .obj .dense .s false]),
  (.adds_row, [.obj (.viewDense .ten) .s true, .num, .obj (.view1D .mat) .s true, .obj (.viewDense .vec) .s false]),
  (.adds_row, [.obj (.viewDense .ten) .s true, .num, .obj (.view1D .mat) .s true, .obj (.viewDense .mat) .s false]),
  (.adds_row, [.obj (.viewDense .ten) .s true, .num, .obj (.view1D .mat) .s true, .obj (.viewDense .ten) .s false]),
  (.adds_row, [.obj (.viewDense .ten) .s true, .num, .obj (.view1D .ten) .s true, .obj .dense .s false]),
  (.adds_row, [.obj (.viewDense .ten) .s true, .num, .obj (.view1D .ten) .s true, .obj (.viewDense .vec) .s false]),
  (.adds_row, [.obj (.viewDense .ten) .s true, .num, .obj (.view1D .ten) .s true, .obj (.viewDense .mat) .s false]),
  (.adds_row, [.obj (.viewDense .ten) .s true, .num, .obj (.view1D .ten) .s true, .obj (.viewDense .ten) .s false]),
  (.adds_col, [.obj .dense .d true, .num, .obj .vector .d true, .obj .dense .d false]),
  (.adds_col, [.obj .dense .d true, .num, .obj .vector .d true, .obj (.viewDense .vec) .d false]),
  (.adds_col, [.obj .dense .d true, .num, .obj .vector .d true, .obj (.viewDense .mat) .d false]),
  (.adds_col, [.obj .dense .d true, .num, .obj .vector .d true, .obj (.viewDense .ten) .d false]),
  (.adds_col, [.obj .dense .d true, .num, .obj (.view1D .vec) .d true, .obj .dense .d false]),
  (.adds_col, [.obj .dense .d true, .num, .obj (.view1D .vec) .d true, .obj (.viewDense .vec) .d false]),
  (.adds_col, [.obj .dense .d true, .num, .obj (.view1D .vec) .d true, .obj (.viewDense .mat) .d false]),
  (.adds_col, [.obj .dense .d true, .num, .obj (.view1D .vec) .d true, .obj (.viewDense .ten) .d false]),
  (.adds_col, [.obj .dense .d true, .num, .obj (.view1D .mat) .d true, .obj .dense .d false]),
  (.adds_col, [.obj .dense .d true, .num, .obj (.view1D .mat) .d true, .obj (.viewDense .vec) .d false]),
  (.adds_col, [.obj .dense .d true, .num, .obj (.view1D .mat) .d true, .obj (.viewDense .mat) .d false]),
  (.adds_col, [.obj .dense .d true, .num, .obj (.view1D .mat) .d true, .obj (.viewDense .ten) .d false]),
  (.adds_col, [.obj .dense .d true, .num, .obj (.view1D .ten) .d true, .obj .dense .d false]),
  (.adds_col, [.obj .dense .d true, .num, .obj (.view1D .ten) .d true, .obj (.viewDense .vec) .d false]),
  (.adds_col, [.obj .dense .d true, .num, .obj (.view1D .ten) .d true, .obj (.viewDense .mat) .d false]),
  (.adds_col, [.obj .dense .d true, .num, .obj (.view1D .ten) .d true, .obj (.viewDense .ten) .d false])]

/-- the overloads of `tMatAdds_5` that are declared -/
def hMatAdds_5 : List (Fn × List Par) := [
  (.adds_col, [.obj (.viewDense .vec) .d true, .num, .obj .vector .d true, .obj .dense .d false]),
  (.adds_col, [.obj (.viewDense .vec) .d true, .num, .obj .vector .d true, .obj (.viewDense .vec) .d false]),
  (.adds_col, [.obj (.viewDense .vec) .d true, .num, .obj .vector .d true, .obj (.viewDense .mat) .d false]),
  (.adds_col, [.obj (.viewDense .vec) .d true, .num, .obj .vector .d true, .obj (.viewDense .ten) .d false]),
  (.adds_col, [.obj (.viewDense .vec) .d true, .num, .obj (.view1D .vec) .d true, .obj .dense .d false]),
  (.adds_col, [.obj (.viewDense .vec) .d true, .num, .obj (.view1D .vec) .d true, .obj (.viewDense .vec) .d false]),
  (.adds_col, [.obj (.viewDense .vec) .d true, .num, .obj (.view1D .vec) .d true, .obj (.viewDense .mat) .d false]),
  (.adds_col, [.obj (.viewDense .vec) .d true, .num, .obj (.view1D .vec) .d true, .obj (.viewDense .ten) .d false]),
  (.adds_col, [.obj (.viewDense .vec) .d true, .num, .obj (.view1D .mat) .d true, .obj .dense .d false]),
  (.adds_col, [.obj (.viewDense .vec) .d true, .num, .obj (.view1D .mat) .d true, .obj (.viewDense .vec) .d false]),
  (.adds_col, [.obj (.viewDense .vec) .d true, .num, .obj (.view1D .mat) .d true, .obj (.viewDense .mat) .d false]),
  (.adds_col, [.obj (.viewDense .vec) .d true, .num, .obj (.view1D .mat) .d true, .obj (.viewDense .ten) .d false]),
  (.adds_col, [.obj (.viewDense .vec) .d true, .num, .obj (.view1D .ten) .d true, .obj .dense .d false]),
  (.adds_col, [.obj (.viewDense .vec) .d true, .num, .obj (.view1D .ten) .d true, .obj (.viewDense .vec) .d false]),
  (.adds_col, [.obj (.viewDense .vec) .d true, .num, .obj (.view1D .ten) .d true, .obj (.viewDense .mat) .d false]),
  (.adds_col, [.obj (.viewDense .vec) .d true, .num, .obj (.view1D .ten) .d true, .obj (.viewDense .ten) .d false]),
  (.adds_col, [.obj (.viewDense .mat) .d true, .num, .obj .vector .d true, .obj .dense .d false]),
  (.adds_col, [.obj (.viewDense .mat) .d true, .num, .obj .vector .d true, .obj (.viewDense .vec) .d false]),
  (.adds_col, [.obj (.viewDense .mat) .d true, .num, .obj .vector .d true, .obj (.viewDense .mat) .d false]),
  (.adds_col, [.obj (.viewDense .mat) .d true, .num, .obj .vector .d true, .obj (.viewDense .ten) .d false]),
  (.adds_col, [.obj (.viewDense .mat) .d true, .num, .obj (.view1D .vec) .d true, .obj .dense .d false]),
  (.adds_col, [.obj (.viewDense .mat) .d true, .num, .obj (.view1D .vec) .d true, .obj (.viewDense .vec) .d false]),
  (.adds_col, [.obj (.viewDense .mat) .d true, .num, .obj (.view1D .vec) .d true, .obj (.viewDense .mat) .d false]),
  (.adds_col, [.obj (.viewDense .mat) .d true, .num, .obj (.view1D .vec) .d true, .obj (.viewDense .ten) .d false]),
  (.adds_col, [.obj (.viewDense .mat) .d true, .num, .obj (.view1D .mat) .d true, .obj .dense .d false]),
  (.adds_col, [.obj (.viewDense .mat) .d true, .num, .obj (.view1D .mat) .d true, .obj (.viewDense .vec) .d false]),
  (.adds_col, [.obj (.viewDense .mat) .d true, .num, .obj (.view1D .mat) .d true, .obj (.viewDense .mat) .d false]),
  (.adds_col, [.obj (.viewDense .mat) .d true, .num, .obj (.view1D .mat) .d true, .obj (.viewDense .ten) .d false]),
  (.adds_col, [.obj (.viewDense .mat) .d true, .num, .obj (.view1D .ten) .d true, .obj .dense .d false]),
  (.adds_col, [.obj (.viewDense .mat) .d true, .num, .obj (.view1D .ten) .d true, .obj (.viewDense .vec) .d false]),
  (.adds_col, [.obj (.viewDense .mat) .d true, .num, .obj (.view1D .ten) .d true, .obj (.viewDense .mat) .d false]),
  (.adds_col, [.obj (.viewDense .mat) .d true, .num, .obj (.view1D .ten) .d true, .obj (.viewDense .ten) .d false]),
  (.adds_col, [.obj (.viewDense .ten) .d true, .num, .obj .vector .d true, .obj .dense .d false]),
  (.adds_col, [.obj (.viewDense .ten) .d true, .num, .obj .vector .d true, .obj (.viewDense .vec) .d false]),
  (.adds_col, [.obj (.viewDense .ten) .d true, .num, .obj .vector .d true, .obj (.viewDense .mat) .d false]),
  (.adds_col, [.obj (.viewDense .ten) .d true, .num, .obj .vector .d true, .obj (.viewDense .ten) .d false]),
  (.adds_col, [.obj (.viewDense .ten) .d true, .num, .obj (.view1D .vec) .d true, .obj .dense .d false]),
  (.adds_col, [.obj (.viewDense .ten) .d true, .num, .obj (.view1D .vec) .d true, .obj (.viewDense .vec) .d false]),
  (.adds_col, [.obj (.viewDense .ten) .d true, .num, .obj (.view1D .vec) .d true, .obj (.viewDense .mat) .d false]),
  (.adds_col, [.obj (.viewDense .ten) .d true, .num, .obj (.view1D .vec) .d true, .obj (.viewDense .ten) .d false]),
  (.adds_col, [.obj (.viewDense .ten) .d true, .num, .obj (.view1D .mat) .d true, .obj .dense .d false]),
  (.adds_col, [.obj (.viewDense .ten) .d true, .num, .obj (.view1D .mat) .d true, .obj (.viewDense .vec) .d false]),
  (.adds_col, [.obj (.viewDense .ten) .d true, .num, .obj (.view1D .mat) .d true, .obj (.viewDense .mat) .d false]),
  (.adds_col, [.obj (.viewDense .ten) .d true, .num, .obj (.view1D .mat) .d true, .obj (.viewDense .ten) .d false]),
  (.adds_col, [.obj (.viewDense .ten) .d true, .num, .obj (.view1D .ten) .d true, .obj .dense .d false]),
  (.adds_col, [.obj (.viewDense .ten) .d true, .num, .obj (.view1D .ten) .d true, .obj (.viewDense .vec) .d false]),
  (.adds_col, [.obj (.viewDense .ten) .d true, .num, .obj (.view1D .ten) .d true, .obj (.viewDense .mat) .d false]),
  (.adds_col, [.obj (.viewDense .ten) .d true, .num, .obj (.view1D .ten) .d true, .obj (.viewDense .ten) .d false]),
  (.adds_col, [.obj .dense .s true, .num, .obj .vector .s true, .obj .dense .s false]),
  (.adds_col, [.obj .dense .s true, .num, .obj .vector .s true, .obj (.viewDense .vec) .s false]),
  (.adds_col, [.obj .dense .s true, .num, .obj .vector .s true, .obj (.viewDense .mat) .s false]),
  (.adds_col, [.obj .dense .s true, .num, .obj .vector .s true, .obj (.viewDense .ten) .s false]),
  (.adds_col, [.obj .dense .s true, .num, .obj (.view1D .vec) .s true, .obj .dense .s false]),
  (.adds_col, [.obj .dense .s true, .num, .obj (.view1D .vec) .s true, .obj (.viewDense .vec) .s false]),
  (.adds_col, [.obj .dense .s true, .num, .obj (.view1D .vec) .s true, .obj (.viewDense .mat) .s false]),
  (.adds_col, [.obj .dense .s true, .num, .obj (.view1D .vec) .s true, .obj (.viewDense .ten) .s false]),
  (.adds_col, [.obj .dense .s true, .num, .obj (.view1D .mat) .s true, .obj .dense .s false]),
  (.adds_col, [.obj .dense .s true, .num, .obj (.view1D .mat) .s true, .obj (.viewDense .vec) .s false]),
  (.adds_col, [.obj .dense .s true, .num, .obj (.view1D .mat) .s true, .obj (.viewDense .mat) .s false]),
  (.adds_col, [.obj .dense .s true, .num, .obj (.view1D .mat) .s true, .obj (.viewDense .ten) .s false]),
  (.adds_col, [.obj .dense .s true, .num, .obj (.view1D .ten) .s true, .obj .dense .s false]),
  (.adds_col, [.obj .dense .s true, .num, .obj (.view1D .ten) .s true, .obj (.viewDense .vec) .s false]),
  (.adds_col, [.obj .dense .s true, .num, .obj (.view1D .ten) .s true, .obj (.viewDense .mat) .s false]),
  (.adds_col, [.obj .dense .s true, .num, .obj (.view1D .ten) .s true, .obj (.viewDense .ten) .s false]),
  (.adds_col, [.obj (.viewDense .vec) .s true, .num, .obj .vector .s true, .obj .dense .s false]),
  (.adds_col, [.obj (.viewDense .vec) .s true, .num, .obj .vector .s true, .obj (.viewDense .vec) .s false]),
  (.adds_col, [.obj (.viewDense .vec) .s true, .num, .obj .vector .s true, .obj (.viewDense .mat) .s false]),
  (.adds_col, [.obj (.viewDense .vec) .s true, .num, .obj .vector .s true, .obj (.viewDense .ten) .s false]),
  (.adds_col, [.obj (.viewDense .vec) .s true, .num, .obj (.view1D .vec) .s true, .obj .dense .s false]),
  (.adds_col, [.obj (.viewDense .vec) .s true, .num, .obj (.view1D .vec) .s true, .obj (.viewDense .vec) .s false]),
  (.adds_col, [.obj (.viewDense .vec) .s true, .num, .obj (.view1D .vec) .s true, .obj (.viewDense .mat) .s false]),
  (.adds_col, [.obj (.viewDense .vec) .s true, .num, .obj (.view1D .vec) .s true, .obj (.viewDense .ten) .s false]),
  (.adds_col, [.obj (.viewDense .vec) .s true, .num, .obj (.view1D .mat) .s true, .obj .dense .s false]),
  (.adds_col, [.obj (.viewDense .vec) .s true, .num, .obj (.view1D .mat) .s true, .obj (.viewDense .vec) .s false]),
  (.adds_col, [.obj (.viewDense .vec) .s true, .num, .obj (.view1D .mat) .s true, .obj (.viewDense .mat) .s false]),
  (.adds_col, [.obj (.viewDense .vec) .s true, .num, .obj (.view1D .mat) .s true, .obj (.viewDense .ten) .s false]),
  (.adds_col, [.obj (.viewDense .vec) .s true, .num, .obj (.view1D .ten) .s true, .obj .dense .s false]),
  (.adds_col, [.obj (.viewDense .vec) .s true, .num, .obj (.view1D .ten) .s true, .obj (.viewDense .vec) .s false]),
  (.adds_col, [.obj (.viewDense .vec) .s true, .num, .obj (.view1D .ten) .s true, .obj (.viewDense .mat) .s false]),
  (.adds_col, [.obj (.viewDense .vec) .s true, .num, .obj (.view1D .ten) .s true, .obj (.viewDense .ten) .s false])]

/-- the overloads of `tMatAdds_6` that are declared -/
def hMatAdds_6 : List (Fn × List Par) := [
  (.adds_col, [.obj (.viewDense .mat) .s true, .num, .obj .vector .s true, .obj .dense .s false]),
  (.adds_col, [.obj (.viewDense .mat) .s true, .num, .obj .vector .s true, .obj (.viewDense .vec) .s false]),
  (.adds_col, [.obj (.viewDense .mat) .s true, .num, .obj .vector .s true, .obj (.viewDense .mat) .s false]),
  (.adds_col, [.obj (.viewDense .mat) .s true, .num, .obj .vector .s true, .obj (.viewDense .ten) .s false]),
  (.adds_col, [.obj (.viewDense .mat) .s true, .num, .obj (.view1D .vec) .s true, .obj .dense .s false]),
  (.adds_col, [.obj (.viewDense .mat) .s true, .num, .obj (.view1D .vec) .s true, .obj (.viewDense .vec) .s false]),
  (.adds_col, [.obj (.viewDense .mat) .s true, .num, .obj (.view1D .vec) .s true, .obj (.viewDense .mat) .s false]),
  (.adds_col, [.obj (.viewDense .mat) .s true, .num, .obj (.view1D .vec) .s true, .obj (.viewDense .ten) .s false]),
  (.adds_col, [.obj (.viewDense .mat) .s true, .num, .obj (.view1D .mat) .s true, .obj .dense .s false]),
  (.adds_col, [.obj (.viewDense .mat) .s true, .num, .obj (.view1D .mat) .s true, .obj (.viewDense .vec) .s false]),
  (.adds_col, [.obj (.viewDense .mat) .s true, .num, .obj (.view1D .mat) .s true, .obj (.viewDense .mat) .s false]),
  (.adds_col, [.obj (.viewDense .mat) .s true, .num, .obj (.view1D .mat) .s true, .obj (.viewDense .ten) .s false]),
  (.adds_col, [.obj (.viewDense .mat) .s true, .num, .obj (.view1D .ten) .s true, .obj .dense .s false]),
  (.adds_col, [.obj (.viewDense .mat) .s true, .num, .obj (.view1D .ten) .s true, .obj (.viewDense .vec) .s false]),
  (.adds_col, [.obj (.viewDense .mat) .s true, .num, .obj (.view1D .ten) .s true, .obj (.viewDense .mat) .s false]),
  (.adds_col, [.obj (.viewDense .mat) .s true, .num, .obj (.view1D .ten) .s true, .obj (.viewDense .ten) .s false]),
  (.adds_col, [.obj (.viewDense .ten) .s true, .num, .obj .vector .s true, .obj .dense .s false]),
  (.adds_col, [.obj (.viewDense .ten) .s true, .num, .obj .vector .s true, .obj (.viewDense .vec) .s false]),
  (.adds_col, [.obj (.viewDense .ten) .s true, .num, .obj .vector .s true, .obj (.viewDense .mat) .s false]),
  (.adds_col, [.obj (.viewDense .ten) .s true, .num, .obj .vector .s true, .obj (.viewDense .ten) .s false]),
  (.adds_col, [.obj (.viewDense .ten) .s true, .num, .obj (.view1D .vec) .s true, .obj .dense .s false]),
  (.adds_col, [.obj (.viewDense .ten) .s true, .num, .obj (.view1D .vec) .s true, .obj (.viewDense .vec) .s false]),
  (.adds_col, [.obj (.viewDense .ten) .s true, .num, .obj (.view1D .vec) .s true, .obj (.viewDense .mat) .s false]),
  (.adds_col, [.obj (.viewDense .ten) .s true, .num, .obj (.view1D .vec) .s true, .obj (.viewDense .ten) .s false]),
  (.adds_col, [.obj (.viewDense .ten) .s true, .num, .obj (.view1D .mat) .s true, .obj .dense .s false]),
  (.adds_col, [.obj (.viewDense .ten) .s true, .num, .obj (.view1D .mat) .s true, .obj (.viewDense .vec) .s false]),
  (.adds_col, [.obj (.viewDense .ten) .s true, .num, .obj (.view1D .mat) .s true, .obj (.viewDense .mat) .s false]),
  (.adds_col, [.obj (.viewDense .ten) .s true, .num, .obj (.view1D .mat) .s true, .obj (.viewDense .ten) .s false]),
  (.adds_col, [.obj (.viewDense .ten) .s true, .num, .obj (.view1D .ten) .s true, .obj .dense .s false]),
  (.adds_col, [.obj (.viewDense .ten) .s true, .num, .obj (.view1D .ten) .s true, .obj (.viewDense .vec) .s false]),
  (.adds_col, [.obj (.viewDense .ten) .s true, .num, .obj (.view1D .ten) .s true, .obj (.viewDense .mat) .s false]),
  (.adds_col, [.obj (.viewDense .ten) .s true, .num, .obj (.view1D .ten) .s true, .obj (.viewDense .ten) .s false])]

/-- the overloads of `tTenTimes_0` that are declared -/
def hTenTimes_0 : List (Fn × List Par) := [
  (.times_row, [.obj .tdense .d true, .obj .vector .d true, .obj .tdense .d false]),
  (.times_row, [.obj .tdense .d true, .obj .vector .d true, .obj (.viewTDense .vec) .d false]),
  (.times_row, [.obj .tdense .d true, .obj .vector .d true, .obj (.viewTDense .mat) .d false]),
  (.times_row, [.obj .tdense .d true, .obj .vector .d true, .obj (.viewTDense .ten) .d false]),
  (.times_row, [.obj .tdense .d true, .obj (.view1D .vec) .d true, .obj .tdense .d false]),
  (.times_row, [.obj .tdense .d true, .obj (.view1D .vec) .d true, .obj (.viewTDense .vec) .d false]),
  (.times_row, [.obj .tdense .d true, .obj (.view1D .vec) .d true, .obj (.viewTDense .mat) .d false]),
  (.times_row, [.obj .tdense .d true, .obj (.view1D .vec) .d true, .obj (.viewTDense .ten) .d false]),
  (.times_row, [.obj .tdense .d true, .obj (.view1D .mat) .d true, .obj .tdense .d false]),
  (.times_row, [.obj .tdense .d true, .obj (.view1D .mat) .d true, .obj (.viewTDense .vec) .d false]),
  (.times_row, [.obj .tdense .d true, .obj (.view1D .mat) .d true, .obj (.viewTDense .mat) .d false]),
  (.times_row, [.obj .tdense .d true, .obj (.view1D .mat) .d true, .obj (.viewTDense .ten) .d false]),
  (.times_row, [.obj .tdense .d true, .obj (.view1D .ten) .d true, .obj .tdense .d false]),
  (.times_row, [.obj .tdense .d true, .obj (.view1D .ten) .d true, .obj (.viewTDense .vec) .d false]),
  (.times_row, [.obj .tdense .d true, .obj (.view1D .ten) .d true, .obj (.viewTDense .mat) .d false]),
  (.times_row, [.obj .tdense .d true, .obj (.view1D .ten) .d true, .obj (.viewTDense .ten) .d false]),
  (.times_row, [.obj (.viewTDense .vec) .d true, .obj .vector .d true, .obj .tdense .d false]),
  (.times_row, [.obj (.viewTDense .vec) .d true, .obj .vector .d true, .obj (.viewTDense .vec) .d false]),
  (.times_row, [.obj (.viewTDense .vec) .d true, .obj .vector .d true, .obj (.viewTDense .mat) .d false]),
  (.times_row, [.obj (.viewTDense .vec) .d true, .obj .vector .d true, .obj (.viewTDense .ten) .d false]),
  (.times_row, [.obj (.viewTDense .vec) .d true, .obj (.view1D .vec) .d true, .obj .tdense .d false]),
  (.times_row, [.obj (.viewTDense .vec) .d true, .obj (.view1D .vec) .d true, .obj (.viewTDense .vec) .d false]),
  (.times_row, [.obj (.viewTDense .vec) .d true, .obj (.view1D .vec) .d true, .obj (.viewTDense .mat) .d false]),
  (.times_row, [.obj (.viewTDense .vec) .d true, .obj (.view1D .vec) .d true, .obj (.viewTDense .ten) .d false]),
  (.times_row, [.obj (.viewTDense .vec) .d true, .obj (.view1D .mat) .d true, .obj .tdense .d false]),
  (.times_row, [.obj (.viewTDense .vec) .d true, .obj (.view1D .mat) .d true, .obj (.viewTDense .vec) .d false]),
  (.times_row, [.obj (.viewTDense .vec) .d true, .obj (.view1D .mat) .d true, .obj (.viewTDense .mat) .d false]),
  (.times_row, [.obj (.viewTDense .vec) .d true, .obj (.view1D .mat) .d true, .obj (.viewTDense .ten) .d false]),
  (.times_row, [.obj (.viewTDense .vec) .d true, .obj (.view1D .ten) .d true, .obj .tdense .d false]),
  (.times_row, [.obj (.viewTDense .vec) .d true, .obj (.view1D .ten) .d true, .obj (.viewTDense .vec) .d false]),
  (.times_row, [.obj (.viewTDense .vec) .d true, .obj (.view1D .ten) .d true, .obj (.viewTDense .mat) .d false]),
  (.times_row, [.obj (.viewTDense .vec) .d true, .obj (.view1D .ten) .d true, .obj (.viewTDense .ten) .d false]),
  (.times_row, [.obj (.viewTDense .mat) .d true, .obj .vector .d true, .obj .tdense .d false]),
  (.times_row, [.obj (.viewTDense .mat) .d true, .obj .vector .d true, .obj (.viewTDense .vec) .d false]),
  (.times_row, [.obj (.viewTDense .mat) .d true, .obj .vector .d true, .obj (.viewTDense .mat) .d false]),
  (.times_row, [.obj (.viewTDense .mat) .d true, .obj .vector .d true, .obj (.viewTDense .ten) .d false]),
  (.times_row, [.obj (.viewTDense .mat) .d true, .obj (.view1D .vec) .d true, .obj .tdense .d false]),
  (.times_row, [.obj (.viewTDense .mat) .d true, .obj (.view1D .vec) .d true, .obj (.viewTDense .vec) .d false]),
  (.times_row, [.obj (.viewTDense .mat) .d true, .obj (.view1D .vec) .d true, .obj (.viewTDense .mat) .d false]),
  (.times_row, [.obj (.viewTDense .mat) .d true, .obj (.view1D .vec) .d true, .obj (.viewTDense .ten) .d false]),
  (.times_row, [.obj (.viewTDense .mat) .d true, .obj (.view1D .mat) .d true, .obj .tdense .d false]),
  (.times_row, [.obj (.viewTDense .mat) .d true, .obj (.view1D .mat) .d true, .obj (.viewTDense .vec) .d false]),
  (.times_row, [.obj (.viewTDense .mat) .d true, .obj (.view1D .mat) .d true, .obj (.viewTDense .mat) .d false]),
  (.times_row, [.obj (.viewTDense .mat) .d true, .obj (.view1D .mat) .d true, .obj (.viewTDense .ten) .d false]),
  (.times_row, [.obj (.viewTDense .mat) .d true, .obj (.view1D .ten) .d true, .obj .tdense .d false]),
  (.times_row, [.obj (.viewTDense .mat) .d true, .obj (.view1D .ten) .d true, .obj (.viewTDense .vec) .d false]),
  (.times_row, [.obj (.viewTDense .mat) .d true, .obj (.view1D .ten) .d true, .obj (.viewTDense .mat) .d false]),
  (.times_row, [.obj (.viewTDense .mat) .d true, .obj (.view1D .ten) .d true, .obj (.viewTDense .ten) .d false]),
  (.times_row, [.obj (.viewTDense .ten) .d true, .obj .vector .d true, .obj .tdense .d false]),
  (.times_row, [.obj (.viewTDense .ten) .d true, .obj .vector .d true, .obj (.viewTDense .vec) .d false]),
  (.times_row, [.obj (.viewTDense .ten) .d true, .obj .vector .d true, .obj (.viewTDense .mat) .d false]),
  (.times_row, [.obj (.viewTDense .ten) .d true, .obj .vector .d true, .obj (.viewTDense .ten) .d false]),
  (.times_row, [.obj (.viewTDense .ten) .d true, .obj (.view1D .vec) .d true, .obj .tdense .d false]),
  (.times_row, [.obj (.viewTDense .ten) .d true, .obj (.view1D .vec) .d true, .obj (.viewTDense .vec) .d false]),
  (.times_row, [.obj (.viewTDense .ten) .d true, .obj (.view1D .vec) .d true, .obj (.viewTDense .mat) .d false]),
  (.times_row, [.obj (.viewTDense .ten) .d true, .obj (.view1D .vec) .d true, .obj (.viewTDense .ten) .d false]),
  (.times_row, [.obj (.viewTDense .ten) .d true, .obj (.view1D .mat) .d true, .obj .tdense .d false]),
  (.times_row, [.obj (.viewTDense .ten) .d true, .obj (.view1D .mat) .d true, .obj (.viewTDense .vec) .d false]),
  (.times_row, [.obj (.viewTDense .ten) .d true, .obj (.view1D .mat) .d true, .obj (.viewTDense .mat) .d false]),
  (.times_row, [.obj (.viewTDense .ten) .d true, .obj (.view1D .mat) .d true, .obj (.viewTDense .ten) .d false]),
  (.times_row, [.obj (.viewTDense .ten) .d true, .obj (.view1D .ten) .d true, .obj .tdense .d false]),
  (.times_row, [.obj (.viewTDense .ten) .d true, .obj (.view1D .ten) .d true, .obj (.viewTDense .vec) .d false]),
  (.times_row, [.obj (.viewTDense .ten) .d true, .obj (.view1D .ten) .d true, .obj (.viewTDense .mat) .d false]),
  (.times_row, [.obj (.viewTDense .ten) .d true, .obj (.view1D .ten) .d true, .obj (.viewTDense .ten) .d false]),
  (.times_row, [.obj .tcrs .d true, .obj .vector .d true, .obj .tcrs .d false]),
  (.times_row, [.obj .tcrs .d true, .obj (.view1D .vec) .d true, .obj .tcrs .d false]),
  (.times_row, [.obj .tcrs .d true, .obj (.view1D .mat) .d true, .obj .tcrs .d false]),
  (.times_row, [.obj .tcrs .d true, .obj (.view1D .ten) .d true, .obj .tcrs .d false]),
  (.times_row, [.obj .tdense .s true, .obj .vector .s true, .obj .tdense .s false]),
  (.times_row, [.obj .tdense .s true, .obj .vector .s true, .obj (.viewTDense .vec) .s false]),
  (.times_row, [.obj .tdense .s true, .obj .vector .s true, .obj (.viewTDense .mat) .s false]),
  (.times_row, [.obj .tdense .s true, .obj .vector .s true, .obj (.viewTDense .ten) .s false]),
  (.times_row, [.obj .tdense .s true, .obj (.view1D .vec) .s true, .obj .tdense .s false]),
  (.times_row, [.obj .tdense .s true, .obj (.view1D .vec) .s true, .obj (.viewTDense .vec) .s false]),
  (.times_row, [.obj .tdense .s true, .obj (.view1D .vec) .s true, .obj (.viewTDense .mat) .s false]),
  (.times_row, [.obj .tdense .s true, .obj (.view1D .vec) .s true, .obj (.viewTDense .ten) .s false]),
  (.times_row, [.obj .tdense .s true, .obj (.view1D .mat) .s true, .obj .tdense .s false]),
  (.times_row, [.obj .tdense .s true, .obj (.view1D .mat) .s true, .obj (.viewTDense .vec) .s false]),
  (.times_row, [.obj .tdense .s true, .obj (.view1D .mat) .s true, .obj (.viewTDense .mat) .s false]),
  (.times_row, [.obj .tdense .s true, .obj (.view1D .mat) .s true, .obj (.viewTDense .ten) .s false])]

/-- the overloads of `tTenTimes_1` that are declared -/
def hTenTimes_1 : List (Fn × List Par) := [
  (.times_row, [.obj .tdense .s true, .obj (.view1D .ten) .s true, .obj .tdense .s false]),
  (.times_row, [.obj .tdense .s true, .obj (.view1D .ten) .s true, .obj (.viewTDense .vec) .s false]),
  (.times_row, [.obj .tdense .s true, .obj (.view1D .ten) .s true, .obj (.viewTDense .mat) .s false]),
  (.times_row, [.obj .tdense .s true, .obj (.view1D .ten) .s true, .obj (.viewTDense .ten) .s false]),
  (.times_row, [.obj (.viewTDense .vec) .s true, .obj .vector .s true, .obj .tdense .s false]),
  (.times_row, [.obj (.viewTDense .vec) .s true, .obj .vector .s true, .obj (.viewTDense .vec) .s false]),
  (.times_row, [.obj (.viewTDense .vec) .s true, .obj .vector .s true, .obj (.viewTDense .mat) .s false]),
  (.times_row, [.obj (.viewTDense .vec) .s true, .obj .vector .s true, .obj (.viewTDense .ten) .s false]),
  (.times_row, [.obj (.viewTDense .vec) .s true, .obj (.view1D .vec) .s true, .obj .tdense .s false]),
  (.times_row, [.obj (.viewTDense .vec) .s true, .obj (.view1D .vec) .s true, .obj (.viewTDense .vec) .s false]),
  (.times_row, [.obj (.viewTDense .vec) .s true, .obj (.view1D .vec) .s true, .obj (.viewTDense .mat) .s false]),
  (.times_row, [.obj (.viewTDense .vec) .s true, .obj (.view1D .vec) .s true, .obj (.viewTDense .ten) .s false]),
  (.times_row, [.obj (.viewTDense .vec) .s true, .obj (.view1D .mat) .s true, .obj .tdense .s false]),
  (.times_row, [.obj (.viewTDense .vec) .s true, .obj (.view1D .mat) .s true, .obj (.viewTDense .vec) .s false]),
  (.times_row, [.obj (.viewTDense .vec) .s true, .obj (.view1D .mat) .s true, .obj (.viewTDense .mat) .s false]),
  (.times_row, [.obj (.viewTDense .vec) .s true, .obj (.view1D .mat) .s true, .obj (.viewTDense .ten) .s false]),
  (.times_row, [.obj (.viewTDense .vec) .s true, .obj (.view1D .ten) .s true, .obj .tdense .s false]),
  (.times_row, [.obj (.viewTDense .vec) .s true, .obj (.view1D .ten) .s true, .obj (.viewTDense .vec) .s false]),
  (.times_row, [.obj (.viewTDense .vec) .s true, .obj (.view1D .ten) .s true, .obj (.viewTDense .mat) .s false]),
  (.times_row, [.obj (.viewTDense .vec) .s true, .obj (.view1D .ten) .s true, .obj (.viewTDense .ten) .s false]),
  (.times_row, [.obj (.viewTDense .mat) .s true, .obj .vector .s true, .obj .tdense .s false]),
  (.times_row, [.obj (.viewTDense .mat) .s true, .obj .vector .s true, .obj (.viewTDense .vec) .s false]),
  (.times_row, [.obj (.viewTDense .mat) .s true, .obj .vector .s true, .obj (.viewTDense .mat) .s false]),
  (.times_row, [.obj (.viewTDense .mat) .s true, .obj .vector .s true, .obj (.viewTDense .ten) .s false]),
  (.times_row, [.obj (.viewTDense .mat) .s true, .obj (.view1D .vec) .s true, .obj .tdense .s false]),
  (.times_row, [.obj (.viewTDense .mat) .s true, .obj (.view1D .vec) .s true, .obj (.viewTDense .vec) .s false]),
  (.times_row, [.obj (.viewTDense .mat) .s true, .obj (.view1D .vec) .s true, .obj (.viewTDense .mat) .s false]),
  (.times_row, [.obj (.viewTDense .mat) .s true, .obj (.view1D .vec) .s true, .obj (.viewTDense .ten) .s false]),
  (.times_row, [.obj (.viewTDense .mat) .s true, .obj (.view1D .mat) .s true, .obj .tdense .s false]),
  (.times_row, [.obj (.viewTDense .mat) .s true, .obj (.view1D .mat) .s true, .obj (.viewTDense .vec) .s false]),
  (.times_row, [.obj (.viewTDense .mat) .s true, .obj (.view1D .mat) .s true, .obj (.viewTDense .mat) .s false]),
  (.times_row, [.obj (.viewTDense .mat) .s true, .obj (.view1D .mat) .s true, .obj (.viewTDense .ten) .s false]),
  (.times_row, [.obj (.viewTDense .mat) .s true, .obj (.view1D .ten) .s true, .obj .tdense .s false]),
  (.times_row, [.obj (.viewTDense .mat) .s true, .obj (.view1D .ten) .s true, .obj (.viewTDense .vec) .s false]),
  (.times_row, [.obj (.viewTDense .mat) .s true, .obj (.view1D .ten) .s true, .obj (.viewTDense .mat) .s false]),
  (.times_row, [.obj (.viewTDense .mat) .s true, .obj (.view1D .ten) .s true, .obj (.viewTDense .ten) .s false]),
  (.times_row, [.obj (.viewTDense .ten) .s true, .obj .vector .s true, .obj .tdense .s false]),
  (.times_row, [.obj (.viewTDense .ten) .s true, .obj .vector .s true, .obj (.viewTDense .vec) .s false]),
  (.times_row, [.obj (.viewTDense .ten) .s true, .obj .vector .s true, .obj (.viewTDense .mat) .s false]),
  (.times_row, [.obj (.viewTDense .ten) .s true, .obj .vector .s true, .obj (.viewTDense .ten) .s false]),
  (.times_row, [.obj (.viewTDense .ten) .s true, .obj (.view1D .vec) .s true, .obj .tdense .s false]),
  (.times_row, [.obj (.viewTDense .ten) .s true, .obj (.view1D .vec) .s true, .obj (.viewTDense .vec) .s false]),
  (.times_row, [.obj (.viewTDense .ten) .s true, .obj (.view1D .vec) .s true, .obj (.viewTDense .mat) .s false]),
  (.times_row, [.obj (.viewTDense .ten) .s true, .obj (.view1D .vec) .s true, .obj (.viewTDense .ten) .s false]),
  (.times_row, [.obj (.viewTDense .ten) .s true, .obj (.view1D .mat) .s true, .obj .tdense .s false]),
  (.times_row, [.obj (.viewTDense .ten) .s true, .obj (.view1D .mat) .s true, .obj (.viewTDense .vec) .s false]),
  (.times_row, [.obj (.viewTDense .ten) .s true, .obj (.view1D .mat) .s true, .obj (.viewTDense .mat) .s false]),
  (.times_row, [.obj (.viewTDense .ten) .s true, .obj (.view1D .mat) .s true, .obj (.viewTDense .ten) .s false]),
  (.times_row, [.obj (.viewTDense .ten) .s true, .obj (.view1D .ten) .s true, .obj .tdense .s false]),
  (.times_row, [.obj (.viewTDense .ten) .s true, .obj (.view1D .ten) .s true, .obj (.viewTDense .vec) .s false]),
  (.times_row, [.obj (.viewTDense .ten) .s true, .obj (.view1D .ten) .s true, .obj (.viewTDense .mat) .s false]),
  (.times_row, [.obj (.viewTDense .ten) .s true, .obj (.view1D .ten) .s true, .obj (.viewTDense .ten) .s false]),
  (.times_row, [.obj .tcrs .s true, .obj .vector .s true, .obj .tcrs .s false]),
  (.times_row, [.obj .tcrs .s true, .obj (.view1D .vec) .s true, .obj .tcrs .s false]),
  (.times_row, [.obj .tcrs .s true, .obj (.view1D .mat) .s true, .obj .tcrs .s false]),
  (.times_row, [.obj .tcrs .s true, .obj (.view1D .ten) .s true, .obj .tcrs .s false]),
  (.times_col, [.obj .tdense .d true, .obj .vector .d true, .obj .tdense .d false]),
  (.times_col, [.obj .tdense .d true, .obj .vector .d true, .obj (.viewTDense .vec) .d false]),
  (.times_col, [.obj .tdense .d true, .obj .vector .d true, .obj (.viewTDense .mat) .d false]),
  (.times_col, [.obj .tdense .d true, .obj .vector .d true, .obj (.viewTDense .ten) .d false]),
  (.times_col, [.obj .tdense .d true, .obj (.view1D .vec) .d true, .obj .tdense .d false]),
  (.times_col, [.obj .tdense .d true, .obj (.view1D .vec) .d true, .obj (.viewTDense .vec) .d false]),
  (.times_col, [.obj .tdense .d true, .obj (.view1D .vec) .d true, .obj (.viewTDense .mat) .d false]),
  (.times_col, [.obj .tdense .d true, .obj (.view1D .vec) .d true, .obj (.viewTDense .ten) .d false]),
  (.times_col, [.obj .tdense .d true, .obj (.view1D .mat) .d true, .obj .tdense .d false]),
  (.times_col, [.obj .tdense .d true, .obj (.view1D .mat) .d true, .obj (.viewTDense .vec) .d false]),
  (.times_col, [.obj .tdense .d true, .obj (.view1D .mat) .d true, .obj (.viewTDense .mat) .d false]),
  (.times_col, [.obj .tdense .d true, .obj (.view1D .mat) .d true, .obj (.viewTDense .ten) .d false]),
  (.times_col, [.obj .tdense .d true, .obj (.view1D .ten) .d true, .obj .tdense .d false]),
  (.times_col, [.obj .tdense .d true, .obj (.view1D .ten) .d true, .obj (.viewTDense .vec) .d false]),
  (.times_col, [.obj .tdense .d true, .obj (.view1D .ten) .d true, .obj (.viewTDense .mat) .d false]),
  (.times_col, [.obj .tdense .d true, .obj (.view1D .ten) .d true, .obj (.viewTDense .ten) .d false]),
  (.times_col, [.obj (.viewTDense .vec) .d true, .obj .vector .d true, .obj .tdense .d false]),
  (.times_col, [.obj (.viewTDense .vec) .d true, .obj .vector .d true, .obj (.viewTDense .vec) .d false]),
  (.times_col, [.obj (.viewTDense .vec) .d true, .obj .vector .d true, .obj (.viewTDense .mat) .d false]),
  (.times_col, [.obj (.viewTDense .vec) .d true, .obj .vector .d true, .obj (.viewTDense .ten) .d false]),
  (.times_col, [.obj (.viewTDense .vec) .d true, .obj (.view1D .vec) .d true, .obj .tdense .d false]),
  (.times_col, [.obj (.viewTDense .vec) .d true, .obj (.view1D .vec) .d true, .obj (.viewTDense .vec) .d false]),
  (.times_col, [.obj (.viewTDense .vec) .d true, .obj (.view1D .vec) .d true, .obj (.viewTDense .mat) .d false]),
  (.times_col, [.obj (.viewTDense .vec) .d true, .obj (.view1D .vec) .d true, .obj (.viewTDense .ten) .d false])]

/-- the overloads of `tTenTimes_2` that are declared -/
def hTenTimes_2 : List (Fn × List Par) := [
  (.times_col, [.obj (.viewTDense .vec) .d true, .obj (.view1D .mat) .d true, .obj .tdense .d false]),
  (.times_col, [.obj (.viewTDense .vec) .d true, .obj (.view1D .mat) .d true, .obj (.viewTDense .vec) .d false]),
  (.times_col, [.obj (.viewTDense .vec) .d true, .obj (.view1D .mat) .d true, .obj (.viewTDense .mat) .d false]),
  (.times_col, [.obj (.viewTDense .vec) .d true, .obj (.view1D .mat) .d true, .obj (.viewTDense .ten) .d false]),
  (.times_col, [.obj (.viewTDense .vec) .d true, .obj (.view1D .ten) .d true, .obj .tdense .d false]),
  (.times_col, [.obj (.viewTDense .vec) .d true, .obj (.view1D .ten) .d true, .obj (.viewTDense .vec) .d false]),
  (.times_col, [.obj (.viewTDense .vec) .d true, .obj (.view1D .ten) .d true, .obj (.viewTDense .mat) .d false]),
  (.times_col, [.obj (.viewTDense .vec) .d true, .obj (.view1D .ten) .d true, .obj (.viewTDense .ten) .d false]),
  (.times_col, [.obj (.viewTDense .mat) .d true, .obj .vector .d true, .obj .tdense .d false]),
  (.times_col, [.obj (.viewTDense .mat) .d true, .obj .vector .d true, .obj (.viewTDense .vec) .d false]),
  (.times_col, [.obj (.viewTDense .mat) .d true, .obj .vector .d true, .obj (.viewTDense .mat) .d false]),
  (.times_col, [.obj (.viewTDense .mat) .d true, .obj .vector .d true, .obj (.viewTDense .ten) .d false]),
  (.times_col, [.obj (.viewTDense .mat) .d true, .obj (.view1D .vec) .d true, .obj .tdense .d false]),
  (.times_col, [.obj (.viewTDense .mat) .d true, .obj (.view1D .vec) .d true, .obj (.viewTDense .vec) .d false]),
  (.times_col, [.obj (.viewTDense .mat) .d true, .obj (.view1D .vec) .d true, .obj (.viewTDense .mat) .d false]),
  (.times_col, [.obj (.viewTDense .mat) .d true, .obj (.view1D .vec) .d true, .obj (.viewTDense .ten) .d false]),
  (.times_col, [.obj (.viewTDense .mat) .d true, .obj (.view1D .mat) .d true, .obj .tdense .d false]),
  (.times_col, [.obj (.viewTDense .mat) .d true, .obj (.view1D .mat) .d true, .obj (.viewTDense .vec) .d false]),
  (.times_col, [.obj (.viewTDense .mat) .d true, .obj (.view1D .mat) .d true, .obj (.viewTDense .mat) .d false]),
  (.times_col, [.obj (.viewTDense .mat) .d true, .obj (.view1D .mat) .d true, .obj (.viewTDense .ten) .d false]),
  (.times_col, [.obj (.viewTDense .mat) .d true, .obj (.view1D .ten) .d true, .obj .tdense .d false]),
  (.times_col, [.obj (.viewTDense .mat) .d true, .obj (.view1D .ten) .d true, .obj (.viewTDense .vec) .d false]),
  (.times_col, [.obj (.viewTDense .mat) .d true, .obj (.view1D .ten) .d true, .obj (.viewTDense .mat) .d false]),
  (.times_col, [.obj (.viewTDense .mat) .d true, .obj (.view1D .ten) .d true, .obj (.viewTDense .ten) .d false]),
  (.times_col, [.obj (.viewTDense .ten) .d true, .obj .vector .d true, .obj .tdense .d false]),
  (.times_col, [.obj (.viewTDense .ten) .d true, .obj .vector .d true, .obj (.viewTDense .vec) .d false]),
  (.times_col, [.obj (.viewTDense .ten) .d true, .obj .vector .d true, .obj (.viewTDense .mat) .d false]),
  (.times_col, [.obj (.viewTDense .ten) .d true, .obj .vector .d true, .obj (.viewTDense .ten) .d false]),
  (.times_col, [.obj (.viewTDense .ten) .d true, .obj (.view1D .vec) .d true, .obj .tdense .d false]),
  (.times_col, [.obj (.viewTDense .ten) .d true, .obj (.view1D .vec) .d true, .obj (.viewTDense .vec) .d false]),
  (.times_col, [.obj (.viewTDense .ten) .d true, .obj (.view1D .vec) .d true, .obj (.viewTDense .mat) .d false]),
  (.times_col, [.obj (.viewTDense .ten) .d true, .obj (.view1D .vec) .d true, .obj (.viewTDense .ten) .d false]),
  (.times_col, [.obj (.viewTDense .ten) .d true, .obj (.view1D .mat) .d true, .obj .tdense .d false]),
  (.times_col, [.obj (.viewTDense .ten) .d true, .obj (.view1D .mat) .d true, .obj (.viewTDense .vec) .d false]),
  (.times_col, [.obj (.viewTDense .ten) .d true, .obj (.view1D .mat) .d true, .obj (.viewTDense .mat) .d false]),
  (.times_col, [.obj (.viewTDense .ten) .d true, .obj (.view1D .mat) .d true, .obj (.viewTDense .ten) .d false]),
  (.times_col, [.obj (.viewTDense .ten) .d true, .obj (.view1D .ten) .d true, .obj .tdense .d false]),
  (.times_col, [.obj (.viewTDense .ten) .d true, .obj (.view1D .ten) .d true, .obj (.viewTDense .vec) .d false]),
  (.times_col, [.obj (.viewTDense .ten) .d true, .obj (.view1D .ten) .d true, .obj (.viewTDense .mat) .d false]),
  (.times_col, [.obj (.viewTDense .ten) .d true, .obj (.view1D .ten) .d true, .obj (.viewTDense .ten) .d false]),
  (.times_col, [.obj .tdense .s true, .obj .vector .s true, .obj .tdense .s false]),
  (.times_col, [.obj .tdense .s true, .obj .vector .s true, .obj (.viewTDense .vec) .s false]),
  (.times_col, [.obj .tdense .s true, .obj .vector .s true, .obj (.viewTDense .mat) .s false]),
  (.times_col, [.obj .tdense .s true, .obj .vector .s true, .obj (.viewTDense .ten) .s false]),
  (.times_col, [.obj .tdense .s true, .obj (.view1D .vec) .s true, .obj .tdense .s false]),
  (.times_col, [.obj .tdense .s true, .obj (.view1D .vec) .s true, .obj (.viewTDense .vec) .s false]),
  (.times_col, [.obj .tdense .s true, .obj (.view1D .vec) .s true, .obj (.viewTDense .mat) .s false]),
  (.times_col, [.obj .tdense .s true, .obj (.view1D .vec) .s true, .obj (.viewTDense .ten) .s false]),
  (.times_col, [.obj .tdense .s true, .obj (.view1D .mat) .s true, .obj .tdense .s false]),
  (.times_col, [.obj .tdense .s true, .obj (.view1D .mat) .s true, .obj (.viewTDense .vec) .s false]),
  (.times_col, [.obj .tdense .s true, .obj (.view1D .mat) .s true, .obj (.viewTDense .mat) .s false]),
  (.times_col, [.obj .tdense .s true, .obj (.view1D .mat) .s true, .obj (.viewTDense .ten) .s false]),
  (.times_col, [.obj .tdense .s true, .obj (.view1D .ten) .s true, .obj .tdense .s false]),
  (.times_col, [.obj .tdense .s true, .obj (.view1D .ten) .s true, .obj (.viewTDense .vec) .s false]),
  (.times_col, [.obj .tdense .s true, .obj (.view1D .ten) .s true, .obj (.viewTDense .mat) .s false]),
  (.times_col, [.obj .tdense .s true, .obj (.view1D .ten) .s true, .obj (.viewTDense .ten) .s false]),
  (.times_col, [.obj (.viewTDense .vec) .s true, .obj .vector .s true, .obj .tdense .s false]),
  (.times_col, [.obj (.viewTDense .vec) .s true, .obj .vector .s true, .obj (.viewTDense .vec) .s false]),
  (.times_col, [.obj (.viewTDense .vec) .s true, .obj .vector .s true, .obj (.viewTDense .mat) .s false]),
  (.times_col, [.obj (.viewTDense .vec) .s true, .obj .vector .s true, .obj (.viewTDense .ten) .s false]),
  (.times_col, [.obj (.viewTDense .vec) .s true, .obj (.view1D .vec) .s true, .obj .tdense .s false]),
  (.times_col, [.obj (.viewTDense .vec) .s true, .obj (.view1D .vec) .s true, .obj (.viewTDense .vec) .s false]),
  (.times_col, [.obj (.viewTDense .vec) .s true, .obj (.view1D .vec) .s true, .obj (.viewTDense .mat) .s false]),
  (.times_col, [.obj (.viewTDense .vec) .s true, .obj (.view1D .vec) .s true, .obj (.viewTDense .ten) .s false]),
  (.times_col, [.obj (.viewTDense .vec) .s true, .obj (.view1D .mat) .s true, .obj .tdense .s false]),
  (.times_col, [.obj (.viewTDense .vec) .s true, .obj (.view1D .mat) .s true, .obj (.viewTDense .vec) .s false]),
  (.times_col, [.obj (.viewTDense .vec) .s true, .obj (.view1D .mat) .s true, .obj (.viewTDense .mat) .s false]),
  (.times_col, [.obj (.viewTDense .vec) .s true, .obj (.view1D .mat) .s true, .obj (.viewTDense .ten) .s false]),
  (.times_col, [.obj (.viewTDense .vec) .s true, .obj (.view1D .ten) .s true, .obj .tdense .s false]),
  (.times_col, [.obj (.viewTDense .vec) .s true, .obj (.view1D .ten) .s true, .obj (.viewTDense .vec) .s false]),
  (.times_col, [.obj (.viewTDense .vec) .s true, .obj (.view1D .ten) .s true, .obj (.viewTDense .mat) .s false]),
  (.times_col, [.obj (.viewTDense .vec) .s true, .obj (.view1D .ten) .s true, .obj (.viewTDense .ten) .s false]),
  (.times_col, [.obj (.viewTDense .mat) .s true, .obj .vector .s true, .obj .tdense .s false]),
  (.times_col, [.obj (.viewTDense .mat) .s true, .obj .vector .s true, .obj (.viewTDense .vec) .s false]),
  (.times_col, [.obj (.viewTDense .mat) .s true, .obj .vector .s true, .obj (.viewTDense .mat) .s false]),
  (.times_col, [.obj (.viewTDense .mat) .s true, .obj .vector .s true, .obj (.viewTDense .ten) .s false]),
  (.times_col, [.obj (.viewTDense .mat) .s true, .obj (.view1D .vec) .s true, .obj .tdense .s false]),
  (.times_col, [.obj (.viewTDense .mat) .s true, .obj (.view1D .vec) .s true, .obj (.viewTDense .vec) .s false]),
  (.times_col, [.obj (.viewTDense .mat) .s true, .obj (.view1D .vec) .s true, .obj (.viewTDense .mat) .s false]),
  (.times_col, [.obj (.viewTDense .mat) .s true, .obj (.view1D .vec) .s true, .obj (.viewTDense .ten) .s false])]

/-- the overloads of `tTenTimes_3` that are declared -/
def hTenTimes_3 : List (Fn × List Par) := [
  (.times_col, [.obj (.viewTDense .mat) .s true, .obj (.view1D .mat) .s true, .obj .tdense .s false]),
  (.times_col, [.obj (.viewTDense .mat) .s true, .obj (.view1D .mat) .s true, .obj (.viewTDense .vec) .s false]),
  (.times_col, [.obj (.viewTDense .mat) .s true, .obj (.view1D .mat) .s true, .obj (.viewTDense .mat) .s false]),
  (.times_col, [.obj (.viewTDense .mat) .s true, .obj (.view1D .mat) .s true, .obj (.viewTDense .ten) .s false]),
  (.times_col, [.obj (.viewTDense .mat) .s true, .obj (.view1D .ten) .s true, .obj .tdense .s false]),
  (.times_col, [.obj (.viewTDense .mat) .s true, .obj (.view1D .ten) .s true, .obj (.viewTDense .vec) .s false]),
  (.times_col, [.obj (.viewTDense .mat) .s true, .obj (.view1D .ten) .s true, .obj (.viewTDense .mat) .s false]),
  (.times_col, [.obj (.viewTDense .mat) .s true, .obj (.view1D .ten) .s true, .obj (.viewTDense .ten) .s false]),
  (.times_col, [.obj (.viewTDense .ten) .s true, .obj .vector .s true, .obj .tdense .s false]),
  (.times_col, [.obj (.viewTDense .ten) .s true, .obj .vector .s true, .obj (.viewTDense .vec) .s false]),
  (.times_col, [.obj (.viewTDense .ten) .s true, .obj .vector .s true, .obj (.viewTDense .mat) .s false]),
  (.times_col, [.obj (.viewTDense .ten) .s true, .obj .vector .s true, .obj (.viewTDense .ten) .s false]),
  (.times_col, [.obj (.viewTDense .ten) .s true, .obj (.view1D .vec) .s true, .obj .tdense .s false]),
  (.times_col, [.obj (.viewTDense .ten) .s true, .obj (.view1D .vec) .s true, .obj (.viewTDense .vec) .s false]),
  (.times_col, [.obj (.viewTDense .ten) .s true, .obj (.view1D .vec) .s true, .obj (.viewTDense .mat) .s false]),
  (.times_col, [.obj (.viewTDense .ten) .s true, .obj (.view1D .vec) .s true, .obj (.viewTDense .ten) .s false]),
  (.times_col, [.obj (.viewTDense .ten) .s true, .obj (.view1D .mat) .s true, .obj .tdense .s false]),
  (.times_col, [.obj (.viewTDense .ten) .s true, .obj (.view1D .mat) .s true, .obj (.viewTDense .vec) .s false]),
  (.times_col, [.obj (.viewTDense .ten) .s true, .obj (.view1D .mat) .s true, .obj (.viewTDense .mat) .s false]),
  (.times_col, [.obj (.viewTDense .ten) .s true, .obj (.view1D .mat) .s true, .obj (.viewTDense .ten) .s false]),
  (.times_col, [.obj (.viewTDense .ten) .s true, .obj (.view1D .ten) .s true, .obj .tdense .s false]),
  (.times_col, [.obj (.viewTDense .ten) .s true, .obj (.view1D .ten) .s true, .obj (.viewTDense .vec) .s false]),
  (.times_col, [.obj (.viewTDense .ten) .s true, .obj (.view1D .ten) .s true, .obj (.viewTDense .mat) .s false]),
  (.times_col, [.obj (.viewTDense .ten) .s true, .obj (.view1D .ten) .s true, .obj (.viewTDense .ten) .s false]),
  (.times_row, [.obj .tdense .d true, .num, .obj .vector .d true, .obj .tdense .d false]),
  (.times_row, [.obj .tdense .d true, .num, .obj .vector .d true, .obj (.viewTDense .vec) .d false]),
  (.times_row, [.obj .tdense .d true, .num, .obj .vector .d true, .obj (.viewTDense .mat) .d false]),
  (.times_row, [.obj .tdense .d true, .num, .obj .vector .d true, .obj (.viewTDense .ten) .d false]),
  (.times_row, [.obj .tdense .d true, .num, .obj (.view1D .vec) .d true, .obj .tdense .d false]),
  (.times_row, [.obj .tdense .d true, .num, .obj (.view1D .vec) .d true, .obj (.viewTDense .vec) .d false]),
  (.times_row, [.obj .tdense .d true, .num, .obj (.view1D .vec) .d true, .obj (.viewTDense .mat) .d false]),
  (.times_row, [.obj .tdense .d true, .num, .obj (.view1D .vec) .d true, .obj (.viewTDense .ten) .d false]),
  (.times_row, [.obj .tdense .d true, .num, .obj (.view1D .mat) .d true, .obj .tdense .d false]),
  (.times_row, [.obj .tdense .d true, .num, .obj (.view1D .mat) .d true, .obj (.viewTDense .vec) .d false]),
  (.times_row, [.obj .tdense .d true, .num, .obj (.view1D .mat) .d true, .obj (.viewTDense .mat) .d false]),
  (.times_row, [.obj .tdense .d true, .num, .obj (.view1D .mat) .d true, .obj (.viewTDense .ten) .d false]),
  (.times_row, [.obj .tdense .d true, .num, .obj (.view1D .ten) .d true, .obj .tdense .d false]),
  (.times_row, [.obj .tdense .d true, .num, .obj (.view1D .ten) .d true, .obj (.viewTDense .vec) .d false]),
  (.times_row, [.obj .tdense .d true, .num, .obj (.view1D .ten) .d true, .obj (.viewTDense .mat) .d false]),
  (.times_row, [.obj .tdense .d true, .num, .obj (.view1D .ten) .d true, .obj (.viewTDense .ten) .d false]),
  (.times_row, [.obj (.viewTDense .vec) .d true, .num, .obj .vector .d true, .obj .tdense .d false]),
  (.times_row, [.obj (.viewTDense .vec) .d true, .num, .obj .vector .d true, .obj (.viewTDense .vec) .d false]),
  (.times_row, [.obj (.viewTDense .vec) .d true, .num, .obj .vector .d true, .obj (.viewTDense .mat) .d false]),
  (.times_row, [.obj (.viewTDense .vec) .d true, .num, .obj .vector .d true, .obj (.viewTDense .ten) .d false]),
  (.times_row, [.obj (.viewTDense .vec) .d true, .num, .obj (.view1D .vec) .d true, .obj .tdense .d false]),
  (.times_row, [.obj (.viewTDense .vec) .d true, .num, .obj (.view1D .vec) .d true, .obj (.viewTDense .vec) .d false]),
  (.times_row, [.obj (.viewTDense .vec) .d true, .num, .obj (.view1D .vec) .d true, .obj (.viewTDense .mat) .d false]),
  (.times_row, [.obj (.viewTDense .vec) .d true, .num, .obj (.view1D .vec) .d true, .obj (.viewTDense .ten) .d false]),
  (.times_row, [.obj (.viewTDense .vec) .d true, .num, .obj (.view1D .mat) .d true, .obj .tdense .d false]),
  (.times_row, [.obj (.viewTDense .vec) .d true, .num, .obj (.view1D .mat) .d true, .obj (.viewTDense .vec) .d false]),
  (.times_row, [.obj (.viewTDense .vec) .d true, .num, .obj (.view1D .mat) .d true, .obj (.viewTDense .mat) .d false]),
  (.times_row, [.obj (.viewTDense .vec) .d true, .num, .obj (.view1D .mat) .d true, .obj (.viewTDense .ten) .d false]),
  (.times_row, [.obj (.viewTDense .vec) .d true, .num, .obj (.view1D .ten) .d true, .obj .tdense .d false]),
  (.times_row, [.obj (.viewTDense .vec) .d true, .num, .obj (.view1D .ten) .d true, .obj (.viewTDense .vec) .d false]),
  (.times_row, [.obj (.viewTDense .vec) .d true, .num, .obj (.view1D .ten) .d true, .obj (.viewTDense .mat) .d false]),
  (.times_row, [.obj (.viewTDense .vec) .d true, .num, .obj (.view1D .ten) .d true, .obj (.viewTDense .ten) .d false]),
  (.times_row, [.obj (.viewTDense .mat) .d true, .num, .obj .vector .d true, .obj .tdense .d false]),
  (.times_row, [.obj (.viewTDense .mat) .d true, .num, .obj .vector .d true, .obj (.viewTDense .vec) .d false]),
  (.times_row, [.obj (.viewTDense .mat) .d true, .num, .obj .vector .d true, .obj (.viewTDense .mat) .d false]),
  (.times_row, [.obj (.viewTDense .mat) .d true, .num, .obj .vector .d true, .obj (.viewTDense .ten) .d false]),
  (.times_row, [.obj (.viewTDense .mat) .d true, .num, .obj (.view1D .vec) .d true, .obj .tdense .d false]),
  (.times_row, [.obj (.viewTDense .mat) .d true, .num, .obj (.view1D .vec) .d true, .obj (.viewTDense .vec) .d false]),
  (.times_row, [.obj (.viewTDense .mat) .d true, .num, .obj (.view1D .vec) .d true, .obj (.viewTDense .mat) .d false]),
  (.times_row, [.obj (.viewTDense .mat) .d true, .num, .obj (.view1D .vec) .d true, .obj (.viewTDense .ten) .d false]),
  (.times_row, [.obj (.viewTDense .mat) .d true, .num, .obj (.view1D .mat) .d true, .obj .tdense .d false]),
  (.times_row, [.obj (.viewTDense .mat) .d true, .num, .obj (.view1D .mat) .d true, .obj (.viewTDense .vec) .d false]),
  (.times_row, [.obj (.viewTDense .mat) .d true, .num, .obj (.view1D .mat) .d true, .obj (.viewTDense .mat) .d false]),
  (.times_row, [.obj (.viewTDense .mat) .d true, .num, .obj (.view1D .mat) .d true, .obj (.viewTDense .ten) .d false]),
  (.times_row, [.obj (.viewTDense .mat) .d true, .num, .obj (.view1D .ten) .d true, .obj .tdense .d false]),
  (.times_row, [.obj (.viewTDense .mat) .d true, .num, .obj (.view1D .ten) .d true, .obj (.viewTDense .vec) .d false]),
  (.times_row, [.obj (.viewTDense .mat) .d true, .num, .obj (.view1D .ten) .d true, .obj (.viewTDense .mat) .d false]),
  (.times_row, [.obj (.viewTDense .mat) .d true, .num, .obj (.view1D .ten) .d true, .obj (.viewTDense .ten) .d false]),
  (.times_row, [.obj (.viewTDense .ten) .d true, .num, .obj .vector .d true, .obj .tdense .d false]),
  (.times_row, [.obj (.viewTDense .ten) .d true, .num, .obj .vector .d true, .obj (.viewTDense .vec) .d false]),
  (.times_row, [.obj (.viewTDense .ten) .d true, .num, .obj .vector .d true, .obj (.viewTDense .mat) .d false]),
  (.times_row, [.obj (.viewTDense .ten) .d true, .num, .obj .vector .d true, .obj (.viewTDense .ten) .d false]),
  (.times_row, [.obj (.viewTDense .ten) .d true, .num, .obj (.view1D .vec) .d true, .obj .tdense .d false]),
  (.times_row, [.obj (.viewTDense .ten) .d true, .num, .obj (.view1D .vec) .d true, .obj (.viewTDense .vec) .d false]),
  (.times_row, [.obj (.viewTDense .ten) .d true, .num, .obj (.view1D .vec) .d true, .obj (.viewTDense .mat) .d false]),
  (.times_row, [.obj (.viewTDense .ten) .d true, .num, .obj (.view1D .vec) .d true, .obj (.viewTDense .ten) .d false])]

/-- the overloads of `tTenTimes_4` that are declared -/
def hTenTimes_4 : List (Fn × List Par) := [
  (.times_row, [.obj (.viewTDense .ten) .d true, .num, .obj (.view1D .mat) .d true, .obj .tdense .d false]),
  (.times_row, [.obj (.viewTDense .ten) .d true, .num, .obj (.view1D .mat) .d true, .obj (.viewTDense .vec) .d false]),
  (.times_row, [.obj (.viewTDense .ten) .d true, .num, .obj (.view1D .mat) .d true, .obj (.viewTDense .mat) .d false]),
  (.times_row, [.obj (.viewTDense .ten) .d true, .num, .obj (.view1D .mat) .d true, .obj (.viewTDense .ten) .d false]),
  (.times_row, [.obj (.viewTDense .ten) .d true, .num, .obj (.view1D .ten) .d true, .obj .tdense .d false]),
  (.times_row, [.obj (.viewTDense .ten) .d true, .num, .obj (.view1D .ten) .d true, .obj (.viewTDense .vec) .d false]),
  (.times_row, [.obj (.viewTDense .ten) .d true, .num, .obj (.view1D .ten) .d true, .obj (.viewTDense .mat) .d false]),
  (.times_row, [.obj (.viewTDense .ten) .d true, .num, .obj (.view1D .ten) .d true, .obj (.viewTDense .ten) .d false]),
  (.times_row, [.obj .tdense .s true, .num, .obj .vector .s true, .obj .tdense .s false]),
  (.times_row, [.obj .tdense .s true, .num, .obj .vector .s true, .obj (.viewTDense .vec) .s false]),
  (.times_row, [.obj .tdense .s true, .num, .obj .vector .s true, .obj (.viewTDense .mat) .s false]),
  (.times_row, [.obj .tdense .s true, .num, .obj .vector .s true, .obj (.viewTDense .ten) .s false]),
  (.times_row, [.obj .tdense .s true, .num, .obj (.view1D .vec) .s true, .obj .tdense .s false]),
  (.times_row, [.obj .tdense .s true, .num, .obj (.view1D .vec) .s true, .obj (.viewTDense .vec) .s false]),
  (.times_row, [.obj .tdense .s true, .num, .obj (.view1D .vec) .s true, .obj (.viewTDense .mat) .s false]),
  (.times_row, [.obj .tdense .s true, .num, .obj (.view1D .vec) .s true, .obj (.viewTDense .ten) .s false]),
  (.times_row, [.obj .tdense .s true, .num, .obj (.view1D .mat) .s true, .obj .tdense .s false]),
  (.times_row, [.obj .tdense .s true, .num, .obj (.view1D .mat) .s true, .obj (.viewTDense .vec) .s false]),
  (.times_row, [.obj .tdense .s true, .num, .obj (.view1D .mat) .s true, .obj (.viewTDense .mat) .s false]),
  (.times_row, [.obj .tdense .s true, .num, .obj (.view1D .mat) .s true, .obj (.viewTDense .ten) .s false]),
  (.times_row, [.obj .tdense .s true, .num, .obj (.view1D .ten) .s true, .obj .tdense .s false]),
  (.times_row, [.obj .tdense .s true, .num, .obj (.view1D .ten) .s true, .obj (.viewTDense .vec) .s false]),
  (.times_row, [.obj .tdense .s true, .num, .obj (.view1D .ten) .s true, .obj (.viewTDense .mat) .s false]),
  (.times_row, [.obj .tdense .s true, .num, .obj (.view1D .ten) .s true, .obj (.viewTDense .ten) .s false]),
  (.times_row, [.obj (.viewTDense .vec) .s true, .num, .obj .vector .s true, .obj .tdense .s false]),
  (.times_row, [.obj (.viewTDense .vec) .s true, .num, .obj .vector .s true, .obj (.viewTDense .vec) .s false]),
  (.times_row, [.obj (.viewTDense .vec) .s true, .num, .obj .vector .s true, .obj (.viewTDense .mat) .s false]),
  (.times_row, [.obj (.viewTDense .vec) .s true, .num, .obj .vector .s true, .obj (.viewTDense .ten) .s false]),
  (.times_row, [.obj (.viewTDense .vec) .s true, .num, .obj (.view1D .vec) .s true, .obj .tdense .s false]),
  (.times_row, [.obj (.viewTDense .vec) .s true, .num, .obj (.view1D .vec) .s true, .obj (.viewTDense .vec) .s false]),
  (.times_row, [.obj (.viewTDense .vec) .s true, .num, .obj (.view1D .vec) .s true, .obj (.viewTDense .mat) .s false]),
  (.times_row, [.obj (.viewTDense .vec) .s true, .num, .obj (.view1D .vec) .s true, .obj (.viewTDense .ten) .s false]),
  (.times_row, [.obj (.viewTDense .vec) .s true, .num, .obj (.view1D .mat) .s true, .obj .tdense .s false]),
  (.times_row, [.obj (.viewTDense .vec) .s true, .num, .obj (.view1D .mat) .s true, .obj (.viewTDense .vec) .s false]),
  (.times_row, [.obj (.viewTDense .vec) .s true, .num, .obj (.view1D .mat) .s true, .obj (.viewTDense .mat) .s false]),
  (.times_row, [.obj (.viewTDense .vec) .s true, .num, .obj (.view1D .mat) .s true, .obj (.viewTDense .ten) .s false]),
  (.times_row, [.obj (.viewTDense .vec) .s true, .num, .obj (.view1D .ten) .s true, .obj .tdense .s false]),
  (.times_row, [.obj (.viewTDense .vec) .s true, .num, .obj (.view1D .ten) .s true, .obj (.viewTDense .vec) .s false]),
  (.times_row, [.obj (.viewTDense .vec) .s true, .num, .obj (.view1D .ten) .s true, .obj (.viewTDense .mat) .s false]),
  (.times_row, [.obj (.viewTDense .vec) .s true, .num, .obj (.view1D .ten) .s true, .obj (.viewTDense .ten) .s false]),
  (.times_row, [.obj (.viewTDense .mat) .s true, .num, .obj .vector .s true, .obj .tdense .s false]),
  (.times_row, [.obj (.viewTDense .mat) .s true, .num, .obj .vector .s true, .obj (.viewTDense .vec) .s false]),
  (.times_row, [.obj (.viewTDense .mat) .s true, .num, .obj .vector .s true, .obj (.viewTDense .mat) .s false]),
  (.times_row, [.obj (.viewTDense .mat) .s true, .num, .obj .vector .s true, .obj (.viewTDense .ten) .s false]),
  (.times_row, [.obj (.viewTDense .mat) .s true, .num, .obj (.view1D .vec) .s true, .obj .tdense .s false]),
  (.times_row, [.obj (.viewTDense .mat) .s true, .num, .obj (.view1D .vec) .s true, .obj (.viewTDense .vec) .s false]),
  (.times_row, [.obj (.viewTDense .mat) .s true, .num, .obj (.view1D .vec) .s true, .obj (.viewTDense .mat) .s false]),
  (.times_row, [.obj (.viewTDense .mat) .s true, .num, .obj (.view1D .vec) .s true, .obj (.viewTDense .ten) .s false]),
  (.times_row, [.obj (.viewTDense .mat) .s true, .num, .obj (.view1D .mat) .s true, .obj .tdense .s false]),
  (.times_row, [.obj (.viewTDense .mat) .s true, .num, .obj (.view1D .mat) .s true, .obj (.viewTDense .vec) .s false]),
  (.times_row, [.obj (.viewTDense .mat) .s true, .num, .obj (.view1D .mat) .s true, .obj (.viewTDense .mat) .s false]),
  (.times_row, [.obj (.viewTDense .mat) .s true, .num, .obj (.view1D .mat) .s true, .obj (.viewTDense .ten) .s false]),
  (.times_row, [.obj (.viewTDense .mat) .s true, .num, .obj (.view1D .ten) .s true, .obj .tdense .s false]),
  (.times_row, [.obj (.viewTDense .mat) .s true, .num, .obj (.view1D .ten) .s true, .obj (.viewTDense .vec) .s false]),
  (.times_row, [.obj (.viewTDense .mat) .s true, .num, .obj (.view1D .ten) .s true, .obj (.viewTDense .mat) .s false]),
  (.times_row, [.obj (.viewTDense .mat) .s true, .num, .obj (.view1D .ten) .s true, .obj (.viewTDense .ten) .s false]),
  (.times_row, [.obj (.viewTDense .ten) .s true, .num, .obj .vector .s true, .obj .tdense .s false]),
  (.times_row, [.obj (.viewTDense .ten) .s true, .num, .obj .vector .s true, .obj (.viewTDense .vec) .s false]),
  (.times_row, [.obj (.viewTDense .ten) .s true, .num, .obj .vector .s true, .obj (.viewTDense .mat) .s false]),
  (.times_row, [.obj (.viewTDense .ten) .s true, .num, .obj .vector .s true, .obj (.viewTDense .ten) .s false]),
  (.times_row, [.obj (.viewTDense .ten) .s true, .num, .obj (.view1D .vec) .s true, .obj .tdense .s false]),
  (.times_row, [.obj (.viewTDense .ten) .s true, .num, .obj (.view1D .vec) .s true, .obj (.viewTDense .vec) .s false]),
  (.times_row, [.obj (.viewTDense .ten) .s true, .num, .obj (.view1D .vec) .s true, .obj (.viewTDense .mat) .s false]),
  (.times_row, [.obj (.viewTDense .ten) .s true, .num, .obj (.view1D .vec) .s true, .obj (.viewTDense .ten) .s false]),
  (.times_row, [.obj (.viewTDense .ten) .s true, .num, .obj (.view1D .mat) .s true, .obj .tdense .s false]),
  (.times_row, [.obj (.viewTDense .ten) .s true, .num, .obj (.view1D .mat) .s true, .obj (.viewTDense .vec) .s false]),
  (.times_row, [.obj (.viewTDense .ten) .s true, .num, .obj (.view1D .mat) .s true, .obj (.viewTDense .mat) .s false]),
  (.times_row, [.obj (.viewTDense .ten) .s true, .num, .obj (.view1D .mat) .s true, .obj (.viewTDense .ten) .s false]),
  (.times_row, [.obj (.viewTDense .ten) .s true, .num, .obj (.view1D .ten) .s true, .obj .tdense .s false]),
  (.times_row, [.obj (.viewTDense .ten) .s true, .num, .obj (.view1D .ten) .s true, .obj (.viewTDense .vec) .s false]),
  (.times_row, [.obj (.viewTDense .ten) .s true, .num, .obj (.view1D .ten) .s true, .obj (.viewTDense .mat) .s false]),
  (.times_row, [.obj (.viewTDense .ten) .s true, .num, .obj (.view1D .ten) .s true, .obj (.viewTDense .ten) .s false]),
  (.times_col, [.obj .tdense .d true, .num, .obj .vector .d true, .obj .tdense .d false]),
  (.times_col, [.obj .tdense .d true, .num, .obj .vector .d true, .obj (.viewTDense .vec) .d false]),
  (.times_col, [.obj .tdense .d true, .num, .obj .vector .d true, .obj (.viewTDense .mat) .d false]),
  (.times_col, [.obj .tdense .d true, .num, .obj .vector .d true, .obj (.viewTDense .ten) .d false]),
  (.times_col, [.obj .tdense .d true, .num, .obj (.view1D .vec) .d true, .obj .tdense .d false]),
  (.times_col, [.obj .tdense .d true, .num, .obj (.view1D .vec) .d true, .obj (.viewTDense .vec) .d false]),
  (.times_col, [.obj .tdense .d true, .num, .obj (.view1D .vec) .d true, .obj (.viewTDense .mat) .d false]),
  (.times_col, [.obj .tdense .d true, .num, .obj (.view1D .vec) .d true, .obj (.viewTDense .ten) .d false])]

/-- the overloads of `tTenTimes_5` that are declared -/
def hTenTimes_5 : List (Fn × List Par) := [
  (.times_col, [.obj .tdense .d true, .num, .obj (.view1D .mat) .d true, .obj .tdense .d false]),
  (.times_col, [.obj .tdense .d true, .num, .obj (.view1D .mat) .d true, .obj (.viewTDense .vec) .d false]),
  (.times_col, [.obj .tdense .d true, .num, .obj (.view1D .mat) .d true, .obj (.viewTDense .mat) .d false]),
  (.times_col, [.obj .tdense .d true, .num, .obj (.view1D .mat) .d true, .obj (.viewTDense .ten) .d false]),
  (.times_col, [.obj .tdense .d true, .num, .obj (.view1D .ten) .d true, .obj .tdense .d false]),
  (.times_col, [.obj .tdense .d true, .num, .obj (.view1D .ten) .d true, .obj (.viewTDense .vec) .d false]),
  (.times_col, [.obj .tdense .d true, .num, .obj (.view1D .ten) .d true, .obj (.viewTDense .mat) .d false]),
  (.times_col, [.obj .tdense .d true, .num, .obj (.view1D .ten) .d true, .obj (.viewTDense .ten) .d false]),
  (.times_col, [.obj (.viewTDense .vec) .d true, .num, .obj .vector .d true, .obj .tdense .d false]),
  (.times_col, [.obj (.viewTDense .vec) .d true, .num, .obj .vector .d true, .obj (.viewTDense .vec) .d false]),
  (.times_col, [.obj (.viewTDense .vec) .d true, .num, .obj .vector .d true, .obj (.viewTDense .mat) .d false]),
  (.times_col, [.obj (.viewTDense .vec) .d true, .num, .obj .vector .d true, .obj (.viewTDense .ten) .d false]),
  (.times_col, [.obj (.viewTDense .vec) .d true, .num, .obj (.view1D .vec) .d true, .obj .tdense .d false]),
  (.times_col, [.obj (.viewTDense .vec) .d true, .num, .obj (.view1D .vec) .d true, .obj (.viewTDense .vec) .d false]),
  (.times_col, [.obj (.viewTDense .vec) .d true, .num, .obj (.view1D .vec) .d true, .obj (.viewTDense .mat) .d false]),
  (.times_col, [.obj (.viewTDense .vec) .d true, .num, .obj (.view1D .vec) .d true, .obj (.viewTDense .ten) .d false]),
  (.times_col, [.obj (.viewTDense .vec) .d true, .num, .obj (.view1D .mat) .d true, .obj .tdense .d false]),
  (.times_col, [.obj (.viewTDense .vec) .d true, .num, .obj (.view1D .mat) .d true, .obj (.viewTDense .vec) .d false]),
  (.times_col, [.obj (.viewTDense .vec) .d true, .num, .obj (.view1D .mat) .d true, .obj (.viewTDense .mat) .d false]),
  (.times_col, [.obj (.viewTDense .vec) .d true, .num, .obj (.view1D .mat) .d true, .obj (.viewTDense .ten) .d false]),
  (.times_col, [.obj (.viewTDense .vec) .d true, .num, .obj (.view1D .ten) .d true, .obj .tdense .d false]),
  (.times_col, [.obj (.viewTDense .vec) .d true, .num, .obj (.view1D .ten) .d true, .obj (.viewTDense .vec) .d false]),
  (.times_col, [.obj (.viewTDense .vec) .d true, .num, .obj (.view1D .ten) .d true, .obj (.viewTDense .mat) .d false]),
  (.times_col, [.obj (.viewTDense .vec) .d true, .num, .obj (.view1D .ten) .d true, .obj (.viewTDense .ten) .d false]),
  (.times_col, [.obj (.viewTDense .mat) .d true, .num, .obj .vector .d true, .obj .tdense .d false]),
  (.times_col, [.obj (.viewTDense .mat) .d true, .num, .obj .vector .d true, .obj (.viewTDense .vec) .d false]),
  (.times_col, [.obj (.viewTDense .mat) .d true, .num, .obj .vector .d true, .obj (.viewTDense .mat) .d false]),
  (.times_col, [.obj (.viewTDense .mat) .d true, .num, .obj .vector .d true, .obj (.viewTDense .ten) .d false]),
  (.times_col, [.obj (.viewTDense .mat) .d true, .num, .obj (.view1D .vec) .d true, .obj .tdense .d false]),
  (.times_col, [.obj (.viewTDense .mat) .d true, .num, .obj (.view1D .vec) .d true, .obj (.viewTDense .vec) .d false]),
  (.times_col, [.obj (.viewTDense .mat) .d true, .num, .obj (.view1D .vec) .d true, .obj (.viewTDense .mat) .d false]),
  (.times_col, [.obj (.viewTDense .mat) .d true, .num, .obj (.view1D .vec) .d true, .obj (.viewTDense .ten) .d false]),
  (.times_col, [.obj (.viewTDense .mat) .d true, .num, .obj (.view1D .mat) .d true, .obj .tdense .d false]),
  (.times_col, [.obj (.viewTDense .mat) .d true, .num, .obj (.view1D .mat) .d true, .obj (.viewTDense .vec) .d false]),
  (.times_col, [.obj (.viewTDense .mat) .d true, .num, .obj (.view1D .mat) .d true, .obj (.viewTDense .mat) .d false]),
  (.times_col, [.obj (.viewTDense .mat) .d true, .num, .obj (.view1D .mat) .d true, .obj (.viewTDense .ten) .d false]),
  (.times_col, [.obj (.viewTDense .mat) .d true, .num, .obj (.view1D .ten) .d true, .obj .tdense .d false]),
  (.times_col, [.obj (.viewTDense .mat) .d true, .num, .obj (.view1D .ten) .d true, .obj (.viewTDense .vec) .d false]),
  (.times_col, [.obj (.viewTDense .mat) .d true, .num, .obj (.view1D .ten) .d true, .obj (.viewTDense .mat) .d false]),
  (.times_col, [.obj (.viewTDense .mat) .d true, .num, .obj (.view1D .ten) .d true, .obj (.viewTDense .ten) .d false]),
  (.times_col, [.obj (.viewTDense .ten) .d true, .num, .obj .vector .d true, .obj .tdense .d false]),
  (.times_col, [.obj (.viewTDense .ten) .d true, .num, .obj .vector .d true, .obj (.viewTDense .vec) .d false]),
  (.times_col, [.obj (.viewTDense .ten) .d true, .num, .obj .vector .d true, .obj (.viewTDense .mat) .d false]),
  (.times_col, [.obj (.viewTDense .ten) .d true, .num, .obj .vector .d true, .obj (.viewTDense .ten) .d false]),
  (.times_col, [.obj (.viewTDense .ten) .d true, .num, .obj (.view1D .vec) .d true, .obj .tdense .d false]),
  (.times_col, [.obj (.viewTDense .ten) .d true, .num, .obj (.view1D .vec) .d true, .obj (.viewTDense .vec) .d false]),
  (.times_col, [.obj (.viewTDense .ten) .d true, .num, .obj (.view1D .vec) .d true, .obj (.viewTDense .mat) .d false]),
  (.times_col, [.obj (.viewTDense .ten) .d true, .num, .obj (.view1D .vec) .d true, .obj (.viewTDense .ten) .d false]),
  (.times_col, [.obj (.viewTDense .ten) .d true, .num, .obj (.view1D .mat) .d true, .obj .tdense .d false]),
  (.times_col, [.obj (.viewTDense .ten) .d true, .num, .obj (.view1D .mat) .d true, .obj (.viewTDense .vec) .d false]),
  (.times_col, [.obj (.viewTDense .ten) .d true, .num, .obj (.view1D .mat) .d true, .obj (.viewTDense .mat) .d false]),
  (.times_col, [.obj (.viewTDense .ten) .d true, .num, .obj (.view1D .mat) .d true, .obj (.viewTDense .ten) .d false]),
  (.times_col, [.obj (.viewTDense .ten) .d true, .num, .obj (.view1D .ten) .d true, .obj .tdense .d false]),
  (.times_col, [.obj (.viewTDense .ten) .d true, .num, .obj (.view1D .ten) .d true, .obj (.viewTDense .vec) .d false]),
  (.times_col, [.obj (.viewTDense .ten) .d true, .num, .obj (.view1D .ten) .d true, .obj (.viewTDense .mat) .d false]),
  (.times_col, [.obj (.viewTDense .ten) .d true, .num, .obj (.view1D .ten) .d true, .obj (.viewTDense .ten) .d false]),
  (.times_col, [.obj .tdense .s true, .num, .obj .vector .s true, .obj .tdense .s false]),
  (.times_col, [.obj .tdense .s true, .num, .obj .vector .s true, .obj (.viewTDense .vec) .s false]),
  (.times_col, [.obj .tdense .s true, .num, .obj .vector .s true, .obj (.viewTDense .mat) .s false]),
  (.times_col, [.obj .tdense .s true, .num, .obj .vector .s true, .obj (.viewTDense .ten) .s false]),
  (.times_col, [.obj .tdense .s true, .num, .obj (.view1D .vec) .s true, .obj .tdense .s false]),
  (.times_col, [.obj .tdense .s true, .num, .obj (.view1D .vec) .s true, .obj (.viewTDense .vec) .s false]),
  (.times_col, [.obj .tdense .s true, .num, .obj (.view1D .vec) .s true, .obj (.viewTDense .mat) .s false]),
  (.times_col, [.obj .tdense .s true, .num, .obj (.view1D .vec) .s true, .obj (.viewTDense .ten) .s false]),
  (.times_col, [.obj .tdense .s true, .num, .obj (.view1D .mat) .s true, .obj .tdense .s false]),
  (.times_col, [.obj .tdense .s true, .num, .obj (.view1D .mat) .s true, .obj (.viewTDense .vec) .s false]),
  (.times_col, [.obj .tdense .s true, .num, .obj (.view1D .mat) .s true, .obj (.viewTDense .mat) .s false]),
  (.times_col, [.obj .tdense .s true, .num, .obj (.view1D .mat) .s true, .obj (.viewTDense .ten) .s false]),
  (.times_col, [.obj .tdense .s true, .num, .obj (.view1D .ten) .s true, .obj .tdense .s false]),
  (.times_col, [.obj .tdense .s true, .num, .obj (.view1D .ten) .s true, .obj (.viewTDense .vec) .s false]),
  (.times_col, [.obj .tdense .s true, .num, .obj (.view1D .ten) .s true, .obj (.viewTDense .mat) .s false]),
  (.times_col, [.obj .tdense .s true, .num, .obj (.view1D .ten) .s true, .obj (.viewTDense .ten) .s false]),
  (.times_col, [.obj (.viewTDense .vec) .s true, .num, .obj .vector .s true, .obj .tdense .s false]),
  (.times_col, [.obj (.viewTDense .vec) .s true, .num, .obj .vector .s true, .obj (.viewTDense .vec) .s false]),
  (.times_col, [.obj (.viewTDense .vec) .s true, .num, .obj .vector .s true, .obj (.viewTDense .mat) .s false]),
  (.times_col, [.obj (.viewTDense .vec) .s true, .num, .obj .vector .s true, .obj (.viewTDense .ten) .s false]),
  (.times_col, [.obj (.viewTDense .vec) .s true, .num, .obj (.view1D .vec) .s true, .obj .tdense .s false]),
  (.times_col, [.obj (.viewTDense .vec) .s true, .num, .obj (.view1D .vec) .s true, .obj (.viewTDense .vec) .s false]),
  (.times_col, [.obj (.viewTDense .vec) .s true, .num, .obj (.view1D .vec) .s true, .obj (.viewTDense .mat) .s false]),
  (.times_col, [.obj (.viewTDense .vec) .s true, .num, .obj (.view1D .vec) .s true, .obj (.viewTDense .ten) .s false])]

/-- the overloads of `tTenTimes_6` that are declared -/
def hTenTimes_6 : List (Fn × List Par) := [
  (.times_col, [.obj (.viewTDense .vec) .s true, .num, .obj (.view1D .mat) .s true, .obj .tdense .s false]),
  (.times_col, [.obj (.viewTDense .vec) .s true, .num, .obj (.view1D .mat) .s true, .obj (.viewTDense .vec) .s false]),
  (.times_col, [.obj (.viewTDense .vec) .s true, .num, .obj (.view1D .mat) .s true, .obj (.viewTDense .mat) .s false]),
  (.times_col, [.obj (.viewTDense .vec) .s true, .num, .obj (.view1D .mat) .s true, .obj (.viewTDense .ten) .s false]),
  (.times_col, [.obj (.viewTDense .vec) .s true, .num, .obj (.view1D .ten) .s true, .obj .tdense .s false]),
  (.times_col, [.obj (.viewTDense .vec) .s true, .num, .obj (.view1D .ten) .s true, .obj (.viewTDense .vec) .s false]),
  (.times_col, [.obj (.viewTDense .vec) .s true, .num, .obj (.view1D .ten) .s true, .obj (.viewTDense .mat) .s false]),
  (.times_col, [.obj (.viewTDense .vec) .s true, .num, .obj (.view1D .ten) .s true, .obj (.viewTDense .ten) .s false]),
  (.times_col, [.obj (.viewTDense .mat) .s true, .num, .obj .vector .s true, .obj .tdense .s false]),
  (.times_col, [.obj (.viewTDense .mat) .s true, .num, .obj .vector .s true, .obj (.viewTDense .vec) .s false]),
  (.times_col, [.obj (.viewTDense .mat) .s true, .num, .obj .vector .s true, .obj (.viewTDense .mat) .s false]),
  (.times_col, [.obj (.viewTDense .mat) .s true, .num, .obj .vector .s true, .obj (.viewTDense .ten) .s false]),
  (.times_col, [.obj (.viewTDense .mat) .s true, .num, .obj (.view1D .vec) .s true, .obj .tdense .s false]),
  (.times_col, [.obj (.viewTDense .mat) .s true, .num, .obj (.view1D .vec) .s true, .obj (.viewTDense .vec) .s false]),
  (.times_col, [.obj (.viewTDense .mat) .s true, .num, .obj (.view1D .vec) .s true, .obj (.viewTDense .mat) .s false]),
  (.times_col, [.obj (.viewTDense .mat) .s true, .num, .obj (.view1D .vec) .s true, .obj (.viewTDense .ten) .s false]),
  (.times_col, [.obj (.viewTDense .mat) .s true, .num, .obj (.view1D .mat) .s true, .obj .tdense .s false]),
  (.times_col, [.obj (.viewTDense .mat) .s true, .num, .obj (.view1D .mat) .s true, .obj (.viewTDense .vec) .s false]),
  (.times_col, [.obj (.viewTDense .mat) .s true, .num, .obj (.view1D .mat) .s true, .obj (.viewTDense .mat) .s false]),
  (.times_col, [.obj (.viewTDense .mat) .s true, .num, .obj (.view1D .mat) .s true, .obj (.viewTDense .ten) .s false]),
  (.times_col, [.obj (.viewTDense .mat) .s true, .num, .obj (.view1D .ten) .s true, .obj .tdense .s false]),
  (.times_col, [.obj (.viewTDense .mat) .s true, .num, .obj (.view1D .ten) .s true, .obj (.viewTDense .vec) .s false]),
  (.times_col, [.obj (.viewTDense .mat) .s true, .num, .obj (.view1D .ten) .s true, .obj (.viewTDense .mat) .s false]),
  (.times_col, [.obj (.viewTDense .mat) .s true, .num, .obj (.view1D .ten) .s true, .obj (.viewTDense .ten) .s false]),
  (.times_col, [.obj (.viewTDense .ten) .s true, .num, .obj .vector .s true, .obj .tdense .s false]),
  (.times_col, [.obj (.viewTDense .ten) .s true, .num, .obj .vector .s true, .obj (.viewTDense .vec) .s false]),
  (.times_col, [.obj (.viewTDense .ten) .s true, .num, .obj .vector .s true, .obj (.viewTDense .mat) .s false]),
  (.times_col, [.obj (.viewTDense .ten) .s true, .num, .obj .vector .s true, .obj (.viewTDense .ten) .s false]),
  (.times_col, [.obj (.viewTDense .ten) .s true, .num, .obj (.view1D .vec) .s true, .obj .tdense .s false]),
  (.times_col, [.obj (.viewTDense .ten) .s true, .num, .obj (.view1D .vec) .s true, .obj (.viewTDense .vec) .s false]),
  (.times_col, [.obj (.viewTDense .ten) .s true, .num, .obj (.view1D .vec) .s true, .obj (.viewTDense .mat) .s false]),
  (.times_col, [.obj (.viewTDense .ten) .s true, .num, .obj (.view1D .vec) .s true, .obj (.viewTDense .ten) .s false]),
  (.times_col, [.obj (.viewTDense .ten) .s true, .num, .obj (.view1D .mat) .s true, .obj .tdense .s false]),
  (.times_col, [.obj (.viewTDense .ten) .s true, .num, .obj (.view1D .mat) .s true, .obj (.viewTDense .vec) .s false]),
  (.times_col, [.obj (.viewTDense .ten) .s true, .num, .obj (.view1D .mat) .s true, .obj (.viewTDense .mat) .s false]),
  (.times_col, [.obj (.viewTDense .ten) .s true, .num, .obj (.view1D .mat) .s true, .obj (.viewTDense .ten) .s false]),
  (.times_col, [.obj (.viewTDense .ten) .s true, .num, .obj (.view1D .ten) .s true, .obj .tdense .s false]),
  (.times_col, [.obj (.viewTDense .ten) .s true, .num, .obj (.view1D .ten) .s true, .obj (.viewTDense .vec) .s false]),
  (.times_col, [.obj (.viewTDense .ten) .s true, .num, .obj (.view1D .ten) .s true, .obj (.viewTDense .mat) .s false]),
  (.times_col, [.obj (.viewTDense .ten) .s true, .num, .obj (.view1D .ten) .s true, .obj (.viewTDense .ten) .s false])]

/-- the overloads of `tTenAdds_0` that are declared -/
def hTenAdds_0 : List (Fn × List Par) := [
  (.adds_row, [.obj .tdense .d true, .obj .vector .d true, .obj .tdense .d false]),
  (.adds_row, [.obj .tdense .d true, .obj .vector .d true, .obj (.viewTDense .vec) .d false]),
  (.adds_row, [.obj .tdense .d true, .obj .vector .d true, .obj (.viewTDense .mat) .d false]),
  (.adds_row, [.obj .tdense .d true, .obj .vector .d true, .obj (.viewTDense .ten) .d false]),
  (.adds_row, [.obj .tdense .d true, .obj (.view1D .vec) .d true, .obj .tdense .d false]),
  (.adds_row, [.obj .tdense .d true, .obj (.view1D .vec) .d true, .obj (.viewTDense .vec) .d false]),
  (.adds_row, [.obj .tdense .d true, .obj (.view1D .vec) .d true, .obj (.viewTDense .mat) .d false]),
  (.adds_row, [.obj .tdense .d true, .obj (.view1D .vec) .d true, .obj (.viewTDense .ten) .d false]),
  (.adds_row, [.obj .tdense .d true, .obj (.view1D .mat) .d true, .obj .tdense .d false]),
  (.adds_row, [.obj .tdense .d true, .obj (.view1D .mat) .d true, .obj (.viewTDense .vec) .d false]),
  (.adds_row, [.obj .tdense .d true, .obj (.view1D .mat) .d true, .obj (.viewTDense .mat) .d false]),
  (.adds_row, [.obj .tdense .d true, .obj (.view1D .mat) .d true, .obj (.viewTDense .ten) .d false]),
  (.adds_row, [.obj .tdense .d true, .obj (.view1D .ten) .d true, .obj .tdense .d false]),
  (.adds_row, [.obj .tdense .d true, .obj (.view1D .ten) .d true, .obj (.viewTDense .vec) .d false]),
  (.adds_row, [.obj .tdense .d true, .obj (.view1D .ten) .d true, .obj (.viewTDense .mat) .d false]),
  (.adds_row, [.obj .tdense .d true, .obj (.view1D .ten) .d true, .obj (.viewTDense .ten) .d false]),
  (.adds_row, [.obj (.viewTDense .vec) .d true, .obj .vector .d true, .obj .tdense .d false]),
  (.adds_row, [.obj (.viewTDense .vec) .d true, .obj .vector .d true, .obj (.viewTDense .vec) .d false]),
  (.adds_row, [.obj (.viewTDense .vec) .d true, .obj .vector .d true, .obj (.viewTDense .mat) .d false]),
  (.adds_row, [.obj (.viewTDense .vec) .d true, .obj .vector .d true, .obj (.viewTDense .ten) .d false]),
  (.adds_row, [.obj (.viewTDense .vec) .d true, .obj (.view1D .vec) .d true, .obj .tdense .d false]),
  (.adds_row, [.obj (.viewTDense .vec) .d true, .obj (.view1D .vec) .d true, .obj (.viewTDense .vec) .d false]),
  (.adds_row, [.obj (.viewTDense .vec) .d true, .obj (.view1D .vec) .d true, .obj (.viewTDense .mat) .d false]),
  (.adds_row, [.obj (.viewTDense .vec) .d true, .obj (.view1D .vec) .d true, .obj (.viewTDense .ten) .d false]),
  (.adds_row, [.obj (.viewTDense .vec) .d true, .obj (.view1D .mat) .d true, .obj .tdense .d false]),
  (.adds_row, [.obj (.viewTDense .vec) .d true, .obj (.view1D .mat) .d true, .obj (.viewTDense .vec) .d false]),
  (.adds_row, [.obj (.viewTDense .vec) .d true, .obj (.view1D .mat) .d true, .obj (.viewTDense .mat) .d false]),
  (.adds_row, [.obj (.viewTDense .vec) .d true, .obj (.view1D .mat) .d true, .obj (.viewTDense .ten) .d false]),
  (.adds_row, [.obj (.viewTDense .vec) .d true, .obj (.view1D .ten) .d true, .obj .tdense .d false]),
  (.adds_row, [.obj (.viewTDense .vec) .d true, .obj (.view1D .ten) .d true, .obj (.viewTDense .vec) .d false]),
  (.adds_row, [.obj (.viewTDense .vec) .d true, .obj (.view1D .ten) .d true, .obj (.viewTDense .mat) .d false]),
  (.adds_row, [.obj (.viewTDense .vec) .d true, .obj (.view1D .ten) .d true, .obj (.viewTDense .ten) .d false]),
  (.adds_row, [.obj (.viewTDense .mat) .d true, .obj .vector .d true, .obj .tdense .d false]),
  (.adds_row, [.obj (.viewTDense .mat) .d true, .obj .vector .d true, .obj (.viewTDense .vec) .d false]),
  (.adds_row, [.obj (.viewTDense .mat) .d true, .obj .vector .d true, .obj (.viewTDense .mat) .d false]),
  (.adds_row, [.obj (.viewTDense .mat) .d true, .obj .vector .d true, .obj (.viewTDense .ten) .d false]),
  (.adds_row, [.obj (.viewTDense .mat) .d true, .obj (.view1D .vec) .d true, .obj .tdense .d false]),
  (.adds_row, [.obj (.viewTDense .mat) .d true, .obj (.view1D .vec) .d true, .obj (.viewTDense .vec) .d false]),
  (.adds_row, [.obj (.viewTDense .mat) .d true, .obj (.view1D .vec) .d true, .obj (.viewTDense .mat) .d false]),
  (.adds_row, [.obj (.viewTDense .mat) .d true, .obj (.view1D .vec) .d true, .obj (.viewTDense .ten) .d false]),
  (.adds_row, [.obj (.viewTDense .mat) .d true, .obj (.view1D .mat) .d true, .obj .tdense .d false]),
  (.adds_row, [.obj (.viewTDense .mat) .d true, .obj (.view1D .mat) .d true, .obj (.viewTDense .vec) .d false]),
  (.adds_row, [.obj (.viewTDense .mat) .d true, .obj (.view1D .mat) .d true, .obj (.viewTDense .mat) .d false]),
  (.adds_row, [.obj (.viewTDense .mat) .d true, .obj (.view1D .mat) .d true, .obj (.viewTDense .ten) .d false]),
  (.adds_row, [.obj (.viewTDense .mat) .d true, .obj (.view1D .ten) .d true, .obj .tdense .d false]),
  (.adds_row, [.obj (.viewTDense .mat) .d true, .obj (.view1D .ten) .d true, .obj (.viewTDense .vec) .d false]),
  (.adds_row, [.obj (.viewTDense .mat) .d true, .obj (.view1D .ten) .d true, .obj (.viewTDense .mat) .d false]),
  (.adds_row, [.obj (.viewTDense .mat) .d true, .obj (.view1D .ten) .d true, .obj (.viewTDense .ten) .d false]),
  (.adds_row, [.obj (.viewTDense .ten) .d true, .obj .vector .d true, .obj .tdense .d false]),
  (.adds_row, [.obj (.viewTDense .ten) .d true, .obj .vector .d true, .obj (.viewTDense .vec) .d false]),
  (.adds_row, [.obj (.viewTDense .ten) .d true, .obj .vector .d true, .obj (.viewTDense .mat) .d false]),
  (.adds_row, [.obj (.viewTDense .ten) .d true, .obj .vector .d true, .obj (.viewTDense .ten) .d false]),
  (.adds_row, [.obj (.viewTDense .ten) .d true, .obj (.view1D .vec) .d true, .obj .tdense .d false]),
  (.adds_row, [.obj (.viewTDense .ten) .d true, .obj (.view1D .vec) .d true, .obj (.viewTDense .vec) .d false]),
  (.adds_row, [.obj (.viewTDense .ten) .d true, .obj (.view1D .vec) .d true, .obj (.viewTDense .mat) .d false]),
  (.adds_row, [.obj (.viewTDense .ten) .d true, .obj (.view1D .vec) .d true, .obj (.viewTDense .ten) .d false]),
  (.adds_row, [.obj (.viewTDense .ten) .d true, .obj (.view1D .mat) .d true, .obj .tdense .d false]),
  (.adds_row, [.obj (.viewTDense .ten) .d true, .obj (.view1D .mat) .d true, .obj (.viewTDense .vec) .d false]),
  (.adds_row, [.obj (.viewTDense .ten) .d true, .obj (.view1D .mat) .d true, .obj (.viewTDense .mat) .d false]),
  (.adds_row, [.obj (.viewTDense .ten) .d true, .obj (.view1D .mat) .d true, .obj (.viewTDense .ten) .d false]),
  (.adds_row, [.obj (.viewTDense .ten) .d true, .obj (.view1D .ten) .d true, .obj .tdense .d false]),
  (.adds_row, [.obj (.viewTDense .ten) .d true, .obj (.view1D .ten) .d true, .obj (.viewTDense .vec) .d false]),
  (.adds_row, [.obj (.viewTDense .ten) .d true, .obj (.view1D .ten) .d true, .obj (.viewTDense .mat) .d false]),
  (.adds_row, [.obj (.viewTDense .ten) .d true, .obj (.view1D .ten) .d true, .obj (.viewTDense .ten) .d false]),
  (.adds_row, [.obj .tdense .s true, .obj .vector .s true, .obj .tdense .s false]),
  (.adds_row, [.obj .tdense .s true, .obj .vector .s true, .obj (.viewTDense .vec) .s false]),
  (.adds_row, [.obj .tdense .s true, .obj .vector .s true, .obj (.viewTDense .mat) .s false]),
  (.adds_row, [.obj .tdense .s true, .obj .vector .s true, .obj (.viewTDense .ten) .s false]),
  (.adds_row, [.obj .tdense .s true, .obj (.view1D .vec) .s true, .obj .tdense .s false]),
  (.adds_row, [.obj .tdense .s true, .obj (.view1D .vec) .s true, .obj (.viewTDense .vec) .s false]),
  (.adds_row, [.obj .tdense .s true, .obj (.view1D .vec) .s true, .obj (.viewTDense .mat) .s false]),
  (.adds_row, [.obj .tdense .s true, .obj (.view1D .vec) .s true, .obj (.viewTDense .ten) .s false]),
  (.adds_row, [.obj .tdense .s true, .obj (.view1D .mat) .s true, .obj .tdense .s false]),
  (.adds_row, [.obj .tdense .s true, .obj (.view1D .mat) .s true, .obj (.viewTDense .vec) .s false]),
  (.adds_row, [.obj .tdense .s true, .obj (.view1D .mat) .s true, .obj (.viewTDense .mat) .s false]),
  (.adds_row, [.obj .tdense .s true, .obj (.view1D .mat) .s true, .obj (.viewTDense .ten) .s false]),
  (.adds_row, [.obj .tdense .s true, .obj (.view1D .ten) .s true, .obj .tdense .s false]),
  (.adds_row, [.obj .tdense .s true, .obj (.view1D .ten) .s true, .obj (.viewTDense .vec) .s false]),
  (.adds_row, [.obj .tdense .s true, .obj (.view1D .ten) .s true, .obj (.viewTDense .mat) .s false]),
  (.adds_row, [.obj .tdense .s true, .obj (.view1D .ten) .s true, .obj (.viewTDense .ten) .s false])]

/-- the overloads of `tTenAdds_1` that are declared -/
def hTenAdds_1 : List (Fn × List Par) := [
  (.adds_row, [.obj (.viewTDense .vec) .s true, .obj .vector .s true, .obj .tdense .s false]),
  (.adds_row, [.obj (.viewTDense .vec) .s true, .obj .vector .s true, .obj (.viewTDense .vec) .s false]),
  (.adds_row, [.obj (.viewTDense .vec) .s true, .obj .vector .s true, .obj (.viewTDense .mat) .s false]),
  (.adds_row, [.obj (.viewTDense .vec) .s true, .obj .vector .s true, .obj (.viewTDense .ten) .s false]),
  (.adds_row, [.obj (.viewTDense .vec) .s true, .obj (.view1D .vec) .s true, .obj .tdense .s false]),
  (.adds_row, [.obj (.viewTDense .vec) .s true, .obj (.view1D .vec) .s true, .obj (.viewTDense .vec) .s false]),
  (.adds_row, [.obj (.viewTDense .vec) .s true, .obj (.view1D .vec) .s true, .obj (.viewTDense .mat) .s false]),
  (.adds_row, [.obj (.viewTDense .vec) .s true, .obj (.view1D .vec) .s true, .obj (.viewTDense .ten) .s false]),
  (.adds_row, [.obj (.viewTDense .vec) .s true, .obj (.view1D .mat) .s true, .obj .tdense .s false]),
  (.adds_row, [.obj (.viewTDense .vec) .s true, .obj (.view1D .mat) .s true, .obj (.viewTDense .vec) .s false]),
  (.adds_row, [.obj (.viewTDense .vec) .s true, .obj (.view1D .mat) .s true, .obj (.viewTDense .mat) .s false]),
  (.adds_row, [.obj (.viewTDense .vec) .s true, .obj (.view1D .mat) .s true, .obj (.viewTDense .ten) .s false]),
  (.adds_row, [.obj (.viewTDense .vec) .s true, .obj (.view1D .ten) .s true, .obj .tdense .s false]),
  (.adds_row, [.obj (.viewTDense .vec) .s true, .obj (.view1D .ten) .s true, .obj (.viewTDense .vec) .s false]),
  (.adds_row, [.obj (.viewTDense .vec) .s true, .obj (.view1D .ten) .s true, .obj (.viewTDense .mat) .s false]),
  (.adds_row, [.obj (.viewTDense .vec) .s true, .obj (.view1D .ten) .s true, .obj (.viewTDense .ten) .s false]),
  (.adds_row, [.obj (.viewTDense .mat) .s true, .obj .vector .s true, .obj .tdense .s false]),
  (.adds_row, [.obj (.viewTDense .mat) .s true, .obj .vector .s true, .obj (.viewTDense .vec) .s false]),
  (.adds_row, [.obj (.viewTDense .mat) .s true, .obj .vector .s true, .obj (.viewTDense .mat) .s false]),
  (.adds_row, [.obj (.viewTDense .mat) .s true, .obj .vector .s true, .obj (.viewTDense .ten) .s false]),
  (.adds_row, [.obj (.viewTDense .mat) .s true, .obj (.view1D .vec) .s true, .obj .tdense .s false]),
  (.adds_row, [.obj (.viewTDense .mat) .s true, .obj (.view1D .vec) .s true, .obj (.viewTDense .vec) .s false]),
  (.adds_row, [.obj (.viewTDense .mat) .s true, .obj (.view1D .vec) .s true, .obj (.viewTDense .mat) .s false]),
  (.adds_row, [.obj (.viewTDense .mat) .s true, .obj (.view1D .vec) .s true, .obj (.viewTDense .ten) .s false]),
  (.adds_row, [.obj (.viewTDense .mat) .s true, .obj (.view1D .mat) .s true, .obj .tdense .s false]),
  (.adds_row, [.obj (.viewTDense .mat) .s true, .obj (.view1D .mat) .s true, .obj (.viewTDense .vec) .s false]),
  (.adds_row, [.obj (.viewTDense .mat) .s true, .obj (.view1D .mat) .s true, .obj (.viewTDense .mat) .s false]),
  (.adds_row, [.obj (.viewTDense .mat) .s true, .obj (.view1D .mat) .s true, .obj (.viewTDense .ten) .s false]),
  (.adds_row, [.obj (.viewTDense .mat) .s true, .obj (.view1D .ten) .s true, .obj .tdense .s false]),
  (.adds_row, [.obj (.viewTDense .mat) .s true, .obj (.view1D .ten) .s true, .obj (.viewTDense .vec) .s false]),
  (.adds_row, [.obj (.viewTDense .mat) .s true, .obj (.view1D .ten) .s true, .obj (.viewTDense .mat) .s false]),
  (.adds_row, [.obj (.viewTDense .mat) .s true, .obj (.view1D .ten) .s true, .obj (.viewTDense .ten) .s false]),
  (.adds_row, [.obj (.viewTDense .ten) .s true, .obj .vector .s true, .obj .tdense .s false]),
  (.adds_row, [.obj (.viewTDense .ten) .s true, .obj .vector .s true, .obj (.viewTDense .vec) .s false]),
  (.adds_row, [.obj (.viewTDense .ten) .s true, .obj .vector .s true, .obj (.viewTDense .mat) .s false]),
  (.adds_row, [.obj (.viewTDense .ten) .s true, .obj .vector .s true, .obj (.viewTDense .ten) .s false]),
  (.adds_row, [.obj (.viewTDense .ten) .s true, .obj (.view1D .vec) .s true, .obj .tdense .s false]),
  (.adds_row, [.obj (.viewTDense .ten) .s true, .obj (.view1D .vec) .s true, .obj (.viewTDense .vec) .s false]),
  (.adds_row, [.obj (.viewTDense .ten) .s true, .obj (.view1D .vec) .s true, .obj (.viewTDense .mat) .s false]),
  (.adds_row, [.obj (.viewTDense .ten) .s true, .obj (.view1D .vec) .s true, .obj (.viewTDense .ten) .s false]),
  (.adds_row, [.obj (.viewTDense .ten) .s true, .obj (.view1D .mat) .s true, .obj .tdense .s false]),
  (.adds_row, [.obj (.viewTDense .ten) .s true, .obj (.view1D .mat) .s true, .obj (.viewTDense .vec) .s false]),
  (.adds_row, [.obj (.viewTDense .ten) .s true, .obj (.view1D .mat) .s true, .obj (.viewTDense .mat) .s false]),
  (.adds_row, [.obj (.viewTDense .ten) .s true, .obj (.view1D .mat) .s true, .obj (.viewTDense .ten) .s false]),
  (.adds_row, [.obj (.viewTDense .ten) .s true, .obj (.view1D .ten) .s true, .obj .tdense .s false]),
  (.adds_row, [.obj (.viewTDense .ten) .s true, .obj (.view1D .ten) .s true, .obj (.viewTDense .vec) .s false]),
  (.adds_row, [.obj (.viewTDense .ten) .s true, .obj (.view1D .ten) .s true, .obj (.viewTDense .mat) .s false]),
  (.adds_row, [.obj (.viewTDense .ten) .s true, .obj (.view1D .ten) .s true, .obj (.viewTDense .ten) .s false]),
  (.adds_col, [.obj .tdense .d true, .obj .vector .d true, .obj .tdense .d false]),
  (.adds_col, [.obj .tdense .d true, .obj .vector .d true, .obj (.viewTDense .vec) .d false]),
  (.adds_col, [.obj .tdense .d true, .obj .vector .d true, .obj (.viewTDense .mat) .d false]),
  (.adds_col, [.obj .tdense .d true, .obj .vector .d true, .obj (.viewTDense .ten) .d false]),
  (.adds_col, [.obj .tdense .d true, .obj (.view1D .vec) .d true, .obj .tdense .d false]),
  (.adds_col, [.obj .tdense .d true, .obj (.view1D .vec) .d true, .obj (.viewTDense .vec) .d false]),
  (.adds_col, [.obj .tdense .d true, .obj (.view1D .vec) .d true, .obj (.viewTDense .mat) .d false]),
  (.adds_col, [.obj .tdense .d true, .obj (.view1D .vec) .d true, .obj (.viewTDense .ten) .d false]),
  (.adds_col, [.obj .tdense .d true, .obj (.view1D .mat) .d true, .obj .tdense .d false]),
  (.adds_col, [.obj .tdense .d true, .obj (.view1D .mat) .d true, .obj (.viewTDense .vec) .d false]),
  (.adds_col, [.obj .tdense .d true, .obj (.view1D .mat) .d true, .obj (.viewTDense .mat) .d false]),
  (.adds_col, [.obj .tdense .d true, .obj (.view1D .mat) .d true, .obj (.viewTDense .ten) .d false]),
  (.adds_col, [.obj .tdense .d true, .obj (.view1D .ten) .d true, .obj .tdense .d false]),
  (.adds_col, [.obj .tdense .d true, .obj (.view1D .ten) .d true, .obj (.viewTDense .vec) .d false]),
  (.adds_col, [.obj .tdense .d true, .obj (.view1D .ten) .d true, .obj (.viewTDense .mat) .d false]),
  (.adds_col, [.obj .tdense .d true, .obj (.view1D .ten) .d true, .obj (.viewTDense .ten) .d false]),
  (.adds_col, [.obj (.viewTDense .vec) .d true, .obj .vector .d true, .obj .tdense .d false]),
  (.adds_col, [.obj (.viewTDense .vec) .d true, .obj .vector .d true, .obj (.viewTDense .vec) .d false]),
  (.adds_col, [.obj (.viewTDense .vec) .d true, .obj .vector .d true, .obj (.viewTDense .mat) .d false]),
  (.adds_col, [.obj (.viewTDense .vec) .d true, .obj .vector .d true, .obj (.viewTDense .ten) .d false]),
  (.adds_col, [.obj (.viewTDense .vec) .d true, .obj (.view1D .vec) .d true, .obj .tdense .d false]),
  (.adds_col, [.obj (.viewTDense .vec) .d true, .obj (.view1D .vec) .d true, .obj (.viewTDense .vec) .d false]),
  (.adds_col, [.obj (.viewTDense .vec) .d true, .obj (.view1D .vec) .d true, .obj (.viewTDense .mat) .d false]),
  (.adds_col, [.obj (.viewTDense .vec) .d true, .obj (.view1D .vec) .d true, .obj (.viewTDense .ten) .d false]),
  (.adds_col, [.obj (.viewTDense .vec) .d true, .obj (.view1D .mat) .d true, .obj .tdense .d false]),
  (.adds_col, [.obj (.viewTDense .vec) .d true, .obj (.view1D .mat) .d true, .obj (.viewTDense .vec) .d false]),
  (.adds_col, [.obj (.viewTDense .vec) .d true, .obj (.view1D .mat) .d true, .obj (.viewTDense .mat) .d false]),
  (.adds_col, [.obj (.viewTDense .vec) .d true, .obj (.view1D .mat) .d true, .obj (.viewTDense .ten) .d false]),
  (.adds_col, [.obj (.viewTDense .vec) .d true, .obj (.view1D .ten) .d true, .obj .tdense .d false]),
  (.adds_col, [.obj (.viewTDense .vec) .d true, .obj (.view1D .ten) .d true, .obj (.viewTDense .vec) .d false]),
  (.adds_col, [.obj (.viewTDense .vec) .d true, .obj (.view1D .ten) .d true, .obj (.viewTDense .mat) .d false]),
  (.adds_col, [.obj (.viewTDense .vec) .d true, .obj (.view1D .ten) .d true, .obj (.viewTDense .ten) .d false])]

/-- the overloads of `tTenAdds_2` that are declared -/
def hTenAdds_2 : List (Fn × List Par) := [
  (.adds_col, [.obj (.viewTDense .mat) .d true, .obj .vector .d true, .obj .tdense .d false]),
  (.adds_col, [.obj (.viewTDense .mat) .d true, .obj .vector .d true, .obj (.viewTDense .vec) .d false]),
  (.adds_col, [.obj (.viewTDense .mat) .d true, .obj .vector .d true, .obj (.viewTDense .mat) .d false]),
  (.adds_col, [.obj (.viewTDense .mat) .d true, .obj .vector .d true, .obj (.viewTDense .ten) .d false]),
  (.adds_col, [.obj (.viewTDense .mat) .d true, .obj (.view1D .vec) .d true, .obj .tdense .d false]),
  (.adds_col, [.obj (.viewTDense .mat) .d true, .obj (.view1D .vec) .d true, .obj (.viewTDense .vec) .d false]),
  (.adds_col, [.obj (.viewTDense .mat) .d true, .obj (.view1D .vec) .d true, .obj (.viewTDense .mat) .d false]),
  (.adds_col, [.obj (.viewTDense .mat) .d true, .obj (.view1D .vec) .d true, .obj (.viewTDense .ten) .d false]),
  (.adds_col, [.obj (.viewTDense .mat) .d true, .obj (.view1D .mat) .d true, .obj .tdense .d false]),
  (.adds_col, [.obj (.viewTDense .mat) .d true, .obj (.view1D .mat) .d true, .obj (.viewTDense .vec) .d false]),
  (.adds_col, [.obj (.viewTDense .mat) .d true, .obj (.view1D .mat) .d true, .obj (.viewTDense .mat) .d false]),
  (.adds_col, [.obj (.viewTDense .mat) .d true, .obj (.view1D .mat) .d true, .obj (.viewTDense .ten) .d false]),
  (.adds_col, [.obj (.viewTDense .mat) .d true, .obj (.view1D .ten) .d true, .obj .tdense .d false]),
  (.adds_col, [.obj (.viewTDense .mat) .d true, .obj (.view1D .ten) .d true, .obj (.viewTDense .vec) .d false]),
  (.adds_col, [.obj (.viewTDense .mat) .d true, .obj (.view1D .ten) .d true, .obj (.viewTDense .mat) .d false]),
  (.adds_col, [.obj (.viewTDense .mat) .d true, .obj (.view1D .ten) .d true, .obj (.viewTDense .ten) .d false]),
  (.adds_col, [.obj (.viewTDense .ten) .d true, .obj .vector .d true, .obj .tdense .d false]),
  (.adds_col, [.obj (.viewTDense .ten) .d true, .obj .vector .d true, .obj (.viewTDense .vec) .d false]),
  (.adds_col, [.obj (.viewTDense .ten) .d true, .obj .vector .d true, .obj (.viewTDense .mat) .d false]),
  (.adds_col, [.obj (.viewTDense .ten) .d true, .obj .vector .d true, .obj (.viewTDense .ten) .d false]),
  (.adds_col, [.obj (.viewTDense .ten) .d true, .obj (.view1D .vec) .d true, .obj .tdense .d false]),
  (.adds_col, [.obj (.viewTDense .ten) .d true, .obj (.view1D .vec) .d true, .obj (.viewTDense .vec) .d false]),
  (.adds_col, [.obj (.viewTDense .ten) .d true, .obj (.view1D .vec) .d true, .obj (.viewTDense .mat) .d false]),
  (.adds_col, [.obj (.viewTDense .ten) .d true, .obj (.view1D .vec) .d true, .obj (.viewTDense .ten) .d false]),
  (.adds_col, [.obj (.viewTDense .ten) .d true, .obj (.view1D .mat) .d true, .obj .tdense .d false]),
  (.adds_col, [.obj (.viewTDense .ten) .d true, .obj (.view1D .mat) .d true, .obj (.viewTDense .vec) .d false]),
  (.adds_col, [.obj (.viewTDense .ten) .d true, .obj (.view1D .mat) .d true, .obj (.viewTDense .mat) .d false]),
  (.adds_col, [.obj (.viewTDense .ten) .d true, .obj (.view1D .mat) .d true, .obj (.viewTDense .ten) .d false]),
  (.adds_col, [.obj (.viewTDense .ten) .d true, .obj (.view1D .ten) .d true, .obj .tdense .d false]),
  (.adds_col, [.obj (.viewTDense .ten) .d true, .obj (.view1D .ten) .d true, .obj (.viewTDense .vec) .d false]),
  (.adds_col, [.obj (.viewTDense .ten) .d true, .obj (.view1D .ten) .d true, .obj (.viewTDense .mat) .d false]),
  (.adds_col, [.obj (.viewTDense .ten) .d true, .obj (.view1D .ten) .d true, .obj (.viewTDense .ten) .d false]),
  (.adds_col, [.obj .tdense .s true, .obj .vector .s true, .obj .tdense .s false]),
  (.adds_col, [.obj .tdense .s true, .obj .vector .s true, .obj (.viewTDense .vec) .s false]),
  (.adds_col, [.obj .tdense .s true, .obj .vector .s true, .obj (.viewTDense .mat) .s false]),
  (.adds_col, [.obj .tdense .s true, .obj .vector .s true, .obj (.viewTDense .ten) .s false]),
  (.adds_col, [.obj .tdense .s true, .obj (.view1D .vec) .s true, .obj .tdense .s false]),
  (.adds_col, [.obj .tdense .s true, .obj (.view1D .vec) .s true, .obj (.viewTDense .vec) .s false]),
  (.adds_col, [.obj .tdense .s true, .obj (.view1D .vec) .s true, .obj (.viewTDense .mat) .s false]),
  (.adds_col, [.obj .tdense .s true, .obj (.view1D .vec) .s true, .obj (.viewTDense .ten) .s false]),
  (.adds_col, [.obj .tdense .s true, .obj (.view1D .mat) .s true, .obj .tdense .s false]),
  (.adds_col, [.obj .tdense .s true, .obj (.view1D .mat) .s true, .obj (.viewTDense .vec) .s false]),
  (.adds_col, [.obj .tdense .s true, .obj (.view1D .mat) .s true, .obj (.viewTDense .mat) .s false]),
  (.adds_col, [.obj .tdense .s true, .obj (.view1D .mat) .s true, .obj (.viewTDense .ten) .s false]),
  (.adds_col, [.obj .tdense .s true, .obj (.view1D .ten) .s true, .obj .tdense .s false]),
  (.adds_col, [.obj .tdense .s true, .obj (.view1D .ten) .s true, .obj (.viewTDense .vec) .s false]),
  (.adds_col, [.obj .tdense .s true, .obj (.view1D .ten) .s true, .obj (.viewTDense .mat) .s false]),
  (.adds_col, [.obj .tdense .s true, .obj (.view1D .ten) .s true, .obj (.viewTDense .ten) .s false]),
  (.adds_col, [.obj (.viewTDense .vec) .s true, .obj .vector .s true, .obj .tdense .s false]),
  (.adds_col, [.obj (.viewTDense .vec) .s true, .obj .vector .s true, .obj (.viewTDense .vec) .s false]),
  (.adds_col, [.obj (.viewTDense .vec) .s true, .obj .vector .s true, .obj (.viewTDense .mat) .s false]),
  (.adds_col, [.obj (.viewTDense .vec) .s true, .obj .vector .s true, .obj (.viewTDense .ten) .s false]),
  (.adds_col, [.obj (.viewTDense .vec) .s true, .obj (.view1D .vec) .s true, .obj .tdense .s false]),
  (.adds_col, [.obj (.viewTDense .vec) .s true, .obj (.view1D .vec) .s true, .obj (.viewTDense .vec) .s false]),
  (.adds_col, [.obj (.viewTDense .vec) .s true, .obj (.view1D .vec) .s true, .obj (.viewTDense .mat) .s false]),
  (.adds_col, [.obj (.viewTDense .vec) .s true, .obj (.view1D .vec) .s true, .obj (.viewTDense .ten) .s false]),
  (.adds_col, [.obj (.viewTDense .vec) .s true, .obj (.view1D .mat) .s true, .obj .tdense .s false]),
  (.adds_col, [.obj (.viewTDense .vec) .s true, .obj (.view1D .mat) .s true, .obj (.viewTDense .vec) .s false]),
  (.adds_col, [.obj (.viewTDense .vec) .s true, .obj (.view1D .mat) .s true, .obj (.viewTDense .mat) .s false]),
  (.adds_col, [.obj (.viewTDense .vec) .s true, .obj (.view1D .mat) .s true, .obj (.viewTDense .ten) .s false]),
  (.adds_col, [.obj (.viewTDense .vec) .s true, .obj (.view1D .ten) .s true, .obj .tdense .s false]),
  (.adds_col, [.obj (.viewTDense .vec) .s true, .obj (.view1D .ten) .s true, .obj (.viewTDense .vec) .s false]),
  (.adds_col, [.obj (.viewTDense .vec) .s true, .obj (.view1D .ten) .s true, .obj (.viewTDense .mat) .s false]),
  (.adds_col, [.obj (.viewTDense .vec) .s true, .obj (.view1D .ten) .s true, .obj (.viewTDense .ten) .s false]),
  (.adds_col, [.obj (.viewTDense .mat) .s true, .obj .vector .s true, .obj .tdense .s false]),
  (.adds_col, [.obj (.viewTDense .mat) .s true, .obj .vector .s true, .obj (.viewTDense .vec) .s false]),
  (.adds_col, [.obj (.viewTDense .mat) .s true, .obj .vector .s true, .obj (.viewTDense .mat) .s false]),
  (.adds_col, [.obj (.viewTDense .mat) .s true, .obj .vector .s true, .obj (.viewTDense .ten) .s false]),
  (.adds_col, [.obj (.viewTDense .mat) .s true, .obj (.view1D .vec) .s true, .obj .tdense .s false]),
  (.adds_col, [.obj (.viewTDense .mat) .s true, .obj (.view1D .vec) .s true, .obj (.viewTDense .vec) .s false]),
  (.adds_col, [.obj (.viewTDense .mat) .s true, .obj (.view1D .vec) .s true, .obj (.viewTDense .mat) .s false]),
  (.adds_col, [.obj (.viewTDense .mat) .s true, .obj (.view1D .vec) .s true, .obj (.viewTDense .ten) .s false]),
  (.adds_col, [.obj (.viewTDense .mat) .s true, .obj (.view1D .mat) .s true, .obj .tdense .s false]),
  (.adds_col, [.obj (.viewTDense .mat) .s true, .obj (.view1D .mat) .s true, .obj (.viewTDense .vec) .s false]),
  (.adds_col, [.obj (.viewTDense .mat) .s true, .obj (.view1D .mat) .s true, .obj (.viewTDense .mat) .s false]),
  (.adds_col, [.obj (.viewTDense .mat) .s true, .obj (.view1D .mat) .s true, .obj (.viewTDense .ten) .s false]),
  (.adds_col, [.obj (.viewTDense .mat) .s true, .obj (.view1D .ten) .s true, .obj .tdense .s false]),
  (.adds_col, [.obj (.viewTDense .mat) .s true, .obj (.view1D .ten) .s true, .obj (.viewTDense .vec) .s false]),
  (.adds_col, [.obj (.viewTDense .mat) .s true, .obj (.view1D .ten) .s true, .obj (.viewTDense .mat) .s false]),
  (.adds_col, [.obj (.viewTDense .mat) .s true, .obj (.view1D .ten) .s true, .obj (.viewTDense .ten) .s false])]

/-- the overloads of `tTenAdds_3` that are declared -/
def hTenAdds_3 : List (Fn × List Par) := [
  (.adds_col, [.obj (.viewTDense .ten) .s true, .obj .vector .s true, .obj .tdense .s false]),
  (.adds_col, [.obj (.viewTDense .ten) .s true, .obj .vector .s true, .obj (.viewTDense .vec) .s false]),
  (.adds_col, [.obj (.viewTDense .ten) .s true, .obj .vector .s true, .obj (.viewTDense .mat) .s false]),
  (.adds_col, [.obj (.viewTDense .ten) .s true, .obj .vector .s true, .obj (.viewTDense .ten) .s false]),
  (.adds_col, [.obj (.viewTDense .ten) .s true, .obj (.view1D .vec) .s true, .obj .tdense .s false]),
  (.adds_col, [.obj (.viewTDense .ten) .s true, .obj (.view1D .vec) .s true, .obj (.viewTDense .vec) .s false]),
  (.adds_col, [.obj (.viewTDense .ten) .s true, .obj (.view1D .vec) .s true, .obj (.viewTDense .mat) .s false]),
  (.adds_col, [.obj (.viewTDense .ten) .s true, .obj (.view1D .vec) .s true, .obj (.viewTDense .ten) .s false]),
  (.adds_col, [.obj (.viewTDense .ten) .s true, .obj (.view1D .mat) .s true, .obj .tdense .s false]),
  (.adds_col, [.obj (.viewTDense .ten) .s true, .obj (.view1D .mat) .s true, .obj (.viewTDense .vec) .s false]),
  (.adds_col, [.obj (.viewTDense .ten) .s true, .obj (.view1D .mat) .s true, .obj (.viewTDense .mat) .s false]),
  (.adds_col, [.obj (.viewTDense .ten) .s true, .obj (.view1D .mat) .s true, .obj (.viewTDense .ten) .s false]),
  (.adds_col, [.obj (.viewTDense .ten) .s true, .obj (.view1D .ten) .s true, .obj .tdense .s false]),
  (.adds_col, [.obj (.viewTDense .ten) .s true, .obj (.view1D .ten) .s true, .obj (.viewTDense .vec) .s false]),
  (.adds_col, [.obj (.viewTDense .ten) .s true, .obj (.view1D .ten) .s true, .obj (.viewTDense .mat) .s false]),
  (.adds_col, [.obj (.viewTDense .ten) .s true, .obj (.view1D .ten) .s true, .obj (.viewTDense .ten) .s false]),
  (.adds_row, [.obj .tdense .d true, .num, .obj .vector .d true, .obj .tdense .d false]),
  (.adds_row, [.obj .tdense .d true, .num, .obj .vector .d true, .obj (.viewTDense .vec) .d false]),
  (.adds_row, [.obj .tdense .d true, .num, .obj .vector .d true, .obj (.viewTDense .mat) .d false]),
  (.adds_row, [.obj .tdense .d true, .num, .obj .vector .d true, .obj (.viewTDense .ten) .d false]),
  (.adds_row, [.obj .tdense .d true, .num, .obj (.view1D .vec) .d true, .obj .tdense .d false]),
  (.adds_row, [.obj .tdense .d true, .num, .obj (.view1D .vec) .d true, .obj (.viewTDense .vec) .d false]),
  (.adds_row, [.obj .tdense .d true, .num, .obj (.view1D .vec) .d true, .obj (.viewTDense .mat) .d false]),
  (.adds_row, [.obj .tdense .d true, .num, .obj (.view1D .vec) .d true, .obj (.viewTDense .ten) .d false]),
  (.adds_row, [.obj .tdense .d true, .num, .obj (.view1D .mat) .d true, .obj .tdense .d false]),
  (.adds_row, [.obj .tdense .d true, .num, .obj (.view1D .mat) .d true, .obj (.viewTDense .vec) .d false]),
  (.adds_row, [.obj .tdense .d true, .num, .obj (.view1D .mat) .d true, .obj (.viewTDense .mat) .d false]),
  (.adds_row, [.obj .tdense .d true, .num, .obj (.view1D .mat) .d true, .obj (.viewTDense .ten) .d false]),
  (.adds_row, [.obj .tdense .d true, .num, .obj (.view1D .ten) .d true, .obj .tdense .d false]),
  (.adds_row, [.obj .tdense .d true, .num, .obj (.view1D .ten) .d true, .obj (.viewTDense .vec) .d false]),
  (.adds_row, [.obj .tdense .d true, .num, .obj (.view1D .ten) .d true, .obj (.viewTDense .mat) .d false]),
  (.adds_row, [.obj .tdense .d true, .num, .obj (.view1D .ten) .d true, .obj (.viewTDense .ten) .d false]),
  (.adds_row, [.obj (.viewTDense .vec) .d true, .num, .obj .vector .d true, .obj .tdense .d false]),
  (.adds_row, [.obj (.viewTDense .vec) .d true, .num, .obj .vector .d true, .obj (.viewTDense .vec) .d false]),
  (.adds_row, [.obj (.viewTDense .vec) .d true, .num, .obj .vector .d true, .obj (.viewTDense .mat) .d false]),
  (.adds_row, [.obj (.viewTDense .vec) .d true, .num, .obj .vector .d true, .obj (.viewTDense .ten) .d false]),
  (.adds_row, [.obj (.viewTDense .vec) .d true, .num, .obj (.view1D .vec) .d true, .obj .tdense .d false]),
  (.adds_row, [.obj (.viewTDense .vec) .d true, .num, .obj (.view1D .vec) .d true, .obj (.viewTDense .vec) .d false]),
  (.adds_row, [.obj (.viewTDense .vec) .d true, .num, .obj (.view1D .vec) .d true, .obj (.viewTDense .mat) .d false]),
  (.adds_row, [.obj (.viewTDense .vec) .d true, .num, .obj (.view1D .vec) .d true, .obj (.viewTDense .ten) .d false]),
  (.adds_row, [.obj (.viewTDense .vec) .d true, .num, .obj (.view1D .mat) .d true, .obj .tdense .d false]),
  (.adds_row, [.obj (.viewTDense .vec) .d true, .num, .obj (.view1D .mat) .d true, .obj (.viewTDense .vec) .d false]),
  (.adds_row, [.obj (.viewTDense .vec) .d true, .num, .obj (.view1D .mat) .d true, .obj (.viewTDense .mat) .d false]),
  (.adds_row, [.obj (.viewTDense .vec) .d true, .num, .obj (.view1D .mat) .d true, .obj (.viewTDense .ten) .d false]),
  (.adds_row, [.obj (.viewTDense .vec) .d true, .num, .obj (.view1D .ten) .d true, .obj .tdense .d false]),
  (.adds_row, [.obj (.viewTDense .vec) .d true, .num, .obj (.view1D .ten) .d true, .obj (.viewTDense .vec) .d false]),
  (.adds_row, [.obj (.viewTDense .vec) .d true, .num, .obj (.view1D .ten) .d true, .obj (.viewTDense .mat) .d false]),
  (.adds_row, [.obj (.viewTDense .vec) .d true, .num, .obj (.view1D .ten) .d true, .obj (.viewTDense .ten) .d false]),
  (.adds_row, [.obj (.viewTDense .mat) .d true, .num, .obj .vector .d true, .obj .tdense .d false]),
  (.adds_row, [.obj (.viewTDense .mat) .d true, .num, .obj .vector .d true, .obj (.viewTDense .vec) .d false]),
  (.adds_row, [.obj (.viewTDense .mat) .d true, .num, .obj .vector .d true, .obj (.viewTDense .mat) .d false]),
  (.adds_row, [.obj (.viewTDense .mat) .d true, .num, .obj .vector .d true, .obj (.viewTDense .ten) .d false]),
  (.adds_row, [.obj (.viewTDense .mat) .d true, .num, .obj (.view1D .vec) .d true, .obj .tdense .d false]),
  (.adds_row, [.obj (.viewTDense .mat) .d true, .num, .obj (.view1D .vec) .d true, .obj (.viewTDense .vec) .d false]),
  (.adds_row, [.obj (.viewTDense .mat) .d true, .num, .obj (.view1D .vec) .d true, .obj (.viewTDense .mat) .d false]),
  (.adds_row, [.obj (.viewTDense .mat) .d true, .num, .obj (.view1D .vec) .d true, .obj (.viewTDense .ten) .d false]),
  (.adds_row, [.obj (.viewTDense .mat) .d true, .num, .obj (.view1D .mat) .d true, .obj .tdense .d false]),
  (.adds_row, [.obj (.viewTDense .mat) .d true, .num, .obj (.view1D .mat) .d true, .obj (.viewTDense .vec) .d false]),
  (.adds_row, [.obj (.viewTDense .mat) .d true, .num, .obj (.view1D .mat) .d true, .obj (.viewTDense .mat) .d false]),
  (.adds_row, [.obj (.viewTDense .mat) .d true, .num, .obj (.view1D .mat) .d true, .obj (.viewTDense .ten) .d false]),
  (.adds_row, [.obj (.viewTDense .mat) .d true, .num, .obj (.view1D .ten) .d true, .obj .tdense .d false]),
  (.adds_row, [.obj (.viewTDense .mat) .d true, .num, .obj (.view1D .ten) .d true, .obj (.viewTDense .vec) .d false]),
  (.adds_row, [.obj (.viewTDense .mat) .d true, .num, .obj (.view1D .ten) .d true, .obj (.viewTDense .mat) .d false]),
  (.adds_row, [.obj (.viewTDense .mat) .d true, .num, .obj (.view1D .ten) .d true, .obj (.viewTDense .ten) .d false]),
  (.adds_row, [.obj (.viewTDense .ten) .d true, .num, .obj .vector .d true, .obj .tdense .d false]),
  (.adds_row, [.obj (.viewTDense .ten) .d true, .num, .obj .vector .d true, .obj (.viewTDense .vec) .d false]),
  (.adds_row, [.obj (.viewTDense .ten) .d true, .num, .obj .vector .d true, .obj (.viewTDense .mat) .d false]),
  (.adds_row, [.obj (.viewTDense .ten) .d true, .num, .obj .vector .d true, .obj (.viewTDense .ten) .d false]),
  (.adds_row, [.obj (.viewTDense .ten) .d true, .num, .obj (.view1D .vec) .d true, .obj .tdense .d false]),
  (.adds_row, [.obj (.viewTDense .ten) .d true, .num, .obj (.view1D .vec) .d true, .obj (.viewTDense .vec) .d false]),
  (.adds_row, [.obj (.viewTDense .ten) .d true, .num, .obj (.view1D .vec) .d true, .obj (.viewTDense .mat) .d false]),
  (.adds_row, [.obj (.viewTDense .ten) .d true, .num, .obj (.view1D .vec) .d true, .obj (.viewTDense .ten) .d false]),
  (.adds_row, [.obj (.viewTDense .ten) .d true, .num, .obj (.view1D .mat) .d true, .obj .tdense .d false]),
  (.adds_row, [.obj (.viewTDense .ten) .d true, .num, .obj (.view1D .mat) .d true, .obj (.viewTDense .vec) .d false]),
  (.adds_row, [.obj (.viewTDense .ten) .d true, .num, .obj (.view1D .mat) .d true, .obj (.viewTDense .mat) .d false]),
  (.adds_row, [.obj (.viewTDense .ten) .d true, .num, .obj (.view1D .mat) .d true, .obj (.viewTDense .ten) .d false]),
  (.adds_row, [.obj (.viewTDense .ten) .d true, .num, .obj (.view1D .ten) .d true, .obj .tdense .d false]),
  (.adds_row, [.obj (.viewTDense .ten) .d true, .num, .obj (.view1D .ten) .d true, .obj (.viewTDense .vec) .d false]),
  (.adds_row, [.obj (.viewTDense .ten) .d true, .num, .obj (.view1D .ten) .d true, .obj (.viewTDense .mat) .d false]),
  (.adds_row, [.obj (.viewTDense .ten) .d true, .num, .obj (.view1D .ten) .d true, .obj (.viewTDense .ten) .d false])]

/-- the overloads of `tTenAdds_4` that are declared -/
def hTenAdds_4 : List (Fn × List Par) := [
  (.adds_row, [.obj .tdense .s true, .num, .obj .vector .s true, .obj .tdense .s false]),
  (.adds_row, [.obj .tdense .s true, .num, .obj .vector .s true, .obj (.viewTDense .vec) .s false]),
  (.adds_row, [.obj .tdense .s true, .num, .obj .vector .s true, .obj (.viewTDense .mat) .s false]),
  (.adds_row, [.obj .tdense .s true, .num, .obj .vector .s true, .obj (.viewTDense .ten) .s false]),
  (.adds_row, [.obj .tdense .s true, .num, .obj (.view1D .vec) .s true, .obj .tdense .s false]),
  (.adds_row, [.obj .tdense .s true, .num, .obj (.view1D .vec) .s true, .obj (.viewTDense .vec) .s false]),
  (.adds_row, [.obj .tdense .s true, .num, .obj (.view1D .vec) .s true, .obj (.viewTDense .mat) .s false]),
  (.adds_row, [.obj .tdense .s true, .num, .obj (.view1D .vec) .s true, .obj (.viewTDense .ten) .s false]),
  (.adds_row, [.obj .tdense .s true, .num, .obj (.view1D .mat) .s true, .obj .tdense .s false]),
  (.adds_row, [.obj .tdense .s true, .num, .obj (.view1D .mat) .s true, .obj (.viewTDense .vec) .s false]),
  (.adds_row, [.obj .tdense .s true, .num, .obj (.view1D .mat) .s true, .obj (.viewTDense .mat) .s false]),
  (.adds_row, [.obj .tdense .s true, .num, .obj (.view1D .mat) .s true, .obj (.viewTDense .ten) .s false]),
  (.adds_row, [.obj .tdense .s true, .num, .obj (.view1D .ten) .s true, .obj .tdense .s false]),
  (.adds_row, [.obj .tdense .s true, .num, .obj (.view1D .ten) .s true, .obj (.viewTDense .vec) .s false]),
  (.adds_row, [.obj .tdense .s true, .num, .obj (.view1D .ten) .s true, .obj (.viewTDense .mat) .s false]),
  (.adds_row, [.obj .tdense .s true, .num, .obj (.view1D .ten) .s true, .obj (.viewTDense .ten) .s false]),
  (.adds_row, [.obj (.viewTDense .vec) .s true, .num, .obj .vector .s true, .obj .tdense .s false]),
  (.adds_row, [.obj (.viewTDense .vec) .s true, .num, .obj .vector .s true, .obj (.viewTDense .vec) .s false]),
  (.adds_row, [.obj (.viewTDense .vec) .s true, .num, .obj .vector .s true, .obj (.viewTDense .mat) .s false]),
  (.adds_row, [.obj (.viewTDense .vec) .s true, .num, .obj .vector .s true, .obj (.viewTDense .ten) .s false]),
  (.adds_row, [.obj (.viewTDense .vec) .s true, .num, .obj (.view1D .vec) .s true, .obj .tdense .s false]),
  (.adds_row, [.obj (.viewTDense .vec) .s true, .num, .obj (.view1D .vec) .s true, .obj (.viewTDense .vec) .s false]),
  (.adds_row, [.obj (.viewTDense .vec) .s true, .num, .obj (.view1D .vec) .s true, .obj (.viewTDense .mat) .s false]),
  (.adds_row, [.obj (.viewTDense .vec) .s true, .num, .obj (.view1D .vec) .s true, .obj (.viewTDense .ten) .s false]),
  (.adds_row, [.obj (.viewTDense .vec) .s true, .num, .obj (.view1D .mat) .s true, .obj .tdense .s false]),
  (.adds_row, [.obj (.viewTDense .vec) .s true, .num, .obj (.view1D .mat) .s true, .obj (.viewTDense .vec) .s false]),
  (.adds_row, [.obj (.viewTDense .vec) .s true, .num, .obj (.view1D .mat) .s true, .obj (.viewTDense .mat) .s false]),
  (.adds_row, [.obj (.viewTDense .vec) .s true, .num, .obj (.view1D .mat) .s true, .obj (.viewTDense .ten) .s false]),
  (.adds_row, [.obj (.viewTDense .vec) .s true, .num, .obj (.view1D .ten) .s true, .obj .tdense .s false]),
  (.adds_row, [.obj (.viewTDense .vec) .s true, .num, .obj (.view1D .ten) .s true, .obj (.viewTDense .vec) .s false]),
  (.adds_row, [.obj (.viewTDense .vec) .s true, .num, .obj (.view1D .ten) .s true, .obj (.viewTDense .mat) .s false]),
  (.adds_row, [.obj (.viewTDense .vec) .s true, .num, .obj (.view1D .ten) .s true, .obj (.viewTDense .ten) .s false]),
  (.adds_row, [.obj (.viewTDense .mat) .s true, .num, .obj .vector .s true, .obj .tdense .s false]),
  (.adds_row, [.obj (.viewTDense .mat) .s true, .num, .obj .vector .s true, .obj (.viewTDense .vec) .s false]),
  (.adds_row, [.obj (.viewTDense .mat) .s true, .num, .obj .vector .s true, .obj (.viewTDense .mat) .s false]),
  (.adds_row, [.obj (.viewTDense .mat) .s true, .num, .obj .vector .s true, .obj (.viewTDense .ten) .s false]),
  (.adds_row, [.obj (.viewTDense .mat) .s true, .num, .obj (.view1D .vec) .s true, .obj .tdense .s false]),
  (.adds_row, [.obj (.viewTDense .mat) .s true, .num, .obj (.view1D .vec) .s true, .obj (.viewTDense .vec) .s false]),
  (.adds_row, [.obj (.viewTDense .mat) .s true, .num, .obj (.view1D .vec) .s true, .obj (.viewTDense .mat) .s false]),
  (.adds_row, [.obj (.viewTDense .mat) .s true, .num, .obj (.view1D .vec) .s true, .obj (.viewTDense .ten) .s false]),
  (.adds_row, [.obj (.viewTDense .mat) .s true, .num, .obj (.view1D .mat) .s true, .obj .tdense .s false]),
  (.adds_row, [.obj (.viewTDense .mat) .s true, .num, .obj (.view1D .mat) .s true, .obj (.viewTDense .vec) .s false]),
  (.adds_row, [.obj (.viewTDense .mat) .s true, .num, .obj (.view1D .mat) .s true, .obj (.viewTDense .mat) .s false]),
  (.adds_row, [.obj (.viewTDense .mat) .s true, .num, .obj (.view1D .mat) .s true, .obj (.viewTDense .ten) .s false]),
  (.adds_row, [.obj (.viewTDense .mat) .s true, .num, .obj (.view1D .ten) .s true, .obj .tdense .s false]),
  (.adds_row, [.obj (.viewTDense .mat) .s true, .num, .obj (.view1D .ten) .s true, .obj (.viewTDense .vec) .s false]),
  (.adds_row, [.obj (.viewTDense .mat) .s true, .num, .obj (.view1D .ten) .s true, .obj (.viewTDense .mat) .s false]),
  (.adds_row, [.obj (.viewTDense .mat) .s true, .num, .obj (.view1D .ten) .s true, .obj (.viewTDense .ten) .s false]),
  (.adds_row, [.obj (.viewTDense .ten) .s true, .num, .obj .vector .s true, .obj .tdense .s false]),
  (.adds_row, [.obj (.viewTDense .ten) .s true, .num, .obj .vector .s true, .obj (.viewTDense .vec) .s false]),
  (.adds_row, [.obj (.viewTDense .ten) .s true, .num, .obj .vector .s true, .obj (.viewTDense .mat) .s false]),
  (.adds_row, [.obj (.viewTDense .ten) .s true, .num, .obj .vector .s true, .obj (.viewTDense .ten) .s false]),
  (.adds_row, [.obj (.viewTDense .ten) .s true, .num, .obj (.view1D .vec) .s true, .obj .tdense .s false]),
  (.adds_row, [.obj (.viewTDense .ten) .s true, .num, .obj (.view1D .vec) .s true, .obj (.viewTDense .vec) .s false]),
  (.adds_row, [.obj (.viewTDense .ten) .s true, .num, .obj (.view1D .vec) .s true, .obj (.viewTDense .mat) .s false]),
  (.adds_row, [.obj (.viewTDense .ten) .s true, .num, .obj (.view1D .vec) .s true, .obj (.viewTDense .ten) .s false]),
  (.adds_row, [.obj (.viewTDense .ten) .s true, .num, .obj (.view1D .mat) .s true, .obj .tdense .s false]),
  (.adds_row, [.obj (.viewTDense .ten) .s true, .num, .obj (.view1D .mat) .s true, .obj (.viewTDense .vec) .s false]),
  (.adds_row, [.obj (.viewTDense .ten) .s true, .num, .obj (.view1D .mat) .s true, .obj (.viewTDense .mat) .s false]),
  (.adds_row, [.obj (.viewTDense .ten) .s true, .num, .obj (.view1D .mat) .s true, .obj (.viewTDense .ten) .s false]),
  (.adds_row, [.obj (.viewTDense .ten) .s true, .num, .obj (.view1D .ten) .s true, .obj .tdense .s false]),
  (.adds_row, [.obj (.viewTDense .ten) .s true, .num, .obj (.view1D .ten) .s true, .obj (.viewTDense .vec) .s false]),
  (.adds_row, [.obj (.viewTDense .ten) .s true, .num, .obj (.view1D .ten) .s true, .obj (.viewTDense .mat) .s false]),
  (.adds_row, [.obj (.viewTDense .ten) .s true, .num, .obj (.view1D .ten) .s true, .obj (.viewTDense .ten) .s false]),
  (.adds_col, [.obj .tdense .d true, .num, .obj .vector .d true, .obj .tdense .d false]),
  (.adds_col, [.obj .tdense .d true, .num, .obj .vector .d true, .obj (.viewTDense .vec) .d false]),
  (.adds_col, [.obj .tdense .d true, .num, .obj .vector .d true, .obj (.viewTDense .mat) .d false]),
  (.adds_col, [.obj .tdense .d true, .num, .obj .vector .d true, .obj (.viewTDense .ten) .d false]),
  (.adds_col, [.obj .tdense .d true, .num, .obj (.view1D .vec) .d true, .obj .tdense .d false]),
  (.adds_col, [.obj .tdense .d true, .num, .obj (.view1D .vec) .d true, .obj (.viewTDense .vec) .d false]),
  (.adds_col, [.obj .tdense .d true, .num, .obj (.view1D .vec) .d true, .obj (.viewTDense .mat) .d false]),
  (.adds_col, [.obj .tdense .d true, .num, .obj (.view1D .vec) .d true, .obj (.viewTDense .ten) .d false]),
  (.adds_col, [.obj .tdense .d true, .num, .obj (.view1D .mat) .d true, .obj .tdense .d false]),
  (.adds_col, [.obj .tdense .d true, .num, .obj (.view1D .mat) .d true, .obj (.viewTDense .vec) .d false]),
  (.adds_col, [.obj .tdense .d true, .num, .obj (.view1D .mat) .d true, .obj (.viewTDense .mat) .d false]),
  (.adds_col, [.obj .tdense .d true, .num, .obj (.view1D .mat) .d true, .obj (.viewTDense .ten) .d false]),
  (.adds_col, [.obj .tdense .d true, .num, .obj (.view1D .ten) .d true, .obj .tdense .d false]),
  (.adds_col, [.obj .tdense .d true, .num, .obj (.view1D .ten) .d true, .obj (.viewTDense .vec) .d false]),
  (.adds_col, [.obj .tdense .d true, .num, .obj (.view1D .ten) .d true, .obj (.viewTDense .mat) .d false]),
  (.adds_col, [.obj .tdense .d true, .num, .obj (.view1D .ten) .d true, .obj (.viewTDense .ten) .d false])]

/-- the overloads of `tTenAdds_5` that are declared -/
def hTenAdds_5 : List (Fn × List Par) := [
  (.adds_col, [.obj (.viewTDense .vec) .d true, .num, .obj .vector .d true, .obj .tdense .d false]),
  (.adds_col, [.obj (.viewTDense .vec) .d true, .num, .obj .vector .d true, .obj (.viewTDense .vec) .d false]),
  (.adds_col, [.obj (.viewTDense .vec) .d true, .num, .obj .vector .d true, .obj (.viewTDense .mat) .d false]),
  (.adds_col, [.obj (.viewTDense .vec) .d true, .num, .obj .vector .d true, .obj (.viewTDense .ten) .d false]),
  (.adds_col, [.obj (.viewTDense .vec) .d true, .num, .obj (.view1D .vec) .d true, .obj .tdense .d false]),
  (.adds_col, [.obj (.viewTDense .vec) .d true, .num, .obj (.view1D .vec) .d true, .obj (.viewTDense .vec) .d false]),
  (.adds_col, [.obj (.viewTDense .vec) .d true, .num, .obj (.view1D .vec) .d true, .obj (.viewTDense .mat) .d false]),
  (.adds_col, [.obj (.viewTDense .vec) .d true, .num, .obj (.view1D .vec) .d true, .obj (.viewTDense .ten) .d false]),
  (.adds_col, [.obj (.viewTDense .vec) .d true, .num, .obj (.view1D .mat) .d true, .obj .tdense .d false]),
  (.adds_col, [.obj (.viewTDense .vec) .d true, .num, .obj (.view1D .mat) .d true, .obj (.viewTDense .vec) .d false]),
  (.adds_col, [.obj (.viewTDense .vec) .d true, .num, .obj (.view1D .mat) .d true, .obj (.viewTDense .mat) .d false]),
  (.adds_col, [.obj (.viewTDense .vec) .d true, .num, .obj (.view1D .mat) .d true, .obj (.viewTDense .ten) .d false]),
  (.adds_col, [.obj (.viewTDense .vec) .d true, .num, .obj (.view1D .ten) .d true, .obj .tdense .d false]),
  (.adds_col, [.obj (.viewTDense .vec) .d true, .num, .obj (.view1D .ten) .d true, .obj (.viewTDense .vec) .d false]),
  (.adds_col, [.obj (.viewTDense .vec) .d true, .num, .obj (.view1D .ten) .d true, .obj (.viewTDense .mat) .d false]),
  (.adds_col, [.obj (.viewTDense .vec) .d true, .num, .obj (.view1D .ten) .d true, .obj (.viewTDense .ten) .d false]),
  (.adds_col, [.obj (.viewTDense .mat) .d true, .num, .obj .vector .d true, .obj .tdense .d false]),
  (.adds_col, [.obj (.viewTDense .mat) .d true, .num, .obj .vector .d true, .obj (.viewTDense .vec) .d false]),
  (.adds_col, [.obj (.viewTDense .mat) .d true, .num, .obj .vector .d true, .obj (.viewTDense .mat) .d false]),
  (.adds_col, [.obj (.viewTDense .mat) .d true, .num, .obj .vector .d true, .obj (.viewTDense .ten) .d false]),
  (.adds_col, [.obj (.viewTDense .mat) .d true, .num, .obj (.view1D .vec) .d true, .obj .tdense .d false]),
  (.adds_col, [.obj (.viewTDense .mat) .d true, .num, .obj (.view1D .vec) .d true, .obj (.viewTDense .vec) .d false]),
  (.adds_col, [.obj (.viewTDense .mat) .d true, .num, .obj (.view1D .vec) .d true, .obj (.viewTDense .mat) .d false]),
  (.adds_col, [.obj (.viewTDense .mat) .d true, .num, .obj (.view1D .vec) .d true, .obj (.viewTDense .ten) .d false]),
  (.adds_col, [.obj (.viewTDense .mat) .d true, .num, .obj (.view1D .mat) .d true, .obj .tdense .d false]),
  (.adds_col, [.obj (.viewTDense .mat) .d true, .num, .obj (.view1D .mat) .d true, .obj (.viewTDense .vec) .d false]),
  (.adds_col, [.obj (.viewTDense .mat) .d true, .num, .obj (.view1D .mat) .d true, .obj (.viewTDense .mat) .d false]),
  (.adds_col, [.obj (.viewTDense .mat) .d true, .num, .obj (.view1D .mat) .d true, .obj (.viewTDense .ten) .d false]),
  (.adds_col, [.obj (.viewTDense .mat) .d true, .num, .obj (.view1D .ten) .d true, .obj .tdense .d false]),
  (.adds_col, [.obj (.viewTDense .mat) .d true, .num, .obj (.view1D .ten) .d true, .obj (.viewTDense .vec) .d false]),
  (.adds_col, [.obj (.viewTDense .mat) .d true, .num, .obj (.view1D .ten) .d true, .obj (.viewTDense .mat) .d false]),
  (.adds_col, [.obj (.viewTDense .mat) .d true, .num, .obj (.view1D .ten) .d true, .obj (.viewTDense .ten) .d false]),
  (.adds_col, [.obj (.viewTDense .ten) .d true, .num, .obj .vector .d true, .obj .tdense .d false]),
  (.adds_col, [.obj (.viewTDense .ten) .d true, .num, .obj .vector .d true, .obj (.viewTDense .vec) .d false]),
  (.adds_col, [.obj (.viewTDense .ten) .d true, .num, .obj .vector .d true, .obj (.viewTDense .mat) .d false]),
  (.adds_col, [.obj (.viewTDense .ten) .d true, .num, .obj .vector .d true, .obj (.viewTDense .ten) .d false]),
  (.adds_col, [.obj (.viewTDense .ten) .d true, .num, .obj (.view1D .vec) .d true, .obj .tdense .d false]),
  (.adds_col, [.obj (.viewTDense .ten) .d true, .num, .obj (.view1D .vec) .d true, .obj (.viewTDense .vec) .d false]),
  (.adds_col, [.obj (.viewTDense .ten) .d true, .num, .obj (.view1D .vec) .d true, .obj (.viewTDense .mat) .d false]),
  (.adds_col, [.obj (.viewTDense .ten) .d true, .num, .obj (.view1D .vec) .d true, .obj (.viewTDense .ten) .d false]),
  (.adds_col, [.obj (.viewTDense .ten) .d true, .num, .obj (.view1D .mat) .d true, .obj .tdense .d false]),
  (.adds_col, [.obj (.viewTDense .ten) .d true, .num, .obj (.view1D .mat) .d true, .obj (.viewTDense .vec) .d false]),
  (.adds_col, [.obj (.viewTDense .ten) .d true, .num, .obj (.view1D .mat) .d true, .obj (.viewTDense .mat) .d false]),
  (.adds_col, [.obj (.viewTDense .ten) .d true, .num, .obj (.view1D .mat) .d true, .obj (.viewTDense .ten) .d false]),
  (.adds_col, [.obj (.viewTDense .ten) .d true, .num, .obj (.view1D .ten) .d true, .obj .tdense .d false]),
  (.adds_col, [.obj (.viewTDense .ten) .d true, .num, .obj (.view1D .ten) .d true, .obj (.viewTDense .vec) .d false]),
  (.adds_col, [.obj (.viewTDense .ten) .d true, .num, .obj (.view1D .ten) .d true, .obj (.viewTDense .mat) .d false]),
  (.adds_col, [.obj (.viewTDense .ten) .d true, .num, .obj (.view1D .ten) .d true, .obj (.viewTDense .ten) .d false]),
  (.adds_col, [.obj .tdense .s true, .num, .obj .vector .s true, .obj .tdense .s false]),
  (.adds_col, [.obj .tdense .s true, .num, .obj .vector .s true, .obj (.viewTDense .vec) .s false]),
  (.adds_col, [.obj .tdense .s true, .num, .obj .vector .s true, .obj (.viewTDense .mat) .s false]),
  (.adds_col, [.obj .tdense .s true, .num, .obj .vector .s true, .obj (.viewTDense .ten) .s false]),
  (.adds_col, [.obj .tdense .s true, .num, .obj (.view1D .vec) .s true, .obj .tdense .s false]),
  (.adds_col, [.obj .tdense .s true, .num, .obj (.view1D .vec) .s true, .obj (.viewTDense .vec) .s false]),
  (.adds_col, [.obj .tdense .s true, .num, .obj (.view1D .vec) .s true, .obj (.viewTDense .mat) .s false]),
  (.adds_col, [.obj .tdense .s true, .num, .obj (.view1D .vec) .s true, .obj (.viewTDense .ten) .s false]),
  (.adds_col, [.obj .tdense .s true, .num, .obj (.view1D .mat) .s true, .obj .tdense .s false]),
  (.adds_col, [.obj .tdense .s true, .num, .obj (.view1D .mat) .s true, .obj (.viewTDense .vec) .s false]),
  (.adds_col, [.obj .tdense .s true, .num, .obj (.view1D .mat) .s true, .obj (.viewTDense .mat) .s false]),
  (.adds_col, [.obj .tdense .s true, .num, .obj (.view1D .mat) .s true, .obj (.viewTDense .ten) .s false]),
  (.adds_col, [.obj .tdense .s true, .num, .obj (.view1D .ten) .s true, .obj .tdense .s false]),
  (.adds_col, [.obj .tdense .s true, .num, .obj (.view1D .ten) .s true, .obj (.viewTDense .vec) .s false]),
  (.adds_col, [.obj .tdense .s true, .num, .obj (.view1D .ten) .s true, .obj (.viewTDense .mat) .s false]),
  (.adds_col, [.obj .tdense .s true, .num, .obj (.view1D .ten) .s true, .obj (.viewTDense .ten) .s false]),
  (.adds_col, [.obj (.viewTDense .vec) .s true, .num, .obj .vector .s true, .obj .tdense .s false]),
  (.adds_col, [.obj (.viewTDense .vec) .s true, .num, .obj .vector .s true, .obj (.viewTDense .vec) .s false]),
  (.adds_col, [.obj (.viewTDense .vec) .s true, .num, .obj .vector .s true, .obj (.viewTDense .mat) .s false]),
  (.adds_col, [.obj (.viewTDense .vec) .s true, .num, .obj .vector .s true, .obj (.viewTDense .ten) .s false]),
  (.adds_col, [.obj (.viewTDense .vec) .s true, .num, .obj (.view1D .vec) .s true, .obj .tdense .s false]),
  (.adds_col, [.obj (.viewTDense .vec) .s true, .num, .obj (.view1D .vec) .s true, .obj (.viewTDense .vec) .s false]),
  (.adds_col, [.obj (.viewTDense .vec) .s true, .num, .obj (.view1D .vec) .s true, .obj (.viewTDense .mat) .s false]),
  (.adds_col, [.obj (.viewTDense .vec) .s true, .num, .obj (.view1D .vec) .s true, .obj (.viewTDense .ten) .s false]),
  (.adds_col, [.obj (.viewTDense .vec) .s true, .num, .obj (.view1D .mat) .s true, .obj .tdense .s false]),
  (.adds_col, [.obj (.viewTDense .vec) .s true, .num, .obj (.view1D .mat) .s true, .obj (.viewTDense .vec) .s false]),
  (.adds_col, [.obj (.viewTDense .vec) .s true, .num, .obj (.view1D .mat) .s true, .obj (.viewTDense .mat) .s false]),
  (.adds_col, [.obj (.viewTDense .vec) .s true, .num, .obj (.view1D .mat) .s true, .obj (.viewTDense .ten) .s false]),
  (.adds_col, [.obj (.viewTDense .vec) .s true, .num, .obj (.view1D .ten) .s true, .obj .tdense .s false]),
  (.adds_col, [.obj (.viewTDense .vec) .s true, .num, .obj (.view1D .ten) .s true, .obj (.viewTDense .vec) .s false]),
  (.adds_col, [.obj (.viewTDense .vec) .s true, .num, .obj (.view1D .ten) .s true, .obj (.viewTDense .mat) .s false]),
  (.adds_col, [.obj (.viewTDense .vec) .s true, .num, .obj (.view1D .ten) .s true, .obj (.viewTDense .ten) .s false])]

/-- the overloads of `tTenAdds_6` that are declared -/
def hTenAdds_6 : List (Fn × List Par) := [
  (.adds_col, [.obj (.viewTDense .mat) .s true, .num, .obj .vector .s true, .obj .tdense .s false]),
  (.adds_col, [.obj (.viewTDense .mat) .s true, .num, .obj .vector .s true, .obj (.viewTDense .vec) .s false]),
  (.adds_col, [.obj (.viewTDense .mat) .s true, .num, .obj .vector .s true, .obj (.viewTDense .mat) .s false]),
  (.adds_col, [.obj (.viewTDense .mat) .s true, .num, .obj .vector .s true, .obj (.viewTDense .ten) .s false]),
  (.adds_col, [.obj (.viewTDense .mat) .s true, .num, .obj (.view1D .vec) .s true, .obj .tdense .s false]),
  (.adds_col, [.obj (.viewTDense .mat) .s true, .num, .obj (.view1D .vec) .s true, .obj (.viewTDense .vec) .s false]),
  (.adds_col, [.obj (.viewTDense .mat) .s true, .num, .obj (.view1D .vec) .s true, .obj (.viewTDense .mat) .s false]),
  (.adds_col, [.obj (.viewTDense .mat) .s true, .num, .obj (.view1D .vec) .s true, .obj (.viewTDense .ten) .s false]),
  (.adds_col, [.obj (.viewTDense .mat) .s true, .num, .obj (.view1D .mat) .s true, .obj .tdense .s false]),
  (.adds_col, [.obj (.viewTDense .mat) .s true, .num, .obj (.view1D .mat) .s true, .obj (.viewTDense .vec) .s false]),
  (.adds_col, [.obj (.viewTDense .mat) .s true, .num, .obj (.view1D .mat) .s true, .obj (.viewTDense .mat) .s false]),
  (.adds_col, [.obj (.viewTDense .mat) .s true, .num, .obj (.view1D .mat) .s true, .obj (.viewTDense .ten) .s false]),
  (.adds_col, [.obj (.viewTDense .mat) .s true, .num, .obj (.view1D .ten) .s true, .obj .tdense .s false]),
  (.adds_col, [.obj (.viewTDense .mat) .s true, .num, .obj (.view1D .ten) .s true, .obj (.viewTDense .vec) .s false]),
  (.adds_col, [.obj (.viewTDense .mat) .s true, .num, .obj (.view1D .ten) .s true, .obj (.viewTDense .mat) .s false]),
  (.adds_col, [.obj (.viewTDense .mat) .s true, .num, .obj (.view1D .ten) .s true, .obj (.viewTDense .ten) .s false]),
  (.adds_col, [.obj (.viewTDense .ten) .s true, .num, .obj .vector .s true, .obj .tdense .s false]),
  (.adds_col, [.obj (.viewTDense .ten) .s true, .num, .obj .vector .s true, .obj (.viewTDense .vec) .s false]),
  (.adds_col, [.obj (.viewTDense .ten) .s true, .num, .obj .vector .s true, .obj (.viewTDense .mat) .s false]),
  (.adds_col, [.obj (.viewTDense .ten) .s true, .num, .obj .vector .s true, .obj (.viewTDense .ten) .s false]),
  (.adds_col, [.obj (.viewTDense .ten) .s true, .num, .obj (.view1D .vec) .s true, .obj .tdense .s false]),
  (.adds_col, [.obj (.viewTDense .ten) .s true, .num, .obj (.view1D .vec) .s true, .obj (.viewTDense .vec) .s false]),
  (.adds_col, [.obj (.viewTDense .ten) .s true, .num, .obj (.view1D .vec) .s true, .obj (.viewTDense .mat) .s false]),
  (.adds_col, [.obj (.viewTDense .ten) .s true, .num, .obj (.view1D .vec) .s true, .obj (.viewTDense .ten) .s false]),
  (.adds_col, [.obj (.viewTDense .ten) .s true, .num, .obj (.view1D .mat) .s true, .obj .tdense .s false]),
  (.adds_col, [.obj (.viewTDense .ten) .s true, .num, .obj (.view1D .mat) .s true, .obj (.viewTDense .vec) .s false]),
  (.adds_col, [.obj (.viewTDense .ten) .s true, .num, .obj (.view1D .mat) .s true, .obj (.viewTDense .mat) .s false]),
  (.adds_col, [.obj (.viewTDense .ten) .s true, .num, .obj (.view1D .mat) .s true, .obj (.viewTDense .ten) .s false]),
  (.adds_col, [.obj (.viewTDense .ten) .s true, .num, .obj (.view1D .ten) .s true, .obj .tdense .s false]),
  (.adds_col, [.obj (.viewTDense .ten) .s true, .num, .obj (.view1D .ten) .s true, .obj (.viewTDense .vec) .s false]),
  (.adds_col, [.obj (.viewTDense .ten) .s true, .num, .obj (.view1D .ten) .s true, .obj (.viewTDense .mat) .s false]),
  (.adds_col, [.obj (.viewTDense .ten) .s true, .num, .obj (.view1D .ten) .s true, .obj (.viewTDense .ten) .s false])]

/-- declared without a definition -/
def hExtra : List (Fn × List Par) := []

/-- all declarations (2072), table by table -/
def declared : List (List (Fn × List Par)) :=
  [hMatTimes_0, hMatTimes_1, hMatTimes_2, hMatTimes_3, hMatTimes_4, hMatTimes_5, hMatTimes_6, hMatAdds_0, hMatAdds_1, hMatAdds_2, hMatAdds_3, hMatAdds_4, hMatAdds_5, hMatAdds_6, hTenTimes_0, hTenTimes_1, hTenTimes_2, hTenTimes_3, hTenTimes_4, hTenTimes_5, hTenTimes_6, hTenAdds_0, hTenAdds_1, hTenAdds_2, hTenAdds_3, hTenAdds_4, hTenAdds_5, hTenAdds_6, hExtra]

/-- a parameter as the headers write it: one of `Par`, or `view1D<matrix::CRS<..>, ..>`, a class no other operation
of the library takes -/
inductive HPar | known (p : Par) | crsView (p : Dispatch.Prec) (const : Bool)
deriving DecidableEq, Repr

/-- the declarations with a `view1D` of a `CRS` matrix (include/monolish/blas/monolish_matvec_blas.hpp) -/
def crsViewDecls : List (Fn × List HPar) := [
  (.times_row, [.known (.obj .crs .d true), .crsView .d true, .known (.obj .crs .d false)]),
  (.times_row, [.known (.obj .crs .s true), .crsView .s true, .known (.obj .crs .s false)]),
  (.times_row, [.known (.obj .crs .d true), .known (.num), .crsView .d true, .known (.obj .crs .d false)]),
  (.times_row, [.known (.obj .crs .s true), .known (.num), .crsView .s true, .known (.obj .crs .s false)]),
  (.times_col, [.known (.obj .crs .d true), .crsView .d true, .known (.obj .crs .d false)]),
  (.times_col, [.known (.obj .crs .s true), .crsView .s true, .known (.obj .crs .s false)]),
  (.times_col, [.known (.obj .crs .d true), .known (.num), .crsView .d true, .known (.obj .crs .d false)]),
  (.times_col, [.known (.obj .crs .s true), .known (.num), .crsView .s true, .known (.obj .crs .s false)])]

end Verif.LineOp
