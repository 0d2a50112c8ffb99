import Verif.Model.LineOp

/-!
Generated by tools/line_gen.py from /repo: public overloads of the row and column operations. Do not edit.
-/

namespace Verif.LineOp

/-- src/blas/matrix/times/times.cpp:158-541 -/
def tMatTimes_0 : List Overload := [
  ⟨.times_row, [.obj .dense .d true, .obj .vector .d true, .obj .dense .d false], .times_row, none, [0, 1, 2]⟩,
  ⟨.times_row, [.obj .dense .d true, .obj .vector .d true, .obj (.viewDense .vec) .d false], .times_row, none, [0, 1, 2]⟩,
  ⟨.times_row, [.obj .dense .d true, .obj .vector .d true, .obj (.viewDense .mat) .d false], .times_row, none, [0, 1, 2]⟩,
  ⟨.times_row, [.obj .dense .d true, .obj .vector .d true, .obj (.viewDense .ten) .d false], .times_row, none, [0, 1, 2]⟩,
  ⟨.times_row, [.obj .dense .d true, .obj (.view1D .vec) .d true, .obj .dense .d false], .times_row, none, [0, 1, 2]⟩,
  ⟨.times_row, [.obj .dense .d true, .obj (.view1D .vec) .d true, .obj (.viewDense .vec) .d false], .times_row, none, [0, 1, 2]⟩,
  ⟨.times_row, [.obj .dense .d true, .obj (.view1D .vec) .d true, .obj (.viewDense .mat) .d false], .times_row, none, [0, 1, 2]⟩,
  ⟨.times_row, [.obj .dense .d true, .obj (.view1D .vec) .d true, .obj (.viewDense .ten) .d false], .times_row, none, [0, 1, 2]⟩,
  ⟨.times_row, [.obj .dense .d true, .obj (.view1D .mat) .d true, .obj .dense .d false], .times_row, none, [0, 1, 2]⟩,
  ⟨.times_row, [.obj .dense .d true, .obj (.view1D .mat) .d true, .obj (.viewDense .vec) .d false], .times_row, none, [0, 1, 2]⟩,
  ⟨.times_row, [.obj .dense .d true, .obj (.view1D .mat) .d true, .obj (.viewDense .mat) .d false], .times_row, none, [0, 1, 2]⟩,
  ⟨.times_row, [.obj .dense .d true, .obj (.view1D .mat) .d true, .obj (.viewDense .ten) .d false], .times_row, none, [0, 1, 2]⟩,
  ⟨.times_row, [.obj .dense .d true, .obj (.view1D .ten) .d true, .obj .dense .d false], .times_row, none, [0, 1, 2]⟩,
  ⟨.times_row, [.obj .dense .d true, .obj (.view1D .ten) .d true, .obj (.viewDense .vec) .d false], .times_row, none, [0, 1, 2]⟩,
  ⟨.times_row, [.obj .dense .d true, .obj (.view1D .ten) .d true, .obj (.viewDense .mat) .d false], .times_row, none, [0, 1, 2]⟩,
  ⟨.times_row, [.obj .dense .d true, .obj (.view1D .ten) .d true, .obj (.viewDense .ten) .d false], .times_row, none, [0, 1, 2]⟩,
  ⟨.times_row, [.obj (.viewDense .vec) .d true, .obj .vector .d true, .obj .dense .d false], .times_row, none, [0, 1, 2]⟩,
  ⟨.times_row, [.obj (.viewDense .vec) .d true, .obj .vector .d true, .obj (.viewDense .vec) .d false], .times_row, none, [0, 1, 2]⟩,
  ⟨.times_row, [.obj (.viewDense .vec) .d true, .obj .vector .d true, .obj (.viewDense .mat) .d false], .times_row, none, [0, 1, 2]⟩,
  ⟨.times_row, [.obj (.viewDense .vec) .d true, .obj .vector .d true, .obj (.viewDense .ten) .d false], .times_row, none, [0, 1, 2]⟩,
  ⟨.times_row, [.obj (.viewDense .vec) .d true, .obj (.view1D .vec) .d true, .obj .dense .d false], .times_row, none, [0, 1, 2]⟩,
  ⟨.times_row, [.obj (.viewDense .vec) .d true, .obj (.view1D .vec) .d true, .obj (.viewDense .vec) .d false], .times_row, none, [0, 1, 2]⟩,
  ⟨.times_row, [.obj (.viewDense .vec) .d true, .obj (.view1D .vec) .d true, .obj (.viewDense .mat) .d false], .times_row, none, [0, 1, 2]⟩,
  ⟨.times_row, [.obj (.viewDense .vec) .d true, .obj (.view1D .vec) .d true, .obj (.viewDense .ten) .d false], .times_row, none, [0, 1, 2]⟩,
  ⟨.times_row, [.obj (.viewDense .vec) .d true, .obj (.view1D .mat) .d true, .obj .dense .d false], .times_row, none, [0, 1, 2]⟩,
  ⟨.times_row, [.obj (.viewDense .vec) .d true, .obj (.view1D .mat) .d true, .obj (.viewDense .vec) .d false], .times_row, none, [0, 1, 2]⟩,
  ⟨.times_row, [.obj (.viewDense .vec) .d true, .obj (.view1D .mat) .d true, .obj (.viewDense .mat) .d false], .times_row, none, [0, 1, 2]⟩,
  ⟨.times_row, [.obj (.viewDense .vec) .d true, .obj (.view1D .mat) .d true, .obj (.viewDense .ten) .d false], .times_row, none, [0, 1, 2]⟩,
  ⟨.times_row, [.obj (.viewDense .vec) .d true, .obj (.view1D .ten) .d true, .obj .dense .d false], .times_row, none, [0, 1, 2]⟩,
  ⟨.times_row, [.obj (.viewDense .vec) .d true, .obj (.view1D .ten) .d true, .obj (.viewDense .vec) .d false], .times_row, none, [0, 1, 2]⟩,
  ⟨.times_row, [.obj (.viewDense .vec) .d true, .obj (.view1D .ten) .d true, .obj (.viewDense .mat) .d false], .times_row, none, [0, 1, 2]⟩,
  ⟨.times_row, [.obj (.viewDense .vec) .d true, .obj (.view1D .ten) .d true, .obj (.viewDense .ten) .d false], .times_row, none, [0, 1, 2]⟩,
  ⟨.times_row, [.obj (.viewDense .mat) .d true, .obj .vector .d true, .obj .dense .d false], .times_row, none, [0, 1, 2]⟩,
  ⟨.times_row, [.obj (.viewDense .mat) .d true, .obj .vector .d true, .obj (.viewDense .vec) .d false], .times_row, none, [0, 1, 2]⟩,
  ⟨.times_row, [.obj (.viewDense .mat) .d true, .obj .vector .d true, .obj (.viewDense .mat) .d false], .times_row, none, [0, 1, 2]⟩,
  ⟨.times_row, [.obj (.viewDense .mat) .d true, .obj .vector .d true, .obj (.viewDense .ten) .d false], .times_row, none, [0, 1, 2]⟩,
  ⟨.times_row, [.obj (.viewDense .mat) .d true, .obj (.view1D .vec) .d true, .obj .dense .d false], .times_row, none, [0, 1, 2]⟩,
  ⟨.times_row, [.obj (.viewDense .mat) .d true, .obj (.view1D .vec) .d true, .obj (.viewDense .vec) .d false], .times_row, none, [0, 1, 2]⟩,
  ⟨.times_row, [.obj (.viewDense .mat) .d true, .obj (.view1D .vec) .d true, .obj (.viewDense .mat) .d false], .times_row, none, [0, 1, 2]⟩,
  ⟨.times_row, [.obj (.viewDense .mat) .d true, .obj (.view1D .vec) .d true, .obj (.viewDense .ten) .d false], .times_row, none, [0, 1, 2]⟩,
  ⟨.times_row, [.obj (.viewDense .mat) .d true, .obj (.view1D .mat) .d true, .obj .dense .d false], .times_row, none, [0, 1, 2]⟩,
  ⟨.times_row, [.obj (.viewDense .mat) .d true, .obj (.view1D .mat) .d true, .obj (.viewDense .vec) .d false], .times_row, none, [0, 1, 2]⟩,
  ⟨.times_row, [.obj (.viewDense .mat) .d true, .obj (.view1D .mat) .d true, .obj (.viewDense .mat) .d false], .times_row, none, [0, 1, 2]⟩,
  ⟨.times_row, [.obj (.viewDense .mat) .d true, .obj (.view1D .mat) .d true, .obj (.viewDense .ten) .d false], .times_row, none, [0, 1, 2]⟩,
  ⟨.times_row, [.obj (.viewDense .mat) .d true, .obj (.view1D .ten) .d true, .obj .dense .d false], .times_row, none, [0, 1, 2]⟩,
  ⟨.times_row, [.obj (.viewDense .mat) .d true, .obj (.view1D .ten) .d true, .obj (.viewDense .vec) .d false], .times_row, none, [0, 1, 2]⟩,
  ⟨.times_row, [.obj (.viewDense .mat) .d true, .obj (.view1D .ten) .d true, .obj (.viewDense .mat) .d false], .times_row, none, [0, 1, 2]⟩,
  ⟨.times_row, [.obj (.viewDense .mat) .d true, .obj (.view1D .ten) .d true, .obj (.viewDense .ten) .d false], .times_row, none, [0, 1, 2]⟩,
  ⟨.times_row, [.obj (.viewDense .ten) .d true, .obj .vector .d true, .obj .dense .d false], .times_row, none, [0, 1, 2]⟩,
  ⟨.times_row, [.obj (.viewDense .ten) .d true, .obj .vector .d true, .obj (.viewDense .vec) .d false], .times_row, none, [0, 1, 2]⟩,
  ⟨.times_row, [.obj (.viewDense .ten) .d true, .obj .vector .d true, .obj (.viewDense .mat) .d false], .times_row, none, [0, 1, 2]⟩,
  ⟨.times_row, [.obj (.viewDense .ten) .d true, .obj .vector .d true, .obj (.viewDense .ten) .d false], .times_row, none, [0, 1, 2]⟩,
  ⟨.times_row, [.obj (.viewDense .ten) .d true, .obj (.view1D .vec) .d true, .obj .dense .d false], .times_row, none, [0, 1, 2]⟩,
  ⟨.times_row, [.obj (.viewDense .ten) .d true, .obj (.view1D .vec) .d true, .obj (.viewDense .vec) .d false], .times_row, none, [0, 1, 2]⟩,
  ⟨.times_row, [.obj (.viewDense .ten) .d true, .obj (.view1D .vec) .d true, .obj (.viewDense .mat) .d false], .times_row, none, [0, 1, 2]⟩,
  ⟨.times_row, [.obj (.viewDense .ten) .d true, .obj (.view1D .vec) .d true, .obj (.viewDense .ten) .d false], .times_row, none, [0, 1, 2]⟩,
  ⟨.times_row, [.obj (.viewDense .ten) .d true, .obj (.view1D .mat) .d true, .obj .dense .d false], .times_row, none, [0, 1, 2]⟩,
  ⟨.times_row, [.obj (.viewDense .ten) .d true, .obj (.view1D .mat) .d true, .obj (.viewDense .vec) .d false], .times_row, none, [0, 1, 2]⟩,
  ⟨.times_row, [.obj (.viewDense .ten) .d true, .obj (.view1D .mat) .d true, .obj (.viewDense .mat) .d false], .times_row, none, [0, 1, 2]⟩,
  ⟨.times_row, [.obj (.viewDense .ten) .d true, .obj (.view1D .mat) .d true, .obj (.viewDense .ten) .d false], .times_row, none, [0, 1, 2]⟩,
  ⟨.times_row, [.obj (.viewDense .ten) .d true, .obj (.view1D .ten) .d true, .obj .dense .d false], .times_row, none, [0, 1, 2]⟩,
  ⟨.times_row, [.obj (.viewDense .ten) .d true, .obj (.view1D .ten) .d true, .obj (.viewDense .vec) .d false], .times_row, none, [0, 1, 2]⟩,
  ⟨.times_row, [.obj (.viewDense .ten) .d true, .obj (.view1D .ten) .d true, .obj (.viewDense .mat) .d false], .times_row, none, [0, 1, 2]⟩,
  ⟨.times_row, [.obj (.viewDense .ten) .d true, .obj (.view1D .ten) .d true, .obj (.viewDense .ten) .d false], .times_row, none, [0, 1, 2]⟩,
  ⟨.times_row, [.obj .crs .d true, .obj .vector .d true, .obj .crs .d false], .times_row, none, [0, 1, 2]⟩,
  ⟨.times_row, [.obj .crs .d true, .obj (.view1D .vec) .d true, .obj .crs .d false], .times_row, none, [0, 1, 2]⟩,
  ⟨.times_row, [.obj .crs .d true, .obj (.view1D .mat) .d true, .obj .crs .d false], .times_row, none, [0, 1, 2]⟩,
  ⟨.times_row, [.obj .crs .d true, .obj (.view1D .ten) .d true, .obj .crs .d false], .times_row, none, [0, 1, 2]⟩,
  ⟨.times_row, [.obj .dense .s true, .obj .vector .s true, .obj .dense .s false], .times_row, none, [0, 1, 2]⟩,
  ⟨.times_row, [.obj .dense .s true, .obj .vector .s true, .obj (.viewDense .vec) .s false], .times_row, none, [0, 1, 2]⟩,
  ⟨.times_row, [.obj .dense .s true, .obj .vector .s true, .obj (.viewDense .mat) .s false], .times_row, none, [0, 1, 2]⟩,
  ⟨.times_row, [.obj .dense .s true, .obj .vector .s true, .obj (.viewDense .ten) .s false], .times_row, none, [0, 1, 2]⟩,
  ⟨.times_row, [.obj .dense .s true, .obj (.view1D .vec) .s true, .obj .dense .s false], .times_row, none, [0, 1, 2]⟩,
  ⟨.times_row, [.obj .dense .s true, .obj (.view1D .vec) .s true, .obj (.viewDense .vec) .s false], .times_row, none, [0, 1, 2]⟩,
  ⟨.times_row, [.obj .dense .s true, .obj (.view1D .vec) .s true, .obj (.viewDense .mat) .s false], .times_row, none, [0, 1, 2]⟩,
  ⟨.times_row, [.obj .dense .s true, .obj (.view1D .vec) .s true, .obj (.viewDense .ten) .s false], .times_row, none, [0, 1, 2]⟩,
  ⟨.times_row, [.obj .dense .s true, .obj (.view1D .mat) .s true, .obj .dense .s false], .times_row, none, [0, 1, 2]⟩,
  ⟨.times_row, [.obj .dense .s true, .obj (.view1D .mat) .s true, .obj (.viewDense .vec) .s false], .times_row, none, [0, 1, 2]⟩,
  ⟨.times_row, [.obj .dense .s true, .obj (.view1D .mat) .s true, .obj (.viewDense .mat) .s false], .times_row, none, [0, 1, 2]⟩,
  ⟨.times_row, [.obj .dense .s true, .obj (.view1D .mat) .s true, .obj (.viewDense .ten) .s false], .times_row, none, [0, 1, 2]⟩]

/-- src/blas/matrix/times/times.cpp:542-925 -/
def tMatTimes_1 : List Overload := [
  ⟨.times_row, [.obj .dense .s true, .obj (.view1D .ten) .s true, .obj .dense .s false], .times_row, none, [0, 1, 2]⟩,
  ⟨.times_row, [.obj .dense .s true, .obj (.view1D .ten) .s true, .obj (.viewDense .vec) .s false], .times_row, none, [0, 1, 2]⟩,
  ⟨.times_row, [.obj .dense .s true, .obj (.view1D .ten) .s true, .obj (.viewDense .mat) .s false], .times_row, none, [0, 1, 2]⟩,
  ⟨.times_row, [.obj .dense .s true, .obj (.view1D .ten) .s true, .obj (.viewDense .ten) .s false], .times_row, none, [0, 1, 2]⟩,
  ⟨.times_row, [.obj (.viewDense .vec) .s true, .obj .vector .s true, .obj .dense .s false], .times_row, none, [0, 1, 2]⟩,
  ⟨.times_row, [.obj (.viewDense .vec) .s true, .obj .vector .s true, .obj (.viewDense .vec) .s false], .times_row, none, [0, 1, 2]⟩,
  ⟨.times_row, [.obj (.viewDense .vec) .s true, .obj .vector .s true, .obj (.viewDense .mat) .s false], .times_row, none, [0, 1, 2]⟩,
  ⟨.times_row, [.obj (.viewDense .vec) .s true, .obj .vector .s true, .obj (.viewDense .ten) .s false], .times_row, none, [0, 1, 2]⟩,
  ⟨.times_row, [.obj (.viewDense .vec) .s true, .obj (.view1D .vec) .s true, .obj .dense .s false], .times_row, none, [0, 1, 2]⟩,
  ⟨.times_row, [.obj (.viewDense .vec) .s true, .obj (.view1D .vec) .s true, .obj (.viewDense .vec) .s false], .times_row, none, [0, 1, 2]⟩,
  ⟨.times_row, [.obj (.viewDense .vec) .s true, .obj (.view1D .vec) .s true, .obj (.viewDense .mat) .s false], .times_row, none, [0, 1, 2]⟩,
  ⟨.times_row, [.obj (.viewDense .vec) .s true, .obj (.view1D .vec) .s true, .obj (.viewDense .ten) .s false], .times_row, none, [0, 1, 2]⟩,
  ⟨.times_row, [.obj (.viewDense .vec) .s true, .obj (.view1D .mat) .s true, .obj .dense .s false], .times_row, none, [0, 1, 2]⟩,
  ⟨.times_row, [.obj (.viewDense .vec) .s true, .obj (.view1D .mat) .s true, .obj (.viewDense .vec) .s false], .times_row, none, [0, 1, 2]⟩,
  ⟨.times_row, [.obj (.viewDense .vec) .s true, .obj (.view1D .mat) .s true, .obj (.viewDense .mat) .s false], .times_row, none, [0, 1, 2]⟩,
  ⟨.times_row, [.obj (.viewDense .vec) .s true, .obj (.view1D .mat) .s true, .obj (.viewDense .ten) .s false], .times_row, none, [0, 1, 2]⟩,
  ⟨.times_row, [.obj (.viewDense .vec) .s true, .obj (.view1D .ten) .s true, .obj .dense .s false], .times_row, none, [0, 1, 2]⟩,
  ⟨.times_row, [.obj (.viewDense .vec) .s true, .obj (.view1D .ten) .s true, .obj (.viewDense .vec) .s false], .times_row, none, [0, 1, 2]⟩,
  ⟨.times_row, [.obj (.viewDense .vec) .s true, .obj (.view1D .ten) .s true, .obj (.viewDense .mat) .s false], .times_row, none, [0, 1, 2]⟩,
  ⟨.times_row, [.obj (.viewDense .vec) .s true, .obj (.view1D .ten) .s true, .obj (.viewDense .ten) .s false], .times_row, none, [0, 1, 2]⟩,
  ⟨.times_row, [.obj (.viewDense .mat) .s true, .obj .vector .s true, .obj .dense .s false], .times_row, none, [0, 1, 2]⟩,
  ⟨.times_row, [.obj (.viewDense .mat) .s true, .obj .vector .s true, .obj (.viewDense .vec) .s false], .times_row, none, [0, 1, 2]⟩,
  ⟨.times_row, [.obj (.viewDense .mat) .s true, .obj .vector .s true, .obj (.viewDense .mat) .s false], .times_row, none, [0, 1, 2]⟩,
  ⟨.times_row, [.obj (.viewDense .mat) .s true, .obj .vector .s true, .obj (.viewDense .ten) .s false], .times_row, none, [0, 1, 2]⟩,
  ⟨.times_row, [.obj (.viewDense .mat) .s true, .obj (.view1D .vec) .s true, .obj .dense .s false], .times_row, none, [0, 1, 2]⟩,
  ⟨.times_row, [.obj (.viewDense .mat) .s true, .obj (.view1D .vec) .s true, .obj (.viewDense .vec) .s false], .times_row, none, [0, 1, 2]⟩,
  ⟨.times_row, [.obj (.viewDense .mat) .s true, .obj (.view1D .vec) .s true, .obj (.viewDense .mat) .s false], .times_row, none, [0, 1, 2]⟩,
  ⟨.times_row, [.obj (.viewDense .mat) .s true, .obj (.view1D .vec) .s true, .obj (.viewDense .ten) .s false], .times_row, none, [0, 1, 2]⟩,
  ⟨.times_row, [.obj (.viewDense .mat) .s true, .obj (.view1D .mat) .s true, .obj .dense .s false], .times_row, none, [0, 1, 2]⟩,
  ⟨.times_row, [.obj (.viewDense .mat) .s true, .obj (.view1D .mat) .s true, .obj (.viewDense .vec) .s false], .times_row, none, [0, 1, 2]⟩,
  ⟨.times_row, [.obj (.viewDense .mat) .s true, .obj (.view1D .mat) .s true, .obj (.viewDense .mat) .s false], .times_row, none, [0, 1, 2]⟩,
  ⟨.times_row, [.obj (.viewDense .mat) .s true, .obj (.view1D .mat) .s true, .obj (.viewDense .ten) .s false], .times_row, none, [0, 1, 2]⟩,
  ⟨.times_row, [.obj (.viewDense .mat) .s true, .obj (.view1D .ten) .s true, .obj .dense .s false], .times_row, none, [0, 1, 2]⟩,
  ⟨.times_row, [.obj (.viewDense .mat) .s true, .obj (.view1D .ten) .s true, .obj (.viewDense .vec) .s false], .times_row, none, [0, 1, 2]⟩,
  ⟨.times_row, [.obj (.viewDense .mat) .s true, .obj (.view1D .ten) .s true, .obj (.viewDense .mat) .s false], .times_row, none, [0, 1, 2]⟩,
  ⟨.times_row, [.obj (.viewDense .mat) .s true, .obj (.view1D .ten) .s true, .obj (.viewDense .ten) .s false], .times_row, none, [0, 1, 2]⟩,
  ⟨.times_row, [.obj (.viewDense .ten) .s true, .obj .vector .s true, .obj .dense .s false], .times_row, none, [0, 1, 2]⟩,
  ⟨.times_row, [.obj (.viewDense .ten) .s true, .obj .vector .s true, .obj (.viewDense .vec) .s false], .times_row, none, [0, 1, 2]⟩,
  ⟨.times_row, [.obj (.viewDense .ten) .s true, .obj .vector .s true, .obj (.viewDense .mat) .s false], .times_row, none, [0, 1, 2]⟩,
  ⟨.times_row, [.obj (.viewDense .ten) .s true, .obj .vector .s true, .obj (.viewDense .ten) .s false], .times_row, none, [0, 1, 2]⟩,
  ⟨.times_row, [.obj (.viewDense .ten) .s true, .obj (.view1D .vec) .s true, .obj .dense .s false], .times_row, none, [0, 1, 2]⟩,
  ⟨.times_row, [.obj (.viewDense .ten) .s true, .obj (.view1D .vec) .s true, .obj (.viewDense .vec) .s false], .times_row, none, [0, 1, 2]⟩,
  ⟨.times_row, [.obj (.viewDense .ten) .s true, .obj (.view1D .vec) .s true, .obj (.viewDense .mat) .s false], .times_row, none, [0, 1, 2]⟩,
  ⟨.times_row, [.obj (.viewDense .ten) .s true, .obj (.view1D .vec) .s true, .obj (.viewDense .ten) .s false], .times_row, none, [0, 1, 2]⟩,
  ⟨.times_row, [.obj (.viewDense .ten) .s true, .obj (.view1D .mat) .s true, .obj .dense .s false], .times_row, none, [0, 1, 2]⟩,
  ⟨.times_row, [.obj (.viewDense .ten) .s true, .obj (.view1D .mat) .s true, .obj (.viewDense .vec) .s false], .times_row, none, [0, 1, 2]⟩,
  ⟨.times_row, [.obj (.viewDense .ten) .s true, .obj (.view1D .mat) .s true, .obj (.viewDense .mat) .s false], .times_row, none, [0, 1, 2]⟩,
  ⟨.times_row, [.obj (.viewDense .ten) .s true, .obj (.view1D .mat) .s true, .obj (.viewDense .ten) .s false], .times_row, none, [0, 1, 2]⟩,
  ⟨.times_row, [.obj (.viewDense .ten) .s true, .obj (.view1D .ten) .s true, .obj .dense .s false], .times_row, none, [0, 1, 2]⟩,
  ⟨.times_row, [.obj (.viewDense .ten) .s true, .obj (.view1D .ten) .s true, .obj (.viewDense .vec) .s false], .times_row, none, [0, 1, 2]⟩,
  ⟨.times_row, [.obj (.viewDense .ten) .s true, .obj (.view1D .ten) .s true, .obj (.viewDense .mat) .s false], .times_row, none, [0, 1, 2]⟩,
  ⟨.times_row, [.obj (.viewDense .ten) .s true, .obj (.view1D .ten) .s true, .obj (.viewDense .ten) .s false], .times_row, none, [0, 1, 2]⟩,
  ⟨.times_row, [.obj .crs .s true, .obj .vector .s true, .obj .crs .s false], .times_row, none, [0, 1, 2]⟩,
  ⟨.times_row, [.obj .crs .s true, .obj (.view1D .vec) .s true, .obj .crs .s false], .times_row, none, [0, 1, 2]⟩,
  ⟨.times_row, [.obj .crs .s true, .obj (.view1D .mat) .s true, .obj .crs .s false], .times_row, none, [0, 1, 2]⟩,
  ⟨.times_row, [.obj .crs .s true, .obj (.view1D .ten) .s true, .obj .crs .s false], .times_row, none, [0, 1, 2]⟩,
  ⟨.times_col, [.obj .dense .d true, .obj .vector .d true, .obj .dense .d false], .times_col, none, [0, 1, 2]⟩,
  ⟨.times_col, [.obj .dense .d true, .obj .vector .d true, .obj (.viewDense .vec) .d false], .times_col, none, [0, 1, 2]⟩,
  ⟨.times_col, [.obj .dense .d true, .obj .vector .d true, .obj (.viewDense .mat) .d false], .times_col, none, [0, 1, 2]⟩,
  ⟨.times_col, [.obj .dense .d true, .obj .vector .d true, .obj (.viewDense .ten) .d false], .times_col, none, [0, 1, 2]⟩,
  ⟨.times_col, [.obj .dense .d true, .obj (.view1D .vec) .d true, .obj .dense .d false], .times_col, none, [0, 1, 2]⟩,
  ⟨.times_col, [.obj .dense .d true, .obj (.view1D .vec) .d true, .obj (.viewDense .vec) .d false], .times_col, none, [0, 1, 2]⟩,
  ⟨.times_col, [.obj .dense .d true, .obj (.view1D .vec) .d true, .obj (.viewDense .mat) .d false], .times_col, none, [0, 1, 2]⟩,
  ⟨.times_col, [.obj .dense .d true, .obj (.view1D .vec) .d true, .obj (.viewDense .ten) .d false], .times_col, none, [0, 1, 2]⟩,
  ⟨.times_col, [.obj .dense .d true, .obj (.view1D .mat) .d true, .obj .dense .d false], .times_col, none, [0, 1, 2]⟩,
  ⟨.times_col, [.obj .dense .d true, .obj (.view1D .mat) .d true, .obj (.viewDense .vec) .d false], .times_col, none, [0, 1, 2]⟩,
  ⟨.times_col, [.obj .dense .d true, .obj (.view1D .mat) .d true, .obj (.viewDense .mat) .d false], .times_col, none, [0, 1, 2]⟩,
  ⟨.times_col, [.obj .dense .d true, .obj (.view1D .mat) .d true, .obj (.viewDense .ten) .d false], .times_col, none, [0, 1, 2]⟩,
  ⟨.times_col, [.obj .dense .d true, .obj (.view1D .ten) .d true, .obj .dense .d false], .times_col, none, [0, 1, 2]⟩,
  ⟨.times_col, [.obj .dense .d true, .obj (.view1D .ten) .d true, .obj (.viewDense .vec) .d false], .times_col, none, [0, 1, 2]⟩,
  ⟨.times_col, [.obj .dense .d true, .obj (.view1D .ten) .d true, .obj (.viewDense .mat) .d false], .times_col, none, [0, 1, 2]⟩,
  ⟨.times_col, [.obj .dense .d true, .obj (.view1D .ten) .d true, .obj (.viewDense .ten) .d false], .times_col, none, [0, 1, 2]⟩,
  ⟨.times_col, [.obj (.viewDense .vec) .d true, .obj .vector .d true, .obj .dense .d false], .times_col, none, [0, 1, 2]⟩,
  ⟨.times_col, [.obj (.viewDense .vec) .d true, .obj .vector .d true, .obj (.viewDense .vec) .d false], .times_col, none, [0, 1, 2]⟩,
  ⟨.times_col, [.obj (.viewDense .vec) .d true, .obj .vector .d true, .obj (.viewDense .mat) .d false], .times_col, none, [0, 1, 2]⟩,
  ⟨.times_col, [.obj (.viewDense .vec) .d true, .obj .vector .d true, .obj (.viewDense .ten) .d false], .times_col, none, [0, 1, 2]⟩,
  ⟨.times_col, [.obj (.viewDense .vec) .d true, .obj (.view1D .vec) .d true, .obj .dense .d false], .times_col, none, [0, 1, 2]⟩,
  ⟨.times_col, [.obj (.viewDense .vec) .d true, .obj (.view1D .vec) .d true, .obj (.viewDense .vec) .d false], .times_col, none, [0, 1, 2]⟩,
  ⟨.times_col, [.obj (.viewDense .vec) .d true, .obj (.view1D .vec) .d true, .obj (.viewDense .mat) .d false], .times_col, none, [0, 1, 2]⟩,
  ⟨.times_col, [.obj (.viewDense .vec) .d true, .obj (.view1D .vec) .d true, .obj (.viewDense .ten) .d false], .times_col, none, [0, 1, 2]⟩]

/-- src/blas/matrix/times/times.cpp:926-1310 -/
def tMatTimes_2 : List Overload := [
  ⟨.times_col, [.obj (.viewDense .vec) .d true, .obj (.view1D .mat) .d true, .obj .dense .d false], .times_col, none, [0, 1, 2]⟩,
  ⟨.times_col, [.obj (.viewDense .vec) .d true, .obj (.view1D .mat) .d true, .obj (.viewDense .vec) .d false], .times_col, none, [0, 1, 2]⟩,
  ⟨.times_col, [.obj (.viewDense .vec) .d true, .obj (.view1D .mat) .d true, .obj (.viewDense .mat) .d false], .times_col, none, [0, 1, 2]⟩,
  ⟨.times_col, [.obj (.viewDense .vec) .d true, .obj (.view1D .mat) .d true, .obj (.viewDense .ten) .d false], .times_col, none, [0, 1, 2]⟩,
  ⟨.times_col, [.obj (.viewDense .vec) .d true, .obj (.view1D .ten) .d true, .obj .dense .d false], .times_col, none, [0, 1, 2]⟩,
  ⟨.times_col, [.obj (.viewDense .vec) .d true, .obj (.view1D .ten) .d true, .obj (.viewDense .vec) .d false], .times_col, none, [0, 1, 2]⟩,
  ⟨.times_col, [.obj (.viewDense .vec) .d true, .obj (.view1D .ten) .d true, .obj (.viewDense .mat) .d false], .times_col, none, [0, 1, 2]⟩,
  ⟨.times_col, [.obj (.viewDense .vec) .d true, .obj (.view1D .ten) .d true, .obj (.viewDense .ten) .d false], .times_col, none, [0, 1, 2]⟩,
  ⟨.times_col, [.obj (.viewDense .mat) .d true, .obj .vector .d true, .obj .dense .d false], .times_col, none, [0, 1, 2]⟩,
  ⟨.times_col, [.obj (.viewDense .mat) .d true, .obj .vector .d true, .obj (.viewDense .vec) .d false], .times_col, none, [0, 1, 2]⟩,
  ⟨.times_col, [.obj (.viewDense .mat) .d true, .obj .vector .d true, .obj (.viewDense .mat) .d false], .times_col, none, [0, 1, 2]⟩,
  ⟨.times_col, [.obj (.viewDense .mat) .d true, .obj .vector .d true, .obj (.viewDense .ten) .d false], .times_col, none, [0, 1, 2]⟩,
  ⟨.times_col, [.obj (.viewDense .mat) .d true, .obj (.view1D .vec) .d true, .obj .dense .d false], .times_col, none, [0, 1, 2]⟩,
  ⟨.times_col, [.obj (.viewDense .mat) .d true, .obj (.view1D .vec) .d true, .obj (.viewDense .vec) .d false], .times_col, none, [0, 1, 2]⟩,
  ⟨.times_col, [.obj (.viewDense .mat) .d true, .obj (.view1D .vec) .d true, .obj (.viewDense .mat) .d false], .times_col, none, [0, 1, 2]⟩,
  ⟨.times_col, [.obj (.viewDense .mat) .d true, .obj (.view1D .vec) .d true, .obj (.viewDense .ten) .d false], .times_col, none, [0, 1, 2]⟩,
  ⟨.times_col, [.obj (.viewDense .mat) .d true, .obj (.view1D .mat) .d true, .obj .dense .d false], .times_col, none, [0, 1, 2]⟩,
  ⟨.times_col, [.obj (.viewDense .mat) .d true, .obj (.view1D .mat) .d true, .obj (.viewDense .vec) .d false], .times_col, none, [0, 1, 2]⟩,
  ⟨.times_col, [.obj (.viewDense .mat) .d true, .obj (.view1D .mat) .d true, .obj (.viewDense .mat) .d false], .times_col, none, [0, 1, 2]⟩,
  ⟨.times_col, [.obj (.viewDense .mat) .d true, .obj (.view1D .mat) .d true, .obj (.viewDense .ten) .d false], .times_col, none, [0, 1, 2]⟩,
  ⟨.times_col, [.obj (.viewDense .mat) .d true, .obj (.view1D .ten) .d true, .obj .dense .d false], .times_col, none, [0, 1, 2]⟩,
  ⟨.times_col, [.obj (.viewDense .mat) .d true, .obj (.view1D .ten) .d true, .obj (.viewDense .vec) .d false], .times_col, none, [0, 1, 2]⟩,
  ⟨.times_col, [.obj (.viewDense .mat) .d true, .obj (.view1D .ten) .d true, .obj (.viewDense .mat) .d false], .times_col, none, [0, 1, 2]⟩,
  ⟨.times_col, [.obj (.viewDense .mat) .d true, .obj (.view1D .ten) .d true, .obj (.viewDense .ten) .d false], .times_col, none, [0, 1, 2]⟩,
  ⟨.times_col, [.obj (.viewDense .ten) .d true, .obj .vector .d true, .obj .dense .d false], .times_col, none, [0, 1, 2]⟩,
  ⟨.times_col, [.obj (.viewDense .ten) .d true, .obj .vector .d true, .obj (.viewDense .vec) .d false], .times_col, none, [0, 1, 2]⟩,
  ⟨.times_col, [.obj (.viewDense .ten) .d true, .obj .vector .d true, .obj (.viewDense .mat) .d false], .times_col, none, [0, 1, 2]⟩,
  ⟨.times_col, [.obj (.viewDense .ten) .d true, .obj .vector .d true, .obj (.viewDense .ten) .d false], .times_col, none, [0, 1, 2]⟩,
  ⟨.times_col, [.obj (.viewDense .ten) .d true, .obj (.view1D .vec) .d true, .obj .dense .d false], .times_col, none, [0, 1, 2]⟩,
  ⟨.times_col, [.obj (.viewDense .ten) .d true, .obj (.view1D .vec) .d true, .obj (.viewDense .vec) .d false], .times_col, none, [0, 1, 2]⟩,
  ⟨.times_col, [.obj (.viewDense .ten) .d true, .obj (.view1D .vec) .d true, .obj (.viewDense .mat) .d false], .times_col, none, [0, 1, 2]⟩,
  ⟨.times_col, [.obj (.viewDense .ten) .d true, .obj (.view1D .vec) .d true, .obj (.viewDense .ten) .d false], .times_col, none, [0, 1, 2]⟩,
  ⟨.times_col, [.obj (.viewDense .ten) .d true, .obj (.view1D .mat) .d true, .obj .dense .d false], .times_col, none, [0, 1, 2]⟩,
  ⟨.times_col, [.obj (.viewDense .ten) .d true, .obj (.view1D .mat) .d true, .obj (.viewDense .vec) .d false], .times_col, none, [0, 1, 2]⟩,
  ⟨.times_col, [.obj (.viewDense .ten) .d true, .obj (.view1D .mat) .d true, .obj (.viewDense .mat) .d false], .times_col, none, [0, 1, 2]⟩,
  ⟨.times_col, [.obj (.viewDense .ten) .d true, .obj (.view1D .mat) .d true, .obj (.viewDense .ten) .d false], .times_col, none, [0, 1, 2]⟩,
  ⟨.times_col, [.obj (.viewDense .ten) .d true, .obj (.view1D .ten) .d true, .obj .dense .d false], .times_col, none, [0, 1, 2]⟩,
  ⟨.times_col, [.obj (.viewDense .ten) .d true, .obj (.view1D .ten) .d true, .obj (.viewDense .vec) .d false], .times_col, none, [0, 1, 2]⟩,
  ⟨.times_col, [.obj (.viewDense .ten) .d true, .obj (.view1D .ten) .d true, .obj (.viewDense .mat) .d false], .times_col, none, [0, 1, 2]⟩,
  ⟨.times_col, [.obj (.viewDense .ten) .d true, .obj (.view1D .ten) .d true, .obj (.viewDense .ten) .d false], .times_col, none, [0, 1, 2]⟩,
  ⟨.times_col, [.obj .crs .d true, .obj .vector .d true, .obj .crs .d false], .times_col, none, [0, 1, 2]⟩,
  ⟨.times_col, [.obj .crs .d true, .obj (.view1D .vec) .d true, .obj .crs .d false], .times_col, none, [0, 1, 2]⟩,
  ⟨.times_col, [.obj .crs .d true, .obj (.view1D .mat) .d true, .obj .crs .d false], .times_col, none, [0, 1, 2]⟩,
  ⟨.times_col, [.obj .crs .d true, .obj (.view1D .ten) .d true, .obj .crs .d false], .times_col, none, [0, 1, 2]⟩,
  ⟨.times_col, [.obj .dense .s true, .obj .vector .s true, .obj .dense .s false], .times_col, none, [0, 1, 2]⟩,
  ⟨.times_col, [.obj .dense .s true, .obj .vector .s true, .obj (.viewDense .vec) .s false], .times_col, none, [0, 1, 2]⟩,
  ⟨.times_col, [.obj .dense .s true, .obj .vector .s true, .obj (.viewDense .mat) .s false], .times_col, none, [0, 1, 2]⟩,
  ⟨.times_col, [.obj .dense .s true, .obj .vector .s true, .obj (.viewDense .ten) .s false], .times_col, none, [0, 1, 2]⟩,
  ⟨.times_col, [.obj .dense .s true, .obj (.view1D .vec) .s true, .obj .dense .s false], .times_col, none, [0, 1, 2]⟩,
  ⟨.times_col, [.obj .dense .s true, .obj (.view1D .vec) .s true, .obj (.viewDense .vec) .s false], .times_col, none, [0, 1, 2]⟩,
  ⟨.times_col, [.obj .dense .s true, .obj (.view1D .vec) .s true, .obj (.viewDense .mat) .s false], .times_col, none, [0, 1, 2]⟩,
  ⟨.times_col, [.obj .dense .s true, .obj (.view1D .vec) .s true, .obj (.viewDense .ten) .s false], .times_col, none, [0, 1, 2]⟩,
  ⟨.times_col, [.obj .dense .s true, .obj (.view1D .mat) .s true, .obj .dense .s false], .times_col, none, [0, 1, 2]⟩,
  ⟨.times_col, [.obj .dense .s true, .obj (.view1D .mat) .s true, .obj (.viewDense .vec) .s false], .times_col, none, [0, 1, 2]⟩,
  ⟨.times_col, [.obj .dense .s true, .obj (.view1D .mat) .s true, .obj (.viewDense .mat) .s false], .times_col, none, [0, 1, 2]⟩,
  ⟨.times_col, [.obj .dense .s true, .obj (.view1D .mat) .s true, .obj (.viewDense .ten) .s false], .times_col, none, [0, 1, 2]⟩,
  ⟨.times_col, [.obj .dense .s true, .obj (.view1D .ten) .s true, .obj .dense .s false], .times_col, none, [0, 1, 2]⟩,
  ⟨.times_col, [.obj .dense .s true, .obj (.view1D .ten) .s true, .obj (.viewDense .vec) .s false], .times_col, none, [0, 1, 2]⟩,
  ⟨.times_col, [.obj .dense .s true, .obj (.view1D .ten) .s true, .obj (.viewDense .mat) .s false], .times_col, none, [0, 1, 2]⟩,
  ⟨.times_col, [.obj .dense .s true, .obj (.view1D .ten) .s true, .obj (.viewDense .ten) .s false], .times_col, none, [0, 1, 2]⟩,
  ⟨.times_col, [.obj (.viewDense .vec) .s true, .obj .vector .s true, .obj .dense .s false], .times_col, none, [0, 1, 2]⟩,
  ⟨.times_col, [.obj (.viewDense .vec) .s true, .obj .vector .s true, .obj (.viewDense .vec) .s false], .times_col, none, [0, 1, 2]⟩,
  ⟨.times_col, [.obj (.viewDense .vec) .s true, .obj .vector .s true, .obj (.viewDense .mat) .s false], .times_col, none, [0, 1, 2]⟩,
  ⟨.times_col, [.obj (.viewDense .vec) .s true, .obj .vector .s true, .obj (.viewDense .ten) .s false], .times_col, none, [0, 1, 2]⟩,
  ⟨.times_col, [.obj (.viewDense .vec) .s true, .obj (.view1D .vec) .s true, .obj .dense .s false], .times_col, none, [0, 1, 2]⟩,
  ⟨.times_col, [.obj (.viewDense .vec) .s true, .obj (.view1D .vec) .s true, .obj (.viewDense .vec) .s false], .times_col, none, [0, 1, 2]⟩,
  ⟨.times_col, [.obj (.viewDense .vec) .s true, .obj (.view1D .vec) .s true, .obj (.viewDense .mat) .s false], .times_col, none, [0, 1, 2]⟩,
  ⟨.times_col, [.obj (.viewDense .vec) .s true, .obj (.view1D .vec) .s true, .obj (.viewDense .ten) .s false], .times_col, none, [0, 1, 2]⟩,
  ⟨.times_col, [.obj (.viewDense .vec) .s true, .obj (.view1D .mat) .s true, .obj .dense .s false], .times_col, none, [0, 1, 2]⟩,
  ⟨.times_col, [.obj (.viewDense .vec) .s true, .obj (.view1D .mat) .s true, .obj (.viewDense .vec) .s false], .times_col, none, [0, 1, 2]⟩,
  ⟨.times_col, [.obj (.viewDense .vec) .s true, .obj (.view1D .mat) .s true, .obj (.viewDense .mat) .s false], .times_col, none, [0, 1, 2]⟩,
  ⟨.times_col, [.obj (.viewDense .vec) .s true, .obj (.view1D .mat) .s true, .obj (.viewDense .ten) .s false], .times_col, none, [0, 1, 2]⟩,
  ⟨.times_col, [.obj (.viewDense .vec) .s true, .obj (.view1D .ten) .s true, .obj .dense .s false], .times_col, none, [0, 1, 2]⟩,
  ⟨.times_col, [.obj (.viewDense .vec) .s true, .obj (.view1D .ten) .s true, .obj (.viewDense .vec) .s false], .times_col, none, [0, 1, 2]⟩,
  ⟨.times_col, [.obj (.viewDense .vec) .s true, .obj (.view1D .ten) .s true, .obj (.viewDense .mat) .s false], .times_col, none, [0, 1, 2]⟩,
  ⟨.times_col, [.obj (.viewDense .vec) .s true, .obj (.view1D .ten) .s true, .obj (.viewDense .ten) .s false], .times_col, none, [0, 1, 2]⟩,
  ⟨.times_col, [.obj (.viewDense .mat) .s true, .obj .vector .s true, .obj .dense .s false], .times_col, none, [0, 1, 2]⟩,
  ⟨.times_col, [.obj (.viewDense .mat) .s true, .obj .vector .s true, .obj (.viewDense .vec) .s false], .times_col, none, [0, 1, 2]⟩,
  ⟨.times_col, [.obj (.viewDense .mat) .s true, .obj .vector .s true, .obj (.viewDense .mat) .s false], .times_col, none, [0, 1, 2]⟩,
  ⟨.times_col, [.obj (.viewDense .mat) .s true, .obj .vector .s true, .obj (.viewDense .ten) .s false], .times_col, none, [0, 1, 2]⟩]

/-- src/blas/matrix/times/times.cpp:1311-1705 -/
def tMatTimes_3 : List Overload := [
  ⟨.times_col, [.obj (.viewDense .mat) .s true, .obj (.view1D .vec) .s true, .obj .dense .s false], .times_col, none, [0, 1, 2]⟩,
  ⟨.times_col, [.obj (.viewDense .mat) .s true, .obj (.view1D .vec) .s true, .obj (.viewDense .vec) .s false], .times_col, none, [0, 1, 2]⟩,
  ⟨.times_col, [.obj (.viewDense .mat) .s true, .obj (.view1D .vec) .s true, .obj (.viewDense .mat) .s false], .times_col, none, [0, 1, 2]⟩,
  ⟨.times_col, [.obj (.viewDense .mat) .s true, .obj (.view1D .vec) .s true, .obj (.viewDense .ten) .s false], .times_col, none, [0, 1, 2]⟩,
  ⟨.times_col, [.obj (.viewDense .mat) .s true, .obj (.view1D .mat) .s true, .obj .dense .s false], .times_col, none, [0, 1, 2]⟩,
  ⟨.times_col, [.obj (.viewDense .mat) .s true, .obj (.view1D .mat) .s true, .obj (.viewDense .vec) .s false], .times_col, none, [0, 1, 2]⟩,
  ⟨.times_col, [.obj (.viewDense .mat) .s true, .obj (.view1D .mat) .s true, .obj (.viewDense .mat) .s false], .times_col, none, [0, 1, 2]⟩,
  ⟨.times_col, [.obj (.viewDense .mat) .s true, .obj (.view1D .mat) .s true, .obj (.viewDense .ten) .s false], .times_col, none, [0, 1, 2]⟩,
  ⟨.times_col, [.obj (.viewDense .mat) .s true, .obj (.view1D .ten) .s true, .obj .dense .s false], .times_col, none, [0, 1, 2]⟩,
  ⟨.times_col, [.obj (.viewDense .mat) .s true, .obj (.view1D .ten) .s true, .obj (.viewDense .vec) .s false], .times_col, none, [0, 1, 2]⟩,
  ⟨.times_col, [.obj (.viewDense .mat) .s true, .obj (.view1D .ten) .s true, .obj (.viewDense .mat) .s false], .times_col, none, [0, 1, 2]⟩,
  ⟨.times_col, [.obj (.viewDense .mat) .s true, .obj (.view1D .ten) .s true, .obj (.viewDense .ten) .s false], .times_col, none, [0, 1, 2]⟩,
  ⟨.times_col, [.obj (.viewDense .ten) .s true, .obj .vector .s true, .obj .dense .s false], .times_col, none, [0, 1, 2]⟩,
  ⟨.times_col, [.obj (.viewDense .ten) .s true, .obj .vector .s true, .obj (.viewDense .vec) .s false], .times_col, none, [0, 1, 2]⟩,
  ⟨.times_col, [.obj (.viewDense .ten) .s true, .obj .vector .s true, .obj (.viewDense .mat) .s false], .times_col, none, [0, 1, 2]⟩,
  ⟨.times_col, [.obj (.viewDense .ten) .s true, .obj .vector .s true, .obj (.viewDense .ten) .s false], .times_col, none, [0, 1, 2]⟩,
  ⟨.times_col, [.obj (.viewDense .ten) .s true, .obj (.view1D .vec) .s true, .obj .dense .s false], .times_col, none, [0, 1, 2]⟩,
  ⟨.times_col, [.obj (.viewDense .ten) .s true, .obj (.view1D .vec) .s true, .obj (.viewDense .vec) .s false], .times_col, none, [0, 1, 2]⟩,
  ⟨.times_col, [.obj (.viewDense .ten) .s true, .obj (.view1D .vec) .s true, .obj (.viewDense .mat) .s false], .times_col, none, [0, 1, 2]⟩,
  ⟨.times_col, [.obj (.viewDense .ten) .s true, .obj (.view1D .vec) .s true, .obj (.viewDense .ten) .s false], .times_col, none, [0, 1, 2]⟩,
  ⟨.times_col, [.obj (.viewDense .ten) .s true, .obj (.view1D .mat) .s true, .obj .dense .s false], .times_col, none, [0, 1, 2]⟩,
  ⟨.times_col, [.obj (.viewDense .ten) .s true, .obj (.view1D .mat) .s true, .obj (.viewDense .vec) .s false], .times_col, none, [0, 1, 2]⟩,
  ⟨.times_col, [.obj (.viewDense .ten) .s true, .obj (.view1D .mat) .s true, .obj (.viewDense .mat) .s false], .times_col, none, [0, 1, 2]⟩,
  ⟨.times_col, [.obj (.viewDense .ten) .s true, .obj (.view1D .mat) .s true, .obj (.viewDense .ten) .s false], .times_col, none, [0, 1, 2]⟩,
  ⟨.times_col, [.obj (.viewDense .ten) .s true, .obj (.view1D .ten) .s true, .obj .dense .s false], .times_col, none, [0, 1, 2]⟩,
  ⟨.times_col, [.obj (.viewDense .ten) .s true, .obj (.view1D .ten) .s true, .obj (.viewDense .vec) .s false], .times_col, none, [0, 1, 2]⟩,
  ⟨.times_col, [.obj (.viewDense .ten) .s true, .obj (.view1D .ten) .s true, .obj (.viewDense .mat) .s false], .times_col, none, [0, 1, 2]⟩,
  ⟨.times_col, [.obj (.viewDense .ten) .s true, .obj (.view1D .ten) .s true, .obj (.viewDense .ten) .s false], .times_col, none, [0, 1, 2]⟩,
  ⟨.times_col, [.obj .crs .s true, .obj .vector .s true, .obj .crs .s false], .times_col, none, [0, 1, 2]⟩,
  ⟨.times_col, [.obj .crs .s true, .obj (.view1D .vec) .s true, .obj .crs .s false], .times_col, none, [0, 1, 2]⟩,
  ⟨.times_col, [.obj .crs .s true, .obj (.view1D .mat) .s true, .obj .crs .s false], .times_col, none, [0, 1, 2]⟩,
  ⟨.times_col, [.obj .crs .s true, .obj (.view1D .ten) .s true, .obj .crs .s false], .times_col, none, [0, 1, 2]⟩,
  ⟨.times_row, [.obj .dense .d true, .num, .obj .vector .d true, .obj .dense .d false], .times_row, none, [0, 1, 2, 3]⟩,
  ⟨.times_row, [.obj .dense .d true, .num, .obj .vector .d true, .obj (.viewDense .vec) .d false], .times_row, none, [0, 1, 2, 3]⟩,
  ⟨.times_row, [.obj .dense .d true, .num, .obj .vector .d true, .obj (.viewDense .mat) .d false], .times_row, none, [0, 1, 2, 3]⟩,
  ⟨.times_row, [.obj .dense .d true, .num, .obj .vector .d true, .obj (.viewDense .ten) .d false], .times_row, none, [0, 1, 2, 3]⟩,
  ⟨.times_row, [.obj .dense .d true, .num, .obj (.view1D .vec) .d true, .obj .dense .d false], .times_row, none, [0, 1, 2, 3]⟩,
  ⟨.times_row, [.obj .dense .d true, .num, .obj (.view1D .vec) .d true, .obj (.viewDense .vec) .d false], .times_row, none, [0, 1, 2, 3]⟩,
  ⟨.times_row, [.obj .dense .d true, .num, .obj (.view1D .vec) .d true, .obj (.viewDense .mat) .d false], .times_row, none, [0, 1, 2, 3]⟩,
  ⟨.times_row, [.obj .dense .d true, .num, .obj (.view1D .vec) .d true, .obj (.viewDense .ten) .d false], .times_row, none, [0, 1, 2, 3]⟩,
  ⟨.times_row, [.obj .dense .d true, .num, .obj (.view1D .mat) .d true, .obj .dense .d false], .times_row, none, [0, 1, 2, 3]⟩,
  ⟨.times_row, [.obj .dense .d true, .num, .obj (.view1D .mat) .d true, .obj (.viewDense .vec) .d false], .times_row, none, [0, 1, 2, 3]⟩,
  ⟨.times_row, [.obj .dense .d true, .num, .obj (.view1D .mat) .d true, .obj (.viewDense .mat) .d false], .times_row, none, [0, 1, 2, 3]⟩,
  ⟨.times_row, [.obj .dense .d true, .num, .obj (.view1D .mat) .d true, .obj (.viewDense .ten) .d false], .times_row, none, [0, 1, 2, 3]⟩,
  ⟨.times_row, [.obj .dense .d true, .num, .obj (.view1D .ten) .d true, .obj .dense .d false], .times_row, none, [0, 1, 2, 3]⟩,
  ⟨.times_row, [.obj .dense .d true, .num, .obj (.view1D .ten) .d true, .obj (.viewDense .vec) .d false], .times_row, none, [0, 1, 2, 3]⟩,
  ⟨.times_row, [.obj .dense .d true, .num, .obj (.view1D .ten) .d true, .obj (.viewDense .mat) .d false], .times_row, none, [0, 1, 2, 3]⟩,
  ⟨.times_row, [.obj .dense .d true, .num, .obj (.view1D .ten) .d true, .obj (.viewDense .ten) .d false], .times_row, none, [0, 1, 2, 3]⟩,
  ⟨.times_row, [.obj (.viewDense .vec) .d true, .num, .obj .vector .d true, .obj .dense .d false], .times_row, none, [0, 1, 2, 3]⟩,
  ⟨.times_row, [.obj (.viewDense .vec) .d true, .num, .obj .vector .d true, .obj (.viewDense .vec) .d false], .times_row, none, [0, 1, 2, 3]⟩,
  ⟨.times_row, [.obj (.viewDense .vec) .d true, .num, .obj .vector .d true, .obj (.viewDense .mat) .d false], .times_row, none, [0, 1, 2, 3]⟩,
  ⟨.times_row, [.obj (.viewDense .vec) .d true, .num, .obj .vector .d true, .obj (.viewDense .ten) .d false], .times_row, none, [0, 1, 2, 3]⟩,
  ⟨.times_row, [.obj (.viewDense .vec) .d true, .num, .obj (.view1D .vec) .d true, .obj .dense .d false], .times_row, none, [0, 1, 2, 3]⟩,
  ⟨.times_row, [.obj (.viewDense .vec) .d true, .num, .obj (.view1D .vec) .d true, .obj (.viewDense .vec) .d false], .times_row, none, [0, 1, 2, 3]⟩,
  ⟨.times_row, [.obj (.viewDense .vec) .d true, .num, .obj (.view1D .vec) .d true, .obj (.viewDense .mat) .d false], .times_row, none, [0, 1, 2, 3]⟩,
  ⟨.times_row, [.obj (.viewDense .vec) .d true, .num, .obj (.view1D .vec) .d true, .obj (.viewDense .ten) .d false], .times_row, none, [0, 1, 2, 3]⟩,
  ⟨.times_row, [.obj (.viewDense .vec) .d true, .num, .obj (.view1D .mat) .d true, .obj .dense .d false], .times_row, none, [0, 1, 2, 3]⟩,
  ⟨.times_row, [.obj (.viewDense .vec) .d true, .num, .obj (.view1D .mat) .d true, .obj (.viewDense .vec) .d false], .times_row, none, [0, 1, 2, 3]⟩,
  ⟨.times_row, [.obj (.viewDense .vec) .d true, .num, .obj (.view1D .mat) .d true, .obj (.viewDense .mat) .d false], .times_row, none, [0, 1, 2, 3]⟩,
  ⟨.times_row, [.obj (.viewDense .vec) .d true, .num, .obj (.view1D .mat) .d true, .obj (.viewDense .ten) .d false], .times_row, none, [0, 1, 2, 3]⟩,
  ⟨.times_row, [.obj (.viewDense .vec) .d true, .num, .obj (.view1D .ten) .d true, .obj .dense .d false], .times_row, none, [0, 1, 2, 3]⟩,
  ⟨.times_row, [.obj (.viewDense .vec) .d true, .num, .obj (.view1D .ten) .d true, .obj (.viewDense .vec) .d false], .times_row, none, [0, 1, 2, 3]⟩,
  ⟨.times_row, [.obj (.viewDense .vec) .d true, .num, .obj (.view1D .ten) .d true, .obj (.viewDense .mat) .d false], .times_row, none, [0, 1, 2, 3]⟩,
  ⟨.times_row, [.obj (.viewDense .vec) .d true, .num, .obj (.view1D .ten) .d true, .obj (.viewDense .ten) .d false], .times_row, none, [0, 1, 2, 3]⟩,
  ⟨.times_row, [.obj (.viewDense .mat) .d true, .num, .obj .vector .d true, .obj .dense .d false], .times_row, none, [0, 1, 2, 3]⟩,
  ⟨.times_row, [.obj (.viewDense .mat) .d true, .num, .obj .vector .d true, .obj (.viewDense .vec) .d false], .times_row, none, [0, 1, 2, 3]⟩,
  ⟨.times_row, [.obj (.viewDense .mat) .d true, .num, .obj .vector .d true, .obj (.viewDense .mat) .d false], .times_row, none, [0, 1, 2, 3]⟩,
  ⟨.times_row, [.obj (.viewDense .mat) .d true, .num, .obj .vector .d true, .obj (.viewDense .ten) .d false], .times_row, none, [0, 1, 2, 3]⟩,
  ⟨.times_row, [.obj (.viewDense .mat) .d true, .num, .obj (.view1D .vec) .d true, .obj .dense .d false], .times_row, none, [0, 1, 2, 3]⟩,
  ⟨.times_row, [.obj (.viewDense .mat) .d true, .num, .obj (.view1D .vec) .d true, .obj (.viewDense .vec) .d false], .times_row, none, [0, 1, 2, 3]⟩,
  ⟨.times_row, [.obj (.viewDense .mat) .d true, .num, .obj (.view1D .vec) .d true, .obj (.viewDense .mat) .d false], .times_row, none, [0, 1, 2, 3]⟩,
  ⟨.times_row, [.obj (.viewDense .mat) .d true, .num, .obj (.view1D .vec) .d true, .obj (.viewDense .ten) .d false], .times_row, none, [0, 1, 2, 3]⟩,
  ⟨.times_row, [.obj (.viewDense .mat) .d true, .num, .obj (.view1D .mat) .d true, .obj .dense .d false], .times_row, none, [0, 1, 2, 3]⟩,
  ⟨.times_row, [.obj (.viewDense .mat) .d true, .num, .obj (.view1D .mat) .d true, .obj (.viewDense .vec) .d false], .times_row, none, [0, 1, 2, 3]⟩,
  ⟨.times_row, [.obj (.viewDense .mat) .d true, .num, .obj (.view1D .mat) .d true, .obj (.viewDense .mat) .d false], .times_row, none, [0, 1, 2, 3]⟩,
  ⟨.times_row, [.obj (.viewDense .mat) .d true, .num, .obj (.view1D .mat) .d true, .obj (.viewDense .ten) .d false], .times_row, none, [0, 1, 2, 3]⟩,
  ⟨.times_row, [.obj (.viewDense .mat) .d true, .num, .obj (.view1D .ten) .d true, .obj .dense .d false], .times_row, none, [0, 1, 2, 3]⟩,
  ⟨.times_row, [.obj (.viewDense .mat) .d true, .num, .obj (.view1D .ten) .d true, .obj (.viewDense .vec) .d false], .times_row, none, [0, 1, 2, 3]⟩,
  ⟨.times_row, [.obj (.viewDense .mat) .d true, .num, .obj (.view1D .ten) .d true, .obj (.viewDense .mat) .d false], .times_row, none, [0, 1, 2, 3]⟩,
  ⟨.times_row, [.obj (.viewDense .mat) .d true, .num, .obj (.view1D .ten) .d true, .obj (.viewDense .ten) .d false], .times_row, none, [0, 1, 2, 3]⟩]

/-- src/blas/matrix/times/times.cpp:1706-2106 -/
def tMatTimes_4 : List Overload := [
  ⟨.times_row, [.obj (.viewDense .ten) .d true, .num, .obj .vector .d true, .obj .dense .d false], .times_row, none, [0, 1, 2, 3]⟩,
  ⟨.times_row, [.obj (.viewDense .ten) .d true, .num, .obj .vector .d true, .obj (.viewDense .vec) .d false], .times_row, none, [0, 1, 2, 3]⟩,
  ⟨.times_row, [.obj (.viewDense .ten) .d true, .num, .obj .vector .d true, .obj (.viewDense .mat) .d false], .times_row, none, [0, 1, 2, 3]⟩,
  ⟨.times_row, [.obj (.viewDense .ten) .d true, .num, .obj .vector .d true, .obj (.viewDense .ten) .d false], .times_row, none, [0, 1, 2, 3]⟩,
  ⟨.times_row, [.obj (.viewDense .ten) .d true, .num, .obj (.view1D .vec) .d true, .obj .dense .d false], .times_row, none, [0, 1, 2, 3]⟩,
  ⟨.times_row, [.obj (.viewDense .ten) .d true, .num, .obj (.view1D .vec) .d true, .obj (.viewDense .vec) .d false], .times_row, none, [0, 1, 2, 3]⟩,
  ⟨.times_row, [.obj (.viewDense .ten) .d true, .num, .obj (.view1D .vec) .d true, .obj (.viewDense .mat) .d false], .times_row, none, [0, 1, 2, 3]⟩,
  ⟨.times_row, [.obj (.viewDense .ten) .d true, .num, .obj (.view1D .vec) .d true, .obj (.viewDense .ten) .d false], .times_row, none, [0, 1, 2, 3]⟩,
  ⟨.times_row, [.obj (.viewDense .ten) .d true, .num, .obj (.view1D .mat) .d true, .obj .dense .d false], .times_row, none, [0, 1, 2, 3]⟩,
  ⟨.times_row, [.obj (.viewDense .ten) .d true, .num, .obj (.view1D .mat) .d true, .obj (.viewDense .vec) .d false], .times_row, none, [0, 1, 2, 3]⟩,
  ⟨.times_row, [.obj (.viewDense .ten) .d true, .num, .obj (.view1D .mat) .d true, .obj (.viewDense .mat) .d false], .times_row, none, [0, 1, 2, 3]⟩,
  ⟨.times_row, [.obj (.viewDense .ten) .d true, .num, .obj (.view1D .mat) .d true, .obj (.viewDense .ten) .d false], .times_row, none, [0, 1, 2, 3]⟩,
  ⟨.times_row, [.obj (.viewDense .ten) .d true, .num, .obj (.view1D .ten) .d true, .obj .dense .d false], .times_row, none, [0, 1, 2, 3]⟩,
  ⟨.times_row, [.obj (.viewDense .ten) .d true, .num, .obj (.view1D .ten) .d true, .obj (.viewDense .vec) .d false], .times_row, none, [0, 1, 2, 3]⟩,
  ⟨.times_row, [.obj (.viewDense .ten) .d true, .num, .obj (.view1D .ten) .d true, .obj (.viewDense .mat) .d false], .times_row, none, [0, 1, 2, 3]⟩,
  ⟨.times_row, [.obj (.viewDense .ten) .d true, .num, .obj (.view1D .ten) .d true, .obj (.viewDense .ten) .d false], .times_row, none, [0, 1, 2, 3]⟩,
  ⟨.times_row, [.obj .crs .d true, .num, .obj .vector .d true, .obj .crs .d false], .times_row, none, [0, 1, 2, 3]⟩,
  ⟨.times_row, [.obj .crs .d true, .num, .obj (.view1D .vec) .d true, .obj .crs .d false], .times_row, none, [0, 1, 2, 3]⟩,
  ⟨.times_row, [.obj .crs .d true, .num, .obj (.view1D .mat) .d true, .obj .crs .d false], .times_row, none, [0, 1, 2, 3]⟩,
  ⟨.times_row, [.obj .crs .d true, .num, .obj (.view1D .ten) .d true, .obj .crs .d false], .times_row, none, [0, 1, 2, 3]⟩,
  ⟨.times_row, [.obj .dense .s true, .num, .obj .vector .s true, .obj .dense .s false], .times_row, none, [0, 1, 2, 3]⟩,
  ⟨.times_row, [.obj .dense .s true, .num, .obj .vector .s true, .obj (.viewDense .vec) .s false], .times_row, none, [0, 1, 2, 3]⟩,
  ⟨.times_row, [.obj .dense .s true, .num, .obj .vector .s true, .obj (.viewDense .mat) .s false], .times_row, none, [0, 1, 2, 3]⟩,
  ⟨.times_row, [.obj .dense .s true, .num, .obj .vector .s true, .obj (.viewDense .ten) .s false], .times_row, none, [0, 1, 2, 3]⟩,
  ⟨.times_row, [.obj .dense .s true, .num, .obj (.view1D .vec) .s true, .obj .dense .s false], .times_row, none, [0, 1, 2, 3]⟩,
  ⟨.times_row, [.obj .dense .s true, .num, .obj (.view1D .vec) .s true, .obj (.viewDense .vec) .s false], .times_row, none, [0, 1, 2, 3]⟩,
  ⟨.times_row, [.obj .dense .s true, .num, .obj (.view1D .vec) .s true, .obj (.viewDense .mat) .s false], .times_row, none, [0, 1, 2, 3]⟩,
  ⟨.times_row, [.obj .dense .s true, .num, .obj (.view1D .vec) .s true, .obj (.viewDense .ten) .s false], .times_row, none, [0, 1, 2, 3]⟩,
  ⟨.times_row, [.obj .dense .s true, .num, .obj (.view1D .mat) .s true, .obj .dense .s false], .times_row, none, [0, 1, 2, 3]⟩,
  ⟨.times_row, [.obj .dense .s true, .num, .obj (.view1D .mat) .s true, .obj (.viewDense .vec) .s false], .times_row, none, [0, 1, 2, 3]⟩,
  ⟨.times_row, [.obj .dense .s true, .num, .obj (.view1D .mat) .s true, .obj (.viewDense .mat) .s false], .times_row, none, [0, 1, 2, 3]⟩,
  ⟨.times_row, [.obj .dense .s true, .num, .obj (.view1D .mat) .s true, .obj (.viewDense .ten) .s false], .times_row, none, [0, 1, 2, 3]⟩,
  ⟨.times_row, [.obj .dense .s true, .num, .obj (.view1D .ten) .s true, .obj .dense .s false], .times_row, none, [0, 1, 2, 3]⟩,
  ⟨.times_row, [.obj .dense .s true, .num, .obj (.view1D .ten) .s true, .obj (.viewDense .vec) .s false], .times_row, none, [0, 1, 2, 3]⟩,
  ⟨.times_row, [.obj .dense .s true, .num, .obj (.view1D .ten) .s true, .obj (.viewDense .mat) .s false], .times_row, none, [0, 1, 2, 3]⟩,
  ⟨.times_row, [.obj .dense .s true, .num, .obj (.view1D .ten) .s true, .obj (.viewDense .ten) .s false], .times_row, none, [0, 1, 2, 3]⟩,
  ⟨.times_row, [.obj (.viewDense .vec) .s true, .num, .obj .vector .s true, .obj .dense .s false], .times_row, none, [0, 1, 2, 3]⟩,
  ⟨.times_row, [.obj (.viewDense .vec) .s true, .num, .obj .vector .s true, .obj (.viewDense .vec) .s false], .times_row, none, [0, 1, 2, 3]⟩,
  ⟨.times_row, [.obj (.viewDense .vec) .s true, .num, .obj .vector .s true, .obj (.viewDense .mat) .s false], .times_row, none, [0, 1, 2, 3]⟩,
  ⟨.times_row, [.obj (.viewDense .vec) .s true, .num, .obj .vector .s true, .obj (.viewDense .ten) .s false], .times_row, none, [0, 1, 2, 3]⟩,
  ⟨.times_row, [.obj (.viewDense .vec) .s true, .num, .obj (.view1D .vec) .s true, .obj .dense .s false], .times_row, none, [0, 1, 2, 3]⟩,
  ⟨.times_row, [.obj (.viewDense .vec) .s true, .num, .obj (.view1D .vec) .s true, .obj (.viewDense .vec) .s false], .times_row, none, [0, 1, 2, 3]⟩,
  ⟨.times_row, [.obj (.viewDense .vec) .s true, .num, .obj (.view1D .vec) .s true, .obj (.viewDense .mat) .s false], .times_row, none, [0, 1, 2, 3]⟩,
  ⟨.times_row, [.obj (.viewDense .vec) .s true, .num, .obj (.view1D .vec) .s true, .obj (.viewDense .ten) .s false], .times_row, none, [0, 1, 2, 3]⟩,
  ⟨.times_row, [.obj (.viewDense .vec) .s true, .num, .obj (.view1D .mat) .s true, .obj .dense .s false], .times_row, none, [0, 1, 2, 3]⟩,
  ⟨.times_row, [.obj (.viewDense .vec) .s true, .num, .obj (.view1D .mat) .s true, .obj (.viewDense .vec) .s false], .times_row, none, [0, 1, 2, 3]⟩,
  ⟨.times_row, [.obj (.viewDense .vec) .s true, .num, .obj (.view1D .mat) .s true, .obj (.viewDense .mat) .s false], .times_row, none, [0, 1, 2, 3]⟩,
  ⟨.times_row, [.obj (.viewDense .vec) .s true, .num, .obj (.view1D .mat) .s true, .obj (.viewDense .ten) .s false], .times_row, none, [0, 1, 2, 3]⟩,
  ⟨.times_row, [.obj (.viewDense .vec) .s true, .num, .obj (.view1D .ten) .s true, .obj .dense .s false], .times_row, none, [0, 1, 2, 3]⟩,
  ⟨.times_row, [.obj (.viewDense .vec) .s true, .num, .obj (.view1D .ten) .s true, .obj (.viewDense .vec) .s false], .times_row, none, [0, 1, 2, 3]⟩,
  ⟨.times_row, [.obj (.viewDense .vec) .s true, .num, .obj (.view1D .ten) .s true, .obj (.viewDense .mat) .s false], .times_row, none, [0, 1, 2, 3]⟩,
  ⟨.times_row, [.obj (.viewDense .vec) .s true, .num, .obj (.view1D .ten) .s true, .obj (.viewDense .ten) .s false], .times_row, none, [0, 1, 2, 3]⟩,
  ⟨.times_row, [.obj (.viewDense .mat) .s true, .num, .obj .vector .s true, .obj .dense .s false], .times_row, none, [0, 1, 2, 3]⟩,
  ⟨.times_row, [.obj (.viewDense .mat) .s true, .num, .obj .vector .s true, .obj (.viewDense .vec) .s false], .times_row, none, [0, 1, 2, 3]⟩,
  ⟨.times_row, [.obj (.viewDense .mat) .s true, .num, .obj .vector .s true, .obj (.viewDense .mat) .s false], .times_row, none, [0, 1, 2, 3]⟩,
  ⟨.times_row, [.obj (.viewDense .mat) .s true, .num, .obj .vector .s true, .obj (.viewDense .ten) .s false], .times_row, none, [0, 1, 2, 3]⟩,
  ⟨.times_row, [.obj (.viewDense .mat) .s true, .num, .obj (.view1D .vec) .s true, .obj .dense .s false], .times_row, none, [0, 1, 2, 3]⟩,
  ⟨.times_row, [.obj (.viewDense .mat) .s true, .num, .obj (.view1D .vec) .s true, .obj (.viewDense .vec) .s false], .times_row, none, [0, 1, 2, 3]⟩,
  ⟨.times_row, [.obj (.viewDense .mat) .s true, .num, .obj (.view1D .vec) .s true, .obj (.viewDense .mat) .s false], .times_row, none, [0, 1, 2, 3]⟩,
  ⟨.times_row, [.obj (.viewDense .mat) .s true, .num, .obj (.view1D .vec) .s true, .obj (.viewDense .ten) .s false], .times_row, none, [0, 1, 2, 3]⟩,
  ⟨.times_row, [.obj (.viewDense .mat) .s true, .num, .obj (.view1D .mat) .s true, .obj .dense .s false], .times_row, none, [0, 1, 2, 3]⟩,
  ⟨.times_row, [.obj (.viewDense .mat) .s true, .num, .obj (.view1D .mat) .s true, .obj (.viewDense .vec) .s false], .times_row, none, [0, 1, 2, 3]⟩,
  ⟨.times_row, [.obj (.viewDense .mat) .s true, .num, .obj (.view1D .mat) .s true, .obj (.viewDense .mat) .s false], .times_row, none, [0, 1, 2, 3]⟩,
  ⟨.times_row, [.obj (.viewDense .mat) .s true, .num, .obj (.view1D .mat) .s true, .obj (.viewDense .ten) .s false], .times_row, none, [0, 1, 2, 3]⟩,
  ⟨.times_row, [.obj (.viewDense .mat) .s true, .num, .obj (.view1D .ten) .s true, .obj .dense .s false], .times_row, none, [0, 1, 2, 3]⟩,
  ⟨.times_row, [.obj (.viewDense .mat) .s true, .num, .obj (.view1D .ten) .s true, .obj (.viewDense .vec) .s false], .times_row, none, [0, 1, 2, 3]⟩,
  ⟨.times_row, [.obj (.viewDense .mat) .s true, .num, .obj (.view1D .ten) .s true, .obj (.viewDense .mat) .s false], .times_row, none, [0, 1, 2, 3]⟩,
  ⟨.times_row, [.obj (.viewDense .mat) .s true, .num, .obj (.view1D .ten) .s true, .obj (.viewDense .ten) .s false], .times_row, none, [0, 1, 2, 3]⟩,
  ⟨.times_row, [.obj (.viewDense .ten) .s true, .num, .obj .vector .s true, .obj .dense .s false], .times_row, none, [0, 1, 2, 3]⟩,
  ⟨.times_row, [.obj (.viewDense .ten) .s true, .num, .obj .vector .s true, .obj (.viewDense .vec) .s false], .times_row, none, [0, 1, 2, 3]⟩,
  ⟨.times_row, [.obj (.viewDense .ten) .s true, .num, .obj .vector .s true, .obj (.viewDense .mat) .s false], .times_row, none, [0, 1, 2, 3]⟩,
  ⟨.times_row, [.obj (.viewDense .ten) .s true, .num, .obj .vector .s true, .obj (.viewDense .ten) .s false], .times_row, none, [0, 1, 2, 3]⟩,
  ⟨.times_row, [.obj (.viewDense .ten) .s true, .num, .obj (.view1D .vec) .s true, .obj .dense .s false], .times_row, none, [0, 1, 2, 3]⟩,
  ⟨.times_row, [.obj (.viewDense .ten) .s true, .num, .obj (.view1D .vec) .s true, .obj (.viewDense .vec) .s false], .times_row, none, [0, 1, 2, 3]⟩,
  ⟨.times_row, [.obj (.viewDense .ten) .s true, .num, .obj (.view1D .vec) .s true, .obj (.viewDense .mat) .s false], .times_row, none, [0, 1, 2, 3]⟩,
  ⟨.times_row, [.obj (.viewDense .ten) .s true, .num, .obj (.view1D .vec) .s true, .obj (.viewDense .ten) .s false], .times_row, none, [0, 1, 2, 3]⟩,
  ⟨.times_row, [.obj (.viewDense .ten) .s true, .num, .obj (.view1D .mat) .s true, .obj .dense .s false], .times_row, none, [0, 1, 2, 3]⟩,
  ⟨.times_row, [.obj (.viewDense .ten) .s true, .num, .obj (.view1D .mat) .s true, .obj (.viewDense .vec) .s false], .times_row, none, [0, 1, 2, 3]⟩,
  ⟨.times_row, [.obj (.viewDense .ten) .s true, .num, .obj (.view1D .mat) .s true, .obj (.viewDense .mat) .s false], .times_row, none, [0, 1, 2, 3]⟩,
  ⟨.times_row, [.obj (.viewDense .ten) .s true, .num, .obj (.view1D .mat) .s true, .obj (.viewDense .ten) .s false], .times_row, none, [0, 1, 2, 3]⟩]

/-- src/blas/matrix/times/times.cpp:2107-2510 -/
def tMatTimes_5 : List Overload := [
  ⟨.times_row, [.obj (.viewDense .ten) .s true, .num, .obj (.view1D .ten) .s true, .obj .dense .s false], .times_row, none, [0, 1, 2, 3]⟩,
  ⟨.times_row, [.obj (.viewDense .ten) .s true, .num, .obj (.view1D .ten) .s true, .obj (.viewDense .vec) .s false], .times_row, none, [0, 1, 2, 3]⟩,
  ⟨.times_row, [.obj (.viewDense .ten) .s true, .num, .obj (.view1D .ten) .s true, .obj (.viewDense .mat) .s false], .times_row, none, [0, 1, 2, 3]⟩,
  ⟨.times_row, [.obj (.viewDense .ten) .s true, .num, .obj (.view1D .ten) .s true, .obj (.viewDense .ten) .s false], .times_row, none, [0, 1, 2, 3]⟩,
  ⟨.times_row, [.obj .crs .s true, .num, .obj .vector .s true, .obj .crs .s false], .times_row, none, [0, 1, 2, 3]⟩,
  ⟨.times_row, [.obj .crs .s true, .num, .obj (.view1D .vec) .s true, .obj .crs .s false], .times_row, none, [0, 1, 2, 3]⟩,
  ⟨.times_row, [.obj .crs .s true, .num, .obj (.view1D .mat) .s true, .obj .crs .s false], .times_row, none, [0, 1, 2, 3]⟩,
  ⟨.times_row, [.obj .crs .s true, .num, .obj (.view1D .ten) .s true, .obj .crs .s false], .times_row, none, [0, 1, 2, 3]⟩,
  ⟨.times_col, [.obj .dense .d true, .num, .obj .vector .d true, .obj .dense .d false], .times_col, none, [0, 1, 2, 3]⟩,
  ⟨.times_col, [.obj .dense .d true, .num, .obj .vector .d true, .obj (.viewDense .vec) .d false], .times_col, none, [0, 1, 2, 3]⟩,
  ⟨.times_col, [.obj .dense .d true, .num, .obj .vector .d true, .obj (.viewDense .mat) .d false], .times_col, none, [0, 1, 2, 3]⟩,
  ⟨.times_col, [.obj .dense .d true, .num, .obj .vector .d true, .obj (.viewDense .ten) .d false], .times_col, none, [0, 1, 2, 3]⟩,
  ⟨.times_col, [.obj .dense .d true, .num, .obj (.view1D .vec) .d true, .obj .dense .d false], .times_col, none, [0, 1, 2, 3]⟩,
  ⟨.times_col, [.obj .dense .d true, .num, .obj (.view1D .vec) .d true, .obj (.viewDense .vec) .d false], .times_col, none, [0, 1, 2, 3]⟩,
  ⟨.times_col, [.obj .dense .d true, .num, .obj (.view1D .vec) .d true, .obj (.viewDense .mat) .d false], .times_col, none, [0, 1, 2, 3]⟩,
  ⟨.times_col, [.obj .dense .d true, .num, .obj (.view1D .vec) .d true, .obj (.viewDense .ten) .d false], .times_col, none, [0, 1, 2, 3]⟩,
  ⟨.times_col, [.obj .dense .d true, .num, .obj (.view1D .mat) .d true, .obj .dense .d false], .times_col, none, [0, 1, 2, 3]⟩,
  ⟨.times_col, [.obj .dense .d true, .num, .obj (.view1D .mat) .d true, .obj (.viewDense .vec) .d false], .times_col, none, [0, 1, 2, 3]⟩,
  ⟨.times_col, [.obj .dense .d true, .num, .obj (.view1D .mat) .d true, .obj (.viewDense .mat) .d false], .times_col, none, [0, 1, 2, 3]⟩,
  ⟨.times_col, [.obj .dense .d true, .num, .obj (.view1D .mat) .d true, .obj (.viewDense .ten) .d false], .times_col, none, [0, 1, 2, 3]⟩,
  ⟨.times_col, [.obj .dense .d true, .num, .obj (.view1D .ten) .d true, .obj .dense .d false], .times_col, none, [0, 1, 2, 3]⟩,
  ⟨.times_col, [.obj .dense .d true, .num, .obj (.view1D .ten) .d true, .obj (.viewDense .vec) .d false], .times_col, none, [0, 1, 2, 3]⟩,
  ⟨.times_col, [.obj .dense .d true, .num, .obj (.view1D .ten) .d true, .obj (.viewDense .mat) .d false], .times_col, none, [0, 1, 2, 3]⟩,
  ⟨.times_col, [.obj .dense .d true, .num, .obj (.view1D .ten) .d true, .obj (.viewDense .ten) .d false], .times_col, none, [0, 1, 2, 3]⟩,
  ⟨.times_col, [.obj (.viewDense .vec) .d true, .num, .obj .vector .d true, .obj .dense .d false], .times_col, none, [0, 1, 2, 3]⟩,
  ⟨.times_col, [.obj (.viewDense .vec) .d true, .num, .obj .vector .d true, .obj (.viewDense .vec) .d false], .times_col, none, [0, 1, 2, 3]⟩,
  ⟨.times_col, [.obj (.viewDense .vec) .d true, .num, .obj .vector .d true, .obj (.viewDense .mat) .d false], .times_col, none, [0, 1, 2, 3]⟩,
  ⟨.times_col, [.obj (.viewDense .vec) .d true, .num, .obj .vector .d true, .obj (.viewDense .ten) .d false], .times_col, none, [0, 1, 2, 3]⟩,
  ⟨.times_col, [.obj (.viewDense .vec) .d true, .num, .obj (.view1D .vec) .d true, .obj .dense .d false], .times_col, none, [0, 1, 2, 3]⟩,
  ⟨.times_col, [.obj (.viewDense .vec) .d true, .num, .obj (.view1D .vec) .d true, .obj (.viewDense .vec) .d false], .times_col, none, [0, 1, 2, 3]⟩,
  ⟨.times_col, [.obj (.viewDense .vec) .d true, .num, .obj (.view1D .vec) .d true, .obj (.viewDense .mat) .d false], .times_col, none, [0, 1, 2, 3]⟩,
  ⟨.times_col, [.obj (.viewDense .vec) .d true, .num, .obj (.view1D .vec) .d true, .obj (.viewDense .ten) .d false], .times_col, none, [0, 1, 2, 3]⟩,
  ⟨.times_col, [.obj (.viewDense .vec) .d true, .num, .obj (.view1D .mat) .d true, .obj .dense .d false], .times_col, none, [0, 1, 2, 3]⟩,
  ⟨.times_col, [.obj (.viewDense .vec) .d true, .num, .obj (.view1D .mat) .d true, .obj (.viewDense .vec) .d false], .times_col, none, [0, 1, 2, 3]⟩,
  ⟨.times_col, [.obj (.viewDense .vec) .d true, .num, .obj (.view1D .mat) .d true, .obj (.viewDense .mat) .d false], .times_col, none, [0, 1, 2, 3]⟩,
  ⟨.times_col, [.obj (.viewDense .vec) .d true, .num, .obj (.view1D .mat) .d true, .obj (.viewDense .ten) .d false], .times_col, none, [0, 1, 2, 3]⟩,
  ⟨.times_col, [.obj (.viewDense .vec) .d true, .num, .obj (.view1D .ten) .d true, .obj .dense .d false], .times_col, none, [0, 1, 2, 3]⟩,
  ⟨.times_col, [.obj (.viewDense .vec) .d true, .num, .obj (.view1D .ten) .d true, .obj (.viewDense .vec) .d false], .times_col, none, [0, 1, 2, 3]⟩,
  ⟨.times_col, [.obj (.viewDense .vec) .d true, .num, .obj (.view1D .ten) .d true, .obj (.viewDense .mat) .d false], .times_col, none, [0, 1, 2, 3]⟩,
  ⟨.times_col, [.obj (.viewDense .vec) .d true, .num, .obj (.view1D .ten) .d true, .obj (.viewDense .ten) .d false], .times_col, none, [0, 1, 2, 3]⟩,
  ⟨.times_col, [.obj (.viewDense .mat) .d true, .num, .obj .vector .d true, .obj .dense .d false], .times_col, none, [0, 1, 2, 3]⟩,
  ⟨.times_col, [.obj (.viewDense .mat) .d true, .num, .obj .vector .d true, .obj (.viewDense .vec) .d false], .times_col, none, [0, 1, 2, 3]⟩,
  ⟨.times_col, [.obj (.viewDense .mat) .d true, .num, .obj .vector .d true, .obj (.viewDense .mat) .d false], .times_col, none, [0, 1, 2, 3]⟩,
  ⟨.times_col, [.obj (.viewDense .mat) .d true, .num, .obj .vector .d true, .obj (.viewDense .ten) .d false], .times_col, none, [0, 1, 2, 3]⟩,
  ⟨.times_col, [.obj (.viewDense .mat) .d true, .num, .obj (.view1D .vec) .d true, .obj .dense .d false], .times_col, none, [0, 1, 2, 3]⟩,
  ⟨.times_col, [.obj (.viewDense .mat) .d true, .num, .obj (.view1D .vec) .d true, .obj (.viewDense .vec) .d false], .times_col, none, [0, 1, 2, 3]⟩,
  ⟨.times_col, [.obj (.viewDense .mat) .d true, .num, .obj (.view1D .vec) .d true, .obj (.viewDense .mat) .d false], .times_col, none, [0, 1, 2, 3]⟩,
  ⟨.times_col, [.obj (.viewDense .mat) .d true, .num, .obj (.view1D .vec) .d true, .obj (.viewDense .ten) .d false], .times_col, none, [0, 1, 2, 3]⟩,
  ⟨.times_col, [.obj (.viewDense .mat) .d true, .num, .obj (.view1D .mat) .d true, .obj .dense .d false], .times_col, none, [0, 1, 2, 3]⟩,
  ⟨.times_col, [.obj (.viewDense .mat) .d true, .num, .obj (.view1D .mat) .d true, .obj (.viewDense .vec) .d false], .times_col, none, [0, 1, 2, 3]⟩,
  ⟨.times_col, [.obj (.viewDense .mat) .d true, .num, .obj (.view1D .mat) .d true, .obj (.viewDense .mat) .d false], .times_col, none, [0, 1, 2, 3]⟩,
  ⟨.times_col, [.obj (.viewDense .mat) .d true, .num, .obj (.view1D .mat) .d true, .obj (.viewDense .ten) .d false], .times_col, none, [0, 1, 2, 3]⟩,
  ⟨.times_col, [.obj (.viewDense .mat) .d true, .num, .obj (.view1D .ten) .d true, .obj .dense .d false], .times_col, none, [0, 1, 2, 3]⟩,
  ⟨.times_col, [.obj (.viewDense .mat) .d true, .num, .obj (.view1D .ten) .d true, .obj (.viewDense .vec) .d false], .times_col, none, [0, 1, 2, 3]⟩,
  ⟨.times_col, [.obj (.viewDense .mat) .d true, .num, .obj (.view1D .ten) .d true, .obj (.viewDense .mat) .d false], .times_col, none, [0, 1, 2, 3]⟩,
  ⟨.times_col, [.obj (.viewDense .mat) .d true, .num, .obj (.view1D .ten) .d true, .obj (.viewDense .ten) .d false], .times_col, none, [0, 1, 2, 3]⟩,
  ⟨.times_col, [.obj (.viewDense .ten) .d true, .num, .obj .vector .d true, .obj .dense .d false], .times_col, none, [0, 1, 2, 3]⟩,
  ⟨.times_col, [.obj (.viewDense .ten) .d true, .num, .obj .vector .d true, .obj (.viewDense .vec) .d false], .times_col, none, [0, 1, 2, 3]⟩,
  ⟨.times_col, [.obj (.viewDense .ten) .d true, .num, .obj .vector .d true, .obj (.viewDense .mat) .d false], .times_col, none, [0, 1, 2, 3]⟩,
  ⟨.times_col, [.obj (.viewDense .ten) .d true, .num, .obj .vector .d true, .obj (.viewDense .ten) .d false], .times_col, none, [0, 1, 2, 3]⟩,
  ⟨.times_col, [.obj (.viewDense .ten) .d true, .num, .obj (.view1D .vec) .d true, .obj .dense .d false], .times_col, none, [0, 1, 2, 3]⟩,
  ⟨.times_col, [.obj (.viewDense .ten) .d true, .num, .obj (.view1D .vec) .d true, .obj (.viewDense .vec) .d false], .times_col, none, [0, 1, 2, 3]⟩,
  ⟨.times_col, [.obj (.viewDense .ten) .d true, .num, .obj (.view1D .vec) .d true, .obj (.viewDense .mat) .d false], .times_col, none, [0, 1, 2, 3]⟩,
  ⟨.times_col, [.obj (.viewDense .ten) .d true, .num, .obj (.view1D .vec) .d true, .obj (.viewDense .ten) .d false], .times_col, none, [0, 1, 2, 3]⟩,
  ⟨.times_col, [.obj (.viewDense .ten) .d true, .num, .obj (.view1D .mat) .d true, .obj .dense .d false], .times_col, none, [0, 1, 2, 3]⟩,
  ⟨.times_col, [.obj (.viewDense .ten) .d true, .num, .obj (.view1D .mat) .d true, .obj (.viewDense .vec) .d false], .times_col, none, [0, 1, 2, 3]⟩,
  ⟨.times_col, [.obj (.viewDense .ten) .d true, .num, .obj (.view1D .mat) .d true, .obj (.viewDense .mat) .d false], .times_col, none, [0, 1, 2, 3]⟩,
  ⟨.times_col, [.obj (.viewDense .ten) .d true, .num, .obj (.view1D .mat) .d true, .obj (.viewDense .ten) .d false], .times_col, none, [0, 1, 2, 3]⟩,
  ⟨.times_col, [.obj (.viewDense .ten) .d true, .num, .obj (.view1D .ten) .d true, .obj .dense .d false], .times_col, none, [0, 1, 2, 3]⟩,
  ⟨.times_col, [.obj (.viewDense .ten) .d true, .num, .obj (.view1D .ten) .d true, .obj (.viewDense .vec) .d false], .times_col, none, [0, 1, 2, 3]⟩,
  ⟨.times_col, [.obj (.viewDense .ten) .d true, .num, .obj (.view1D .ten) .d true, .obj (.viewDense .mat) .d false], .times_col, none, [0, 1, 2, 3]⟩,
  ⟨.times_col, [.obj (.viewDense .ten) .d true, .num, .obj (.view1D .ten) .d true, .obj (.viewDense .ten) .d false], .times_col, none, [0, 1, 2, 3]⟩,
  ⟨.times_col, [.obj .crs .d true, .num, .obj .vector .d true, .obj .crs .d false], .times_col, none, [0, 1, 2, 3]⟩,
  ⟨.times_col, [.obj .crs .d true, .num, .obj (.view1D .vec) .d true, .obj .crs .d false], .times_col, none, [0, 1, 2, 3]⟩,
  ⟨.times_col, [.obj .crs .d true, .num, .obj (.view1D .mat) .d true, .obj .crs .d false], .times_col, none, [0, 1, 2, 3]⟩,
  ⟨.times_col, [.obj .crs .d true, .num, .obj (.view1D .ten) .d true, .obj .crs .d false], .times_col, none, [0, 1, 2, 3]⟩,
  ⟨.times_col, [.obj .dense .s true, .num, .obj .vector .s true, .obj .dense .s false], .times_col, none, [0, 1, 2, 3]⟩,
  ⟨.times_col, [.obj .dense .s true, .num, .obj .vector .s true, .obj (.viewDense .vec) .s false], .times_col, none, [0, 1, 2, 3]⟩,
  ⟨.times_col, [.obj .dense .s true, .num, .obj .vector .s true, .obj (.viewDense .mat) .s false], .times_col, none, [0, 1, 2, 3]⟩,
  ⟨.times_col, [.obj .dense .s true, .num, .obj .vector .s true, .obj (.viewDense .ten) .s false], .times_col, none, [0, 1, 2, 3]⟩]

/-- src/blas/matrix/times/times.cpp:2511-2832 -/
def tMatTimes_6 : List Overload := [
  ⟨.times_col, [.obj .dense .s true, .num, .obj (.view1D .vec) .s true, .obj .dense .s false], .times_col, none, [0, 1, 2, 3]⟩,
  ⟨.times_col, [.obj .dense .s true, .num, .obj (.view1D .vec) .s true, .obj (.viewDense .vec) .s false], .times_col, none, [0, 1, 2, 3]⟩,
  ⟨.times_col, [.obj .dense .s true, .num, .obj (.view1D .vec) .s true, .obj (.viewDense .mat) .s false], .times_col, none, [0, 1, 2, 3]⟩,
  ⟨.times_col, [.obj .dense .s true, .num, .obj (.view1D .vec) .s true, .obj (.viewDense .ten) .s false], .times_col, none, [0, 1, 2, 3]⟩,
  ⟨.times_col, [.obj .dense .s true, .num, .obj (.view1D .mat) .s true, .obj .dense .s false], .times_col, none, [0, 1, 2, 3]⟩,
  ⟨.times_col, [.obj .dense .s true, .num, .obj (.view1D .mat) .s true, .obj (.viewDense .vec) .s false], .times_col, none, [0, 1, 2, 3]⟩,
  ⟨.times_col, [.obj .dense .s true, .num, .obj (.view1D .mat) .s true, .obj (.viewDense .mat) .s false], .times_col, none, [0, 1, 2, 3]⟩,
  ⟨.times_col, [.obj .dense .s true, .num, .obj (.view1D .mat) .s true, .obj (.viewDense .ten) .s false], .times_col, none, [0, 1, 2, 3]⟩,
  ⟨.times_col, [.obj .dense .s true, .num, .obj (.view1D .ten) .s true, .obj .dense .s false], .times_col, none, [0, 1, 2, 3]⟩,
  ⟨.times_col, [.obj .dense .s true, .num, .obj (.view1D .ten) .s true, .obj (.viewDense .vec) .s false], .times_col, none, [0, 1, 2, 3]⟩,
  ⟨.times_col, [.obj .dense .s true, .num, .obj (.view1D .ten) .s true, .obj (.viewDense .mat) .s false], .times_col, none, [0, 1, 2, 3]⟩,
  ⟨.times_col, [.obj .dense .s true, .num, .obj (.view1D .ten) .s true, .obj (.viewDense .ten) .s false], .times_col, none, [0, 1, 2, 3]⟩,
  ⟨.times_col, [.obj (.viewDense .vec) .s true, .num, .obj .vector .s true, .obj .dense .s false], .times_col, none, [0, 1, 2, 3]⟩,
  ⟨.times_col, [.obj (.viewDense .vec) .s true, .num, .obj .vector .s true, .obj (.viewDense .vec) .s false], .times_col, none, [0, 1, 2, 3]⟩,
  ⟨.times_col, [.obj (.viewDense .vec) .s true, .num, .obj .vector .s true, .obj (.viewDense .mat) .s false], .times_col, none, [0, 1, 2, 3]⟩,
  ⟨.times_col, [.obj (.viewDense .vec) .s true, .num, .obj .vector .s true, .obj (.viewDense .ten) .s false], .times_col, none, [0, 1, 2, 3]⟩,
  ⟨.times_col, [.obj (.viewDense .vec) .s true, .num, .obj (.view1D .vec) .s true, .obj .dense .s false], .times_col, none, [0, 1, 2, 3]⟩,
  ⟨.times_col, [.obj (.viewDense .vec) .s true, .num, .obj (.view1D .vec) .s true, .obj (.viewDense .vec) .s false], .times_col, none, [0, 1, 2, 3]⟩,
  ⟨.times_col, [.obj (.viewDense .vec) .s true, .num, .obj (.view1D .vec) .s true, .obj (.viewDense .mat) .s false], .times_col, none, [0, 1, 2, 3]⟩,
  ⟨.times_col, [.obj (.viewDense .vec) .s true, .num, .obj (.view1D .vec) .s true, .obj (.viewDense .ten) .s false], .times_col, none, [0, 1, 2, 3]⟩,
  ⟨.times_col, [.obj (.viewDense .vec) .s true, .num, .obj (.view1D .mat) .s true, .obj .dense .s false], .times_col, none, [0, 1, 2, 3]⟩,
  ⟨.times_col, [.obj (.viewDense .vec) .s true, .num, .obj (.view1D .mat) .s true, .obj (.viewDense .vec) .s false], .times_col, none, [0, 1, 2, 3]⟩,
  ⟨.times_col, [.obj (.viewDense .vec) .s true, .num, .obj (.view1D .mat) .s true, .obj (.viewDense .mat) .s false], .times_col, none, [0, 1, 2, 3]⟩,
  ⟨.times_col, [.obj (.viewDense .vec) .s true, .num, .obj (.view1D .mat) .s true, .obj (.viewDense .ten) .s false], .times_col, none, [0, 1, 2, 3]⟩,
  ⟨.times_col, [.obj (.viewDense .vec) .s true, .num, .obj (.view1D .ten) .s true, .obj .dense .s false], .times_col, none, [0, 1, 2, 3]⟩,
  ⟨.times_col, [.obj (.viewDense .vec) .s true, .num, .obj (.view1D .ten) .s true, .obj (.viewDense .vec) .s false], .times_col, none, [0, 1, 2, 3]⟩,
  ⟨.times_col, [.obj (.viewDense .vec) .s true, .num, .obj (.view1D .ten) .s true, .obj (.viewDense .mat) .s false], .times_col, none, [0, 1, 2, 3]⟩,
  ⟨.times_col, [.obj (.viewDense .vec) .s true, .num, .obj (.view1D .ten) .s true, .obj (.viewDense .ten) .s false], .times_col, none, [0, 1, 2, 3]⟩,
  ⟨.times_col, [.obj (.viewDense .mat) .s true, .num, .obj .vector .s true, .obj .dense .s false], .times_col, none, [0, 1, 2, 3]⟩,
  ⟨.times_col, [.obj (.viewDense .mat) .s true, .num, .obj .vector .s true, .obj (.viewDense .vec) .s false], .times_col, none, [0, 1, 2, 3]⟩,
  ⟨.times_col, [.obj (.viewDense .mat) .s true, .num, .obj .vector .s true, .obj (.viewDense .mat) .s false], .times_col, none, [0, 1, 2, 3]⟩,
  ⟨.times_col, [.obj (.viewDense .mat) .s true, .num, .obj .vector .s true, .obj (.viewDense .ten) .s false], .times_col, none, [0, 1, 2, 3]⟩,
  ⟨.times_col, [.obj (.viewDense .mat) .s true, .num, .obj (.view1D .vec) .s true, .obj .dense .s false], .times_col, none, [0, 1, 2, 3]⟩,
  ⟨.times_col, [.obj (.viewDense .mat) .s true, .num, .obj (.view1D .vec) .s true, .obj (.viewDense .vec) .s false], .times_col, none, [0, 1, 2, 3]⟩,
  ⟨.times_col, [.obj (.viewDense .mat) .s true, .num, .obj (.view1D .vec) .s true, .obj (.viewDense .mat) .s false], .times_col, none, [0, 1, 2, 3]⟩,
  ⟨.times_col, [.obj (.viewDense .mat) .s true, .num, .obj (.view1D .vec) .s true, .obj (.viewDense .ten) .s false], .times_col, none, [0, 1, 2, 3]⟩,
  ⟨.times_col, [.obj (.viewDense .mat) .s true, .num, .obj (.view1D .mat) .s true, .obj .dense .s false], .times_col, none, [0, 1, 2, 3]⟩,
  ⟨.times_col, [.obj (.viewDense .mat) .s true, .num, .obj (.view1D .mat) .s true, .obj (.viewDense .vec) .s false], .times_col, none, [0, 1, 2, 3]⟩,
  ⟨.times_col, [.obj (.viewDense .mat) .s true, .num, .obj (.view1D .mat) .s true, .obj (.viewDense .mat) .s false], .times_col, none, [0, 1, 2, 3]⟩,
  ⟨.times_col, [.obj (.viewDense .mat) .s true, .num, .obj (.view1D .mat) .s true, .obj (.viewDense .ten) .s false], .times_col, none, [0, 1, 2, 3]⟩,
  ⟨.times_col, [.obj (.viewDense .mat) .s true, .num, .obj (.view1D .ten) .s true, .obj .dense .s false], .times_col, none, [0, 1, 2, 3]⟩,
  ⟨.times_col, [.obj (.viewDense .mat) .s true, .num, .obj (.view1D .ten) .s true, .obj (.viewDense .vec) .s false], .times_col, none, [0, 1, 2, 3]⟩,
  ⟨.times_col, [.obj (.viewDense .mat) .s true, .num, .obj (.view1D .ten) .s true, .obj (.viewDense .mat) .s false], .times_col, none, [0, 1, 2, 3]⟩,
  ⟨.times_col, [.obj (.viewDense .mat) .s true, .num, .obj (.view1D .ten) .s true, .obj (.viewDense .ten) .s false], .times_col, none, [0, 1, 2, 3]⟩,
  ⟨.times_col, [.obj (.viewDense .ten) .s true, .num, .obj .vector .s true, .obj .dense .s false], .times_col, none, [0, 1, 2, 3]⟩,
  ⟨.times_col, [.obj (.viewDense .ten) .s true, .num, .obj .vector .s true, .obj (.viewDense .vec) .s false], .times_col, none, [0, 1, 2, 3]⟩,
  ⟨.times_col, [.obj (.viewDense .ten) .s true, .num, .obj .vector .s true, .obj (.viewDense .mat) .s false], .times_col, none, [0, 1, 2, 3]⟩,
  ⟨.times_col, [.obj (.viewDense .ten) .s true, .num, .obj .vector .s true, .obj (.viewDense .ten) .s false], .times_col, none, [0, 1, 2, 3]⟩,
  ⟨.times_col, [.obj (.viewDense .ten) .s true, .num, .obj (.view1D .vec) .s true, .obj .dense .s false], .times_col, none, [0, 1, 2, 3]⟩,
  ⟨.times_col, [.obj (.viewDense .ten) .s true, .num, .obj (.view1D .vec) .s true, .obj (.viewDense .vec) .s false], .times_col, none, [0, 1, 2, 3]⟩,
  ⟨.times_col, [.obj (.viewDense .ten) .s true, .num, .obj (.view1D .vec) .s true, .obj (.viewDense .mat) .s false], .times_col, none, [0, 1, 2, 3]⟩,
  ⟨.times_col, [.obj (.viewDense .ten) .s true, .num, .obj (.view1D .vec) .s true, .obj (.viewDense .ten) .s false], .times_col, none, [0, 1, 2, 3]⟩,
  ⟨.times_col, [.obj (.viewDense .ten) .s true, .num, .obj (.view1D .mat) .s true, .obj .dense .s false], .times_col, none, [0, 1, 2, 3]⟩,
  ⟨.times_col, [.obj (.viewDense .ten) .s true, .num, .obj (.view1D .mat) .s true, .obj (.viewDense .vec) .s false], .times_col, none, [0, 1, 2, 3]⟩,
  ⟨.times_col, [.obj (.viewDense .ten) .s true, .num, .obj (.view1D .mat) .s true, .obj (.viewDense .mat) .s false], .times_col, none, [0, 1, 2, 3]⟩,
  ⟨.times_col, [.obj (.viewDense .ten) .s true, .num, .obj (.view1D .mat) .s true, .obj (.viewDense .ten) .s false], .times_col, none, [0, 1, 2, 3]⟩,
  ⟨.times_col, [.obj (.viewDense .ten) .s true, .num, .obj (.view1D .ten) .s true, .obj .dense .s false], .times_col, none, [0, 1, 2, 3]⟩,
  ⟨.times_col, [.obj (.viewDense .ten) .s true, .num, .obj (.view1D .ten) .s true, .obj (.viewDense .vec) .s false], .times_col, none, [0, 1, 2, 3]⟩,
  ⟨.times_col, [.obj (.viewDense .ten) .s true, .num, .obj (.view1D .ten) .s true, .obj (.viewDense .mat) .s false], .times_col, none, [0, 1, 2, 3]⟩,
  ⟨.times_col, [.obj (.viewDense .ten) .s true, .num, .obj (.view1D .ten) .s true, .obj (.viewDense .ten) .s false], .times_col, none, [0, 1, 2, 3]⟩,
  ⟨.times_col, [.obj .crs .s true, .num, .obj .vector .s true, .obj .crs .s false], .times_col, none, [0, 1, 2, 3]⟩,
  ⟨.times_col, [.obj .crs .s true, .num, .obj (.view1D .vec) .s true, .obj .crs .s false], .times_col, none, [0, 1, 2, 3]⟩,
  ⟨.times_col, [.obj .crs .s true, .num, .obj (.view1D .mat) .s true, .obj .crs .s false], .times_col, none, [0, 1, 2, 3]⟩,
  ⟨.times_col, [.obj .crs .s true, .num, .obj (.view1D .ten) .s true, .obj .crs .s false], .times_col, none, [0, 1, 2, 3]⟩]

/-- the row and column operations of src/blas/matrix/times/times.cpp (544 overloads) -/
def tMatTimes : List (List Overload) :=
  [tMatTimes_0, tMatTimes_1, tMatTimes_2, tMatTimes_3, tMatTimes_4, tMatTimes_5, tMatTimes_6]

/-- src/blas/matrix/adds/adds.cpp:147-531 -/
def tMatAdds_0 : List Overload := [
  ⟨.adds_row, [.obj .dense .d true, .obj .vector .d true, .obj .dense .d false], .adds_row, none, [0, 1, 2]⟩,
  ⟨.adds_row, [.obj .dense .d true, .obj .vector .d true, .obj (.viewDense .vec) .d false], .adds_row, none, [0, 1, 2]⟩,
  ⟨.adds_row, [.obj .dense .d true, .obj .vector .d true, .obj (.viewDense .mat) .d false], .adds_row, none, [0, 1, 2]⟩,
  ⟨.adds_row, [.obj .dense .d true, .obj .vector .d true, .obj (.viewDense .ten) .d false], .adds_row, none, [0, 1, 2]⟩,
  ⟨.adds_row, [.obj .dense .d true, .obj (.view1D .vec) .d true, .obj .dense .d false], .adds_row, none, [0, 1, 2]⟩,
  ⟨.adds_row, [.obj .dense .d true, .obj (.view1D .vec) .d true, .obj (.viewDense .vec) .d false], .adds_row, none, [0, 1, 2]⟩,
  ⟨.adds_row, [.obj .dense .d true, .obj (.view1D .vec) .d true, .obj (.viewDense .mat) .d false], .adds_row, none, [0, 1, 2]⟩,
  ⟨.adds_row, [.obj .dense .d true, .obj (.view1D .vec) .d true, .obj (.viewDense .ten) .d false], .adds_row, none, [0, 1, 2]⟩,
  ⟨.adds_row, [.obj .dense .d true, .obj (.view1D .mat) .d true, .obj .dense .d false], .adds_row, none, [0, 1, 2]⟩,
  ⟨.adds_row, [.obj .dense .d true, .obj (.view1D .mat) .d true, .obj (.viewDense .vec) .d false], .adds_row, none, [0, 1, 2]⟩,
  ⟨.adds_row, [.obj .dense .d true, .obj (.view1D .mat) .d true, .obj (.viewDense .mat) .d false], .adds_row, none, [0, 1, 2]⟩,
  ⟨.adds_row, [.obj .dense .d true, .obj (.view1D .mat) .d true, .obj (.viewDense .ten) .d false], .adds_row, none, [0, 1, 2]⟩,
  ⟨.adds_row, [.obj .dense .d true, .obj (.view1D .ten) .d true, .obj .dense .d false], .adds_row, none, [0, 1, 2]⟩,
  ⟨.adds_row, [.obj .dense .d true, .obj (.view1D .ten) .d true, .obj (.viewDense .vec) .d false], .adds_row, none, [0, 1, 2]⟩,
  ⟨.adds_row, [.obj .dense .d true, .obj (.view1D .ten) .d true, .obj (.viewDense .mat) .d false], .adds_row, none, [0, 1, 2]⟩,
  ⟨.adds_row, [.obj .dense .d true, .obj (.view1D .ten) .d true, .obj (.viewDense .ten) .d false], .adds_row, none, [0, 1, 2]⟩,
  ⟨.adds_row, [.obj (.viewDense .vec) .d true, .obj .vector .d true, .obj .dense .d false], .adds_row, none, [0, 1, 2]⟩,
  ⟨.adds_row, [.obj (.viewDense .vec) .d true, .obj .vector .d true, .obj (.viewDense .vec) .d false], .adds_row, none, [0, 1, 2]⟩,
  ⟨.adds_row, [.obj (.viewDense .vec) .d true, .obj .vector .d true, .obj (.viewDense .mat) .d false], .adds_row, none, [0, 1, 2]⟩,
  ⟨.adds_row, [.obj (.viewDense .vec) .d true, .obj .vector .d true, .obj (.viewDense .ten) .d false], .adds_row, none, [0, 1, 2]⟩,
  ⟨.adds_row, [.obj (.viewDense .vec) .d true, .obj (.view1D .vec) .d true, .obj .dense .d false], .adds_row, none, [0, 1, 2]⟩,
  ⟨.adds_row, [.obj (.viewDense .vec) .d true, .obj (.view1D .vec) .d true, .obj (.viewDense .vec) .d false], .adds_row, none, [0, 1, 2]⟩,
  ⟨.adds_row, [.obj (.viewDense .vec) .d true, .obj (.view1D .vec) .d true, .obj (.viewDense .mat) .d false], .adds_row, none, [0, 1, 2]⟩,
  ⟨.adds_row, [.obj (.viewDense .vec) .d true, .obj (.view1D .vec) .d true, .obj (.viewDense .ten) .d false], .adds_row, none, [0, 1, 2]⟩,
  ⟨.adds_row, [.obj (.viewDense .vec) .d true, .obj (.view1D .mat) .d true, .obj .dense .d false], .adds_row, none, [0, 1, 2]⟩,
  ⟨.adds_row, [.obj (.viewDense .vec) .d true, .obj (.view1D .mat) .d true, .obj (.viewDense .vec) .d false], .adds_row, none, [0, 1, 2]⟩,
  ⟨.adds_row, [.obj (.viewDense .vec) .d true, .obj (.view1D .mat) .d true, .obj (.viewDense .mat) .d false], .adds_row, none, [0, 1, 2]⟩,
  ⟨.adds_row, [.obj (.viewDense .vec) .d true, .obj (.view1D .mat) .d true, .obj (.viewDense .ten) .d false], .adds_row, none, [0, 1, 2]⟩,
  ⟨.adds_row, [.obj (.viewDense .vec) .d true, .obj (.view1D .ten) .d true, .obj .dense .d false], .adds_row, none, [0, 1, 2]⟩,
  ⟨.adds_row, [.obj (.viewDense .vec) .d true, .obj (.view1D .ten) .d true, .obj (.viewDense .vec) .d false], .adds_row, none, [0, 1, 2]⟩,
  ⟨.adds_row, [.obj (.viewDense .vec) .d true, .obj (.view1D .ten) .d true, .obj (.viewDense .mat) .d false], .adds_row, none, [0, 1, 2]⟩,
  ⟨.adds_row, [.obj (.viewDense .vec) .d true, .obj (.view1D .ten) .d true, .obj (.viewDense .ten) .d false], .adds_row, none, [0, 1, 2]⟩,
  ⟨.adds_row, [.obj (.viewDense .mat) .d true, .obj .vector .d true, .obj .dense .d false], .adds_row, none, [0, 1, 2]⟩,
  ⟨.adds_row, [.obj (.viewDense .mat) .d true, .obj .vector .d true, .obj (.viewDense .vec) .d false], .adds_row, none, [0, 1, 2]⟩,
  ⟨.adds_row, [.obj (.viewDense .mat) .d true, .obj .vector .d true, .obj (.viewDense .mat) .d false], .adds_row, none, [0, 1, 2]⟩,
  ⟨.adds_row, [.obj (.viewDense .mat) .d true, .obj .vector .d true, .obj (.viewDense .ten) .d false], .adds_row, none, [0, 1, 2]⟩,
  ⟨.adds_row, [.obj (.viewDense .mat) .d true, .obj (.view1D .vec) .d true, .obj .dense .d false], .adds_row, none, [0, 1, 2]⟩,
  ⟨.adds_row, [.obj (.viewDense .mat) .d true, .obj (.view1D .vec) .d true, .obj (.viewDense .vec) .d false], .adds_row, none, [0, 1, 2]⟩,
  ⟨.adds_row, [.obj (.viewDense .mat) .d true, .obj (.view1D .vec) .d true, .obj (.viewDense .mat) .d false], .adds_row, none, [0, 1, 2]⟩,
  ⟨.adds_row, [.obj (.viewDense .mat) .d true, .obj (.view1D .vec) .d true, .obj (.viewDense .ten) .d false], .adds_row, none, [0, 1, 2]⟩,
  ⟨.adds_row, [.obj (.viewDense .mat) .d true, .obj (.view1D .mat) .d true, .obj .dense .d false], .adds_row, none, [0, 1, 2]⟩,
  ⟨.adds_row, [.obj (.viewDense .mat) .d true, .obj (.view1D .mat) .d true, .obj (.viewDense .vec) .d false], .adds_row, none, [0, 1, 2]⟩,
  ⟨.adds_row, [.obj (.viewDense .mat) .d true, .obj (.view1D .mat) .d true, .obj (.viewDense .mat) .d false], .adds_row, none, [0, 1, 2]⟩,
  ⟨.adds_row, [.obj (.viewDense .mat) .d true, .obj (.view1D .mat) .d true, .obj (.viewDense .ten) .d false], .adds_row, none, [0, 1, 2]⟩,
  ⟨.adds_row, [.obj (.viewDense .mat) .d true, .obj (.view1D .ten) .d true, .obj .dense .d false], .adds_row, none, [0, 1, 2]⟩,
  ⟨.adds_row, [.obj (.viewDense .mat) .d true, .obj (.view1D .ten) .d true, .obj (.viewDense .vec) .d false], .adds_row, none, [0, 1, 2]⟩,
  ⟨.adds_row, [.obj (.viewDense .mat) .d true, .obj (.view1D .ten) .d true, .obj (.viewDense .mat) .d false], .adds_row, none, [0, 1, 2]⟩,
  ⟨.adds_row, [.obj (.viewDense .mat) .d true, .obj (.view1D .ten) .d true, .obj (.viewDense .ten) .d false], .adds_row, none, [0, 1, 2]⟩,
  ⟨.adds_row, [.obj (.viewDense .ten) .d true, .obj .vector .d true, .obj .dense .d false], .adds_row, none, [0, 1, 2]⟩,
  ⟨.adds_row, [.obj (.viewDense .ten) .d true, .obj .vector .d true, .obj (.viewDense .vec) .d false], .adds_row, none, [0, 1, 2]⟩,
  ⟨.adds_row, [.obj (.viewDense .ten) .d true, .obj .vector .d true, .obj (.viewDense .mat) .d false], .adds_row, none, [0, 1, 2]⟩,
  ⟨.adds_row, [.obj (.viewDense .ten) .d true, .obj .vector .d true, .obj (.viewDense .ten) .d false], .adds_row, none, [0, 1, 2]⟩,
  ⟨.adds_row, [.obj (.viewDense .ten) .d true, .obj (.view1D .vec) .d true, .obj .dense .d false], .adds_row, none, [0, 1, 2]⟩,
  ⟨.adds_row, [.obj (.viewDense .ten) .d true, .obj (.view1D .vec) .d true, .obj (.viewDense .vec) .d false], .adds_row, none, [0, 1, 2]⟩,
  ⟨.adds_row, [.obj (.viewDense .ten) .d true, .obj (.view1D .vec) .d true, .obj (.viewDense .mat) .d false], .adds_row, none, [0, 1, 2]⟩,
  ⟨.adds_row, [.obj (.viewDense .ten) .d true, .obj (.view1D .vec) .d true, .obj (.viewDense .ten) .d false], .adds_row, none, [0, 1, 2]⟩,
  ⟨.adds_row, [.obj (.viewDense .ten) .d true, .obj (.view1D .mat) .d true, .obj .dense .d false], .adds_row, none, [0, 1, 2]⟩,
  ⟨.adds_row, [.obj (.viewDense .ten) .d true, .obj (.view1D .mat) .d true, .obj (.viewDense .vec) .d false], .adds_row, none, [0, 1, 2]⟩,
  ⟨.adds_row, [.obj (.viewDense .ten) .d true, .obj (.view1D .mat) .d true, .obj (.viewDense .mat) .d false], .adds_row, none, [0, 1, 2]⟩,
  ⟨.adds_row, [.obj (.viewDense .ten) .d true, .obj (.view1D .mat) .d true, .obj (.viewDense .ten) .d false], .adds_row, none, [0, 1, 2]⟩,
  ⟨.adds_row, [.obj (.viewDense .ten) .d true, .obj (.view1D .ten) .d true, .obj .dense .d false], .adds_row, none, [0, 1, 2]⟩,
  ⟨.adds_row, [.obj (.viewDense .ten) .d true, .obj (.view1D .ten) .d true, .obj (.viewDense .vec) .d false], .adds_row, none, [0, 1, 2]⟩,
  ⟨.adds_row, [.obj (.viewDense .ten) .d true, .obj (.view1D .ten) .d true, .obj (.viewDense .mat) .d false], .adds_row, none, [0, 1, 2]⟩,
  ⟨.adds_row, [.obj (.viewDense .ten) .d true, .obj (.view1D .ten) .d true, .obj (.viewDense .ten) .d false], .adds_row, none, [0, 1, 2]⟩,
  ⟨.adds_row, [.obj .dense .s true, .obj .vector .s true, .obj .dense .s false], .adds_row, none, [0, 1, 2]⟩,
  ⟨.adds_row, [.obj .dense .s true, .obj .vector .s true, .obj (.viewDense .vec) .s false], .adds_row, none, [0, 1, 2]⟩,
  ⟨.adds_row, [.obj .dense .s true, .obj .vector .s true, .obj (.viewDense .mat) .s false], .adds_row, none, [0, 1, 2]⟩,
  ⟨.adds_row, [.obj .dense .s true, .obj .vector .s true, .obj (.viewDense .ten) .s false], .adds_row, none, [0, 1, 2]⟩,
  ⟨.adds_row, [.obj .dense .s true, .obj (.view1D .vec) .s true, .obj .dense .s false], .adds_row, none, [0, 1, 2]⟩,
  ⟨.adds_row, [.obj .dense .s true, .obj (.view1D .vec) .s true, .obj (.viewDense .vec) .s false], .adds_row, none, [0, 1, 2]⟩,
  ⟨.adds_row, [.obj .dense .s true, .obj (.view1D .vec) .s true, .obj (.viewDense .mat) .s false], .adds_row, none, [0, 1, 2]⟩,
  ⟨.adds_row, [.obj .dense .s true, .obj (.view1D .vec) .s true, .obj (.viewDense .ten) .s false], .adds_row, none, [0, 1, 2]⟩,
  ⟨.adds_row, [.obj .dense .s true, .obj (.view1D .mat) .s true, .obj .dense .s false], .adds_row, none, [0, 1, 2]⟩,
  ⟨.adds_row, [.obj .dense .s true, .obj (.view1D .mat) .s true, .obj (.viewDense .vec) .s false], .adds_row, none, [0, 1, 2]⟩,
  ⟨.adds_row, [.obj .dense .s true, .obj (.view1D .mat) .s true, .obj (.viewDense .mat) .s false], .adds_row, none, [0, 1, 2]⟩,
  ⟨.adds_row, [.obj .dense .s true, .obj (.view1D .mat) .s true, .obj (.viewDense .ten) .s false], .adds_row, none, [0, 1, 2]⟩,
  ⟨.adds_row, [.obj .dense .s true, .obj (.view1D .ten) .s true, .obj .dense .s false], .adds_row, none, [0, 1, 2]⟩,
  ⟨.adds_row, [.obj .dense .s true, .obj (.view1D .ten) .s true, .obj (.viewDense .vec) .s false], .adds_row, none, [0, 1, 2]⟩,
  ⟨.adds_row, [.obj .dense .s true, .obj (.view1D .ten) .s true, .obj (.viewDense .mat) .s false], .adds_row, none, [0, 1, 2]⟩,
  ⟨.adds_row, [.obj .dense .s true, .obj (.view1D .ten) .s true, .obj (.viewDense .ten) .s false], .adds_row, none, [0, 1, 2]⟩]

/-- src/blas/matrix/adds/adds.cpp:532-914 -/
def tMatAdds_1 : List Overload := [
  ⟨.adds_row, [.obj (.viewDense .vec) .s true, .obj .vector .s true, .obj .dense .s false], .adds_row, none, [0, 1, 2]⟩,
  ⟨.adds_row, [.obj (.viewDense .vec) .s true, .obj .vector .s true, .obj (.viewDense .vec) .s false], .adds_row, none, [0, 1, 2]⟩,
  ⟨.adds_row, [.obj (.viewDense .vec) .s true, .obj .vector .s true, .obj (.viewDense .mat) .s false], .adds_row, none, [0, 1, 2]⟩,
  ⟨.adds_row, [.obj (.viewDense .vec) .s true, .obj .vector .s true, .obj (.viewDense .ten) .s false], .adds_row, none, [0, 1, 2]⟩,
  ⟨.adds_row, [.obj (.viewDense .vec) .s true, .obj (.view1D .vec) .s true, .obj .dense .s false], .adds_row, none, [0, 1, 2]⟩,
  ⟨.adds_row, [.obj (.viewDense .vec) .s true, .obj (.view1D .vec) .s true, .obj (.viewDense .vec) .s false], .adds_row, none, [0, 1, 2]⟩,
  ⟨.adds_row, [.obj (.viewDense .vec) .s true, .obj (.view1D .vec) .s true, .obj (.viewDense .mat) .s false], .adds_row, none, [0, 1, 2]⟩,
  ⟨.adds_row, [.obj (.viewDense .vec) .s true, .obj (.view1D .vec) .s true, .obj (.viewDense .ten) .s false], .adds_row, none, [0, 1, 2]⟩,
  ⟨.adds_row, [.obj (.viewDense .vec) .s true, .obj (.view1D .mat) .s true, .obj .dense .s false], .adds_row, none, [0, 1, 2]⟩,
  ⟨.adds_row, [.obj (.viewDense .vec) .s true, .obj (.view1D .mat) .s true, .obj (.viewDense .vec) .s false], .adds_row, none, [0, 1, 2]⟩,
  ⟨.adds_row, [.obj (.viewDense .vec) .s true, .obj (.view1D .mat) .s true, .obj (.viewDense .mat) .s false], .adds_row, none, [0, 1, 2]⟩,
  ⟨.adds_row, [.obj (.viewDense .vec) .s true, .obj (.view1D .mat) .s true, .obj (.viewDense .ten) .s false], .adds_row, none, [0, 1, 2]⟩,
  ⟨.adds_row, [.obj (.viewDense .vec) .s true, .obj (.view1D .ten) .s true, .obj .dense .s false], .adds_row, none, [0, 1, 2]⟩,
  ⟨.adds_row, [.obj (.viewDense .vec) .s true, .obj (.view1D .ten) .s true, .obj (.viewDense .vec) .s false], .adds_row, none, [0, 1, 2]⟩,
  ⟨.adds_row, [.obj (.viewDense .vec) .s true, .obj (.view1D .ten) .s true, .obj (.viewDense .mat) .s false], .adds_row, none, [0, 1, 2]⟩,
  ⟨.adds_row, [.obj (.viewDense .vec) .s true, .obj (.view1D .ten) .s true, .obj (.viewDense .ten) .s false], .adds_row, none, [0, 1, 2]⟩,
  ⟨.adds_row, [.obj (.viewDense .mat) .s true, .obj .vector .s true, .obj .dense .s false], .adds_row, none, [0, 1, 2]⟩,
  ⟨.adds_row, [.obj (.viewDense .mat) .s true, .obj .vector .s true, .obj (.viewDense .vec) .s false], .adds_row, none, [0, 1, 2]⟩,
  ⟨.adds_row, [.obj (.viewDense .mat) .s true, .obj .vector .s true, .obj (.viewDense .mat) .s false], .adds_row, none, [0, 1, 2]⟩,
  ⟨.adds_row, [.obj (.viewDense .mat) .s true, .obj .vector .s true, .obj (.viewDense .ten) .s false], .adds_row, none, [0, 1, 2]⟩,
  ⟨.adds_row, [.obj (.viewDense .mat) .s true, .obj (.view1D .vec) .s true, .obj .dense .s false], .adds_row, none, [0, 1, 2]⟩,
  ⟨.adds_row, [.obj (.viewDense .mat) .s true, .obj (.view1D .vec) .s true, .obj (.viewDense .vec) .s false], .adds_row, none, [0, 1, 2]⟩,
  ⟨.adds_row, [.obj (.viewDense .mat) .s true, .obj (.view1D .vec) .s true, .obj (.viewDense .mat) .s false], .adds_row, none, [0, 1, 2]⟩,
  ⟨.adds_row, [.obj (.viewDense .mat) .s true, .obj (.view1D .vec) .s true, .obj (.viewDense .ten) .s false], .adds_row, none, [0, 1, 2]⟩,
  ⟨.adds_row, [.obj (.viewDense .mat) .s true, .obj (.view1D .mat) .s true, .obj .dense .s false], .adds_row, none, [0, 1, 2]⟩,
  ⟨.adds_row, [.obj (.viewDense .mat) .s true, .obj (.view1D .mat) .s true, .obj (.viewDense .vec) .s false], .adds_row, none, [0, 1, 2]⟩,
  ⟨.adds_row, [.obj (.viewDense .mat) .s true, .obj (.view1D .mat) .s true, .obj (.viewDense .mat) .s false], .adds_row, none, [0, 1, 2]⟩,
  ⟨.adds_row, [.obj (.viewDense .mat) .s true, .obj (.view1D .mat) .s true, .obj (.viewDense .ten) .s false], .adds_row, none, [0, 1, 2]⟩,
  ⟨.adds_row, [.obj (.viewDense .mat) .s true, .obj (.view1D .ten) .s true, .obj .dense .s false], .adds_row, none, [0, 1, 2]⟩,
  ⟨.adds_row, [.obj (.viewDense .mat) .s true, .obj (.view1D .ten) .s true, .obj (.viewDense .vec) .s false], .adds_row, none, [0, 1, 2]⟩,
  ⟨.adds_row, [.obj (.viewDense .mat) .s true, .obj (.view1D .ten) .s true, .obj (.viewDense .mat) .s false], .adds_row, none, [0, 1, 2]⟩,
  ⟨.adds_row, [.obj (.viewDense .mat) .s true, .obj (.view1D .ten) .s true, .obj (.viewDense .ten) .s false], .adds_row, none, [0, 1, 2]⟩,
  ⟨.adds_row, [.obj (.viewDense .ten) .s true, .obj .vector .s true, .obj .dense .s false], .adds_row, none, [0, 1, 2]⟩,
  ⟨.adds_row, [.obj (.viewDense .ten) .s true, .obj .vector .s true, .obj (.viewDense .vec) .s false], .adds_row, none, [0, 1, 2]⟩,
  ⟨.adds_row, [.obj (.viewDense .ten) .s true, .obj .vector .s true, .obj (.viewDense .mat) .s false], .adds_row, none, [0, 1, 2]⟩,
  ⟨.adds_row, [.obj (.viewDense .ten) .s true, .obj .vector .s true, .obj (.viewDense .ten) .s false], .adds_row, none, [0, 1, 2]⟩,
  ⟨.adds_row, [.obj (.viewDense .ten) .s true, .obj (.view1D .vec) .s true, .obj .dense .s false], .adds_row, none, [0, 1, 2]⟩,
  ⟨.adds_row, [.obj (.viewDense .ten) .s true, .obj (.view1D .vec) .s true, .obj (.viewDense .vec) .s false], .adds_row, none, [0, 1, 2]⟩,
  ⟨.adds_row, [.obj (.viewDense .ten) .s true, .obj (.view1D .vec) .s true, .obj (.viewDense .mat) .s false], .adds_row, none, [0, 1, 2]⟩,
  ⟨.adds_row, [.obj (.viewDense .ten) .s true, .obj (.view1D .vec) .s true, .obj (.viewDense .ten) .s false], .adds_row, none, [0, 1, 2]⟩,
  ⟨.adds_row, [.obj (.viewDense .ten) .s true, .obj (.view1D .mat) .s true, .obj .dense .s false], .adds_row, none, [0, 1, 2]⟩,
  ⟨.adds_row, [.obj (.viewDense .ten) .s true, .obj (.view1D .mat) .s true, .obj (.viewDense .vec) .s false], .adds_row, none, [0, 1, 2]⟩,
  ⟨.adds_row, [.obj (.viewDense .ten) .s true, .obj (.view1D .mat) .s true, .obj (.viewDense .mat) .s false], .adds_row, none, [0, 1, 2]⟩,
  ⟨.adds_row, [.obj (.viewDense .ten) .s true, .obj (.view1D .mat) .s true, .obj (.viewDense .ten) .s false], .adds_row, none, [0, 1, 2]⟩,
  ⟨.adds_row, [.obj (.viewDense .ten) .s true, .obj (.view1D .ten) .s true, .obj .dense .s false], .adds_row, none, [0, 1, 2]⟩,
  ⟨.adds_row, [.obj (.viewDense .ten) .s true, .obj (.view1D .ten) .s true, .obj (.viewDense .vec) .s false], .adds_row, none, [0, 1, 2]⟩,
  ⟨.adds_row, [.obj (.viewDense .ten) .s true, .obj (.view1D .ten) .s true, .obj (.viewDense .mat) .s false], .adds_row, none, [0, 1, 2]⟩,
  ⟨.adds_row, [.obj (.viewDense .ten) .s true, .obj (.view1D .ten) .s true, .obj (.viewDense .ten) .s false], .adds_row, none, [0, 1, 2]⟩,
  ⟨.adds_col, [.obj .dense .d true, .obj .vector .d true, .obj .dense .d false], .adds_col, none, [0, 1, 2]⟩,
  ⟨.adds_col, [.obj .dense .d true, .obj .vector .d true, .obj (.viewDense .vec) .d false], .adds_col, none, [0, 1, 2]⟩,
  ⟨.adds_col, [.obj .dense .d true, .obj .vector .d true, .obj (.viewDense .mat) .d false], .adds_col, none, [0, 1, 2]⟩,
  ⟨.adds_col, [.obj .dense .d true, .obj .vector .d true, .obj (.viewDense .ten) .d false], .adds_col, none, [0, 1, 2]⟩,
  ⟨.adds_col, [.obj .dense .d true, .obj (.view1D .vec) .d true, .obj .dense .d false], .adds_col, none, [0, 1, 2]⟩,
  ⟨.adds_col, [.obj .dense .d true, .obj (.view1D .vec) .d true, .obj (.viewDense .vec) .d false], .adds_col, none, [0, 1, 2]⟩,
  ⟨.adds_col, [.obj .dense .d true, .obj (.view1D .vec) .d true, .obj (.viewDense .mat) .d false], .adds_col, none, [0, 1, 2]⟩,
  ⟨.adds_col, [.obj .dense .d true, .obj (.view1D .vec) .d true, .obj (.viewDense .ten) .d false], .adds_col, none, [0, 1, 2]⟩,
  ⟨.adds_col, [.obj .dense .d true, .obj (.view1D .mat) .d true, .obj .dense .d false], .adds_col, none, [0, 1, 2]⟩,
  ⟨.adds_col, [.obj .dense .d true, .obj (.view1D .mat) .d true, .obj (.viewDense .vec) .d false], .adds_col, none, [0, 1, 2]⟩,
  ⟨.adds_col, [.obj .dense .d true, .obj (.view1D .mat) .d true, .obj (.viewDense .mat) .d false], .adds_col, none, [0, 1, 2]⟩,
  ⟨.adds_col, [.obj .dense .d true, .obj (.view1D .mat) .d true, .obj (.viewDense .ten) .d false], .adds_col, none, [0, 1, 2]⟩,
  ⟨.adds_col, [.obj .dense .d true, .obj (.view1D .ten) .d true, .obj .dense .d false], .adds_col, none, [0, 1, 2]⟩,
  ⟨.adds_col, [.obj .dense .d true, .obj (.view1D .ten) .d true, .obj (.viewDense .vec) .d false], .adds_col, none, [0, 1, 2]⟩,
  ⟨.adds_col, [.obj .dense .d true, .obj (.view1D .ten) .d true, .obj (.viewDense .mat) .d false], .adds_col, none, [0, 1, 2]⟩,
  ⟨.adds_col, [.obj .dense .d true, .obj (.view1D .ten) .d true, .obj (.viewDense .ten) .d false], .adds_col, none, [0, 1, 2]⟩,
  ⟨.adds_col, [.obj (.viewDense .vec) .d true, .obj .vector .d true, .obj .dense .d false], .adds_col, none, [0, 1, 2]⟩,
  ⟨.adds_col, [.obj (.viewDense .vec) .d true, .obj .vector .d true, .obj (.viewDense .vec) .d false], .adds_col, none, [0, 1, 2]⟩,
  ⟨.adds_col, [.obj (.viewDense .vec) .d true, .obj .vector .d true, .obj (.viewDense .mat) .d false], .adds_col, none, [0, 1, 2]⟩,
  ⟨.adds_col, [.obj (.viewDense .vec) .d true, .obj .vector .d true, .obj (.viewDense .ten) .d false], .adds_col, none, [0, 1, 2]⟩,
  ⟨.adds_col, [.obj (.viewDense .vec) .d true, .obj (.view1D .vec) .d true, .obj .dense .d false], .adds_col, none, [0, 1, 2]⟩,
  ⟨.adds_col, [.obj (.viewDense .vec) .d true, .obj (.view1D .vec) .d true, .obj (.viewDense .vec) .d false], .adds_col, none, [0, 1, 2]⟩,
  ⟨.adds_col, [.obj (.viewDense .vec) .d true, .obj (.view1D .vec) .d true, .obj (.viewDense .mat) .d false], .adds_col, none, [0, 1, 2]⟩,
  ⟨.adds_col, [.obj (.viewDense .vec) .d true, .obj (.view1D .vec) .d true, .obj (.viewDense .ten) .d false], .adds_col, none, [0, 1, 2]⟩,
  ⟨.adds_col, [.obj (.viewDense .vec) .d true, .obj (.view1D .mat) .d true, .obj .dense .d false], .adds_col, none, [0, 1, 2]⟩,
  ⟨.adds_col, [.obj (.viewDense .vec) .d true, .obj (.view1D .mat) .d true, .obj (.viewDense .vec) .d false], .adds_col, none, [0, 1, 2]⟩,
  ⟨.adds_col, [.obj (.viewDense .vec) .d true, .obj (.view1D .mat) .d true, .obj (.viewDense .mat) .d false], .adds_col, none, [0, 1, 2]⟩,
  ⟨.adds_col, [.obj (.viewDense .vec) .d true, .obj (.view1D .mat) .d true, .obj (.viewDense .ten) .d false], .adds_col, none, [0, 1, 2]⟩,
  ⟨.adds_col, [.obj (.viewDense .vec) .d true, .obj (.view1D .ten) .d true, .obj .dense .d false], .adds_col, none, [0, 1, 2]⟩,
  ⟨.adds_col, [.obj (.viewDense .vec) .d true, .obj (.view1D .ten) .d true, .obj (.viewDense .vec) .d false], .adds_col, none, [0, 1, 2]⟩,
  ⟨.adds_col, [.obj (.viewDense .vec) .d true, .obj (.view1D .ten) .d true, .obj (.viewDense .mat) .d false], .adds_col, none, [0, 1, 2]⟩,
  ⟨.adds_col, [.obj (.viewDense .vec) .d true, .obj (.view1D .ten) .d true, .obj (.viewDense .ten) .d false], .adds_col, none, [0, 1, 2]⟩]

/-- src/blas/matrix/adds/adds.cpp:915-1297 -/
def tMatAdds_2 : List Overload := [
  ⟨.adds_col, [.obj (.viewDense .mat) .d true, .obj .vector .d true, .obj .dense .d false], .adds_col, none, [0, 1, 2]⟩,
  ⟨.adds_col, [.obj (.viewDense .mat) .d true, .obj .vector .d true, .obj (.viewDense .vec) .d false], .adds_col, none, [0, 1, 2]⟩,
  ⟨.adds_col, [.obj (.viewDense .mat) .d true, .obj .vector .d true, .obj (.viewDense .mat) .d false], .adds_col, none, [0, 1, 2]⟩,
  ⟨.adds_col, [.obj (.viewDense .mat) .d true, .obj .vector .d true, .obj (.viewDense .ten) .d false], .adds_col, none, [0, 1, 2]⟩,
  ⟨.adds_col, [.obj (.viewDense .mat) .d true, .obj (.view1D .vec) .d true, .obj .dense .d false], .adds_col, none, [0, 1, 2]⟩,
  ⟨.adds_col, [.obj (.viewDense .mat) .d true, .obj (.view1D .vec) .d true, .obj (.viewDense .vec) .d false], .adds_col, none, [0, 1, 2]⟩,
  ⟨.adds_col, [.obj (.viewDense .mat) .d true, .obj (.view1D .vec) .d true, .obj (.viewDense .mat) .d false], .adds_col, none, [0, 1, 2]⟩,
  ⟨.adds_col, [.obj (.viewDense .mat) .d true, .obj (.view1D .vec) .d true, .obj (.viewDense .ten) .d false], .adds_col, none, [0, 1, 2]⟩,
  ⟨.adds_col, [.obj (.viewDense .mat) .d true, .obj (.view1D .mat) .d true, .obj .dense .d false], .adds_col, none, [0, 1, 2]⟩,
  ⟨.adds_col, [.obj (.viewDense .mat) .d true, .obj (.view1D .mat) .d true, .obj (.viewDense .vec) .d false], .adds_col, none, [0, 1, 2]⟩,
  ⟨.adds_col, [.obj (.viewDense .mat) .d true, .obj (.view1D .mat) .d true, .obj (.viewDense .mat) .d false], .adds_col, none, [0, 1, 2]⟩,
  ⟨.adds_col, [.obj (.viewDense .mat) .d true, .obj (.view1D .mat) .d true, .obj (.viewDense .ten) .d false], .adds_col, none, [0, 1, 2]⟩,
  ⟨.adds_col, [.obj (.viewDense .mat) .d true, .obj (.view1D .ten) .d true, .obj .dense .d false], .adds_col, none, [0, 1, 2]⟩,
  ⟨.adds_col, [.obj (.viewDense .mat) .d true, .obj (.view1D .ten) .d true, .obj (.viewDense .vec) .d false], .adds_col, none, [0, 1, 2]⟩,
  ⟨.adds_col, [.obj (.viewDense .mat) .d true, .obj (.view1D .ten) .d true, .obj (.viewDense .mat) .d false], .adds_col, none, [0, 1, 2]⟩,
  ⟨.adds_col, [.obj (.viewDense .mat) .d true, .obj (.view1D .ten) .d true, .obj (.viewDense .ten) .d false], .adds_col, none, [0, 1, 2]⟩,
  ⟨.adds_col, [.obj (.viewDense .ten) .d true, .obj .vector .d true, .obj .dense .d false], .adds_col, none, [0, 1, 2]⟩,
  ⟨.adds_col, [.obj (.viewDense .ten) .d true, .obj .vector .d true, .obj (.viewDense .vec) .d false], .adds_col, none, [0, 1, 2]⟩,
  ⟨.adds_col, [.obj (.viewDense .ten) .d true, .obj .vector .d true, .obj (.viewDense .mat) .d false], .adds_col, none, [0, 1, 2]⟩,
  ⟨.adds_col, [.obj (.viewDense .ten) .d true, .obj .vector .d true, .obj (.viewDense .ten) .d false], .adds_col, none, [0, 1, 2]⟩,
  ⟨.adds_col, [.obj (.viewDense .ten) .d true, .obj (.view1D .vec) .d true, .obj .dense .d false], .adds_col, none, [0, 1, 2]⟩,
  ⟨.adds_col, [.obj (.viewDense .ten) .d true, .obj (.view1D .vec) .d true, .obj (.viewDense .vec) .d false], .adds_col, none, [0, 1, 2]⟩,
  ⟨.adds_col, [.obj (.viewDense .ten) .d true, .obj (.view1D .vec) .d true, .obj (.viewDense .mat) .d false], .adds_col, none, [0, 1, 2]⟩,
  ⟨.adds_col, [.obj (.viewDense .ten) .d true, .obj (.view1D .vec) .d true, .obj (.viewDense .ten) .d false], .adds_col, none, [0, 1, 2]⟩,
  ⟨.adds_col, [.obj (.viewDense .ten) .d true, .obj (.view1D .mat) .d true, .obj .dense .d false], .adds_col, none, [0, 1, 2]⟩,
  ⟨.adds_col, [.obj (.viewDense .ten) .d true, .obj (.view1D .mat) .d true, .obj (.viewDense .vec) .d false], .adds_col, none, [0, 1, 2]⟩,
  ⟨.adds_col, [.obj (.viewDense .ten) .d true, .obj (.view1D .mat) .d true, .obj (.viewDense .mat) .d false], .adds_col, none, [0, 1, 2]⟩,
  ⟨.adds_col, [.obj (.viewDense .ten) .d true, .obj (.view1D .mat) .d true, .obj (.viewDense .ten) .d false], .adds_col, none, [0, 1, 2]⟩,
  ⟨.adds_col, [.obj (.viewDense .ten) .d true, .obj (.view1D .ten) .d true, .obj .dense .d false], .adds_col, none, [0, 1, 2]⟩,
  ⟨.adds_col, [.obj (.viewDense .ten) .d true, .obj (.view1D .ten) .d true, .obj (.viewDense .vec) .d false], .adds_col, none, [0, 1, 2]⟩,
  ⟨.adds_col, [.obj (.viewDense .ten) .d true, .obj (.view1D .ten) .d true, .obj (.viewDense .mat) .d false], .adds_col, none, [0, 1, 2]⟩,
  ⟨.adds_col, [.obj (.viewDense .ten) .d true, .obj (.view1D .ten) .d true, .obj (.viewDense .ten) .d false], .adds_col, none, [0, 1, 2]⟩,
  ⟨.adds_col, [.obj .dense .s true, .obj .vector .s true, .obj .dense .s false], .adds_col, none, [0, 1, 2]⟩,
  ⟨.adds_col, [.obj .dense .s true, .obj .vector .s true, .obj (.viewDense .vec) .s false], .adds_col, none, [0, 1, 2]⟩,
  ⟨.adds_col, [.obj .dense .s true, .obj .vector .s true, .obj (.viewDense .mat) .s false], .adds_col, none, [0, 1, 2]⟩,
  ⟨.adds_col, [.obj .dense .s true, .obj .vector .s true, .obj (.viewDense .ten) .s false], .adds_col, none, [0, 1, 2]⟩,
  ⟨.adds_col, [.obj .dense .s true, .obj (.view1D .vec) .s true, .obj .dense .s false], .adds_col, none, [0, 1, 2]⟩,
  ⟨.adds_col, [.obj .dense .s true, .obj (.view1D .vec) .s true, .obj (.viewDense .vec) .s false], .adds_col, none, [0, 1, 2]⟩,
  ⟨.adds_col, [.obj .dense .s true, .obj (.view1D .vec) .s true, .obj (.viewDense .mat) .s false], .adds_col, none, [0, 1, 2]⟩,
  ⟨.adds_col, [.obj .dense .s true, .obj (.view1D .vec) .s true, .obj (.viewDense .ten) .s false], .adds_col, none, [0, 1, 2]⟩,
  ⟨.adds_col, [.obj .dense .s true, .obj (.view1D .mat) .s true, .obj .dense .s false], .adds_col, none, [0, 1, 2]⟩,
  ⟨.adds_col, [.obj .dense .s true, .obj (.view1D .mat) .s true, .obj (.viewDense .vec) .s false], .adds_col, none, [0, 1, 2]⟩,
  ⟨.adds_col, [.obj .dense .s true, .obj (.view1D .mat) .s true, .obj (.viewDense .mat) .s false], .adds_col, none, [0, 1, 2]⟩,
  ⟨.adds_col, [.obj .dense .s true, .obj (.view1D .mat) .s true, .obj (.viewDense .ten) .s false], .adds_col, none, [0, 1, 2]⟩,
  ⟨.adds_col, [.obj .dense .s true, .obj (.view1D .ten) .s true, .obj .dense .s false], .adds_col, none, [0, 1, 2]⟩,
  ⟨.adds_col, [.obj .dense .s true, .obj (.view1D .ten) .s true, .obj (.viewDense .vec) .s false], .adds_col, none, [0, 1, 2]⟩,
  ⟨.adds_col, [.obj .dense .s true, .obj (.view1D .ten) .s true, .obj (.viewDense .mat) .s false], .adds_col, none, [0, 1, 2]⟩,
  ⟨.adds_col, [.obj .dense .s true, .obj (.view1D .ten) .s true, .obj (.viewDense .ten) .s false], .adds_col, none, [0, 1, 2]⟩,
  ⟨.adds_col, [.obj (.viewDense .vec) .s true, .obj .vector .s true, .obj .dense .s false], .adds_col, none, [0, 1, 2]⟩,
  ⟨.adds_col, [.obj (.viewDense .vec) .s true, .obj .vector .s true, .obj (.viewDense .vec) .s false], .adds_col, none, [0, 1, 2]⟩,
  ⟨.adds_col, [.obj (.viewDense .vec) .s true, .obj .vector .s true, .obj (.viewDense .mat) .s false], .adds_col, none, [0, 1, 2]⟩,
  ⟨.adds_col, [.obj (.viewDense .vec) .s true, .obj .vector .s true, .obj (.viewDense .ten) .s false], .adds_col, none, [0, 1, 2]⟩,
  ⟨.adds_col, [.obj (.viewDense .vec) .s true, .obj (.view1D .vec) .s true, .obj .dense .s false], .adds_col, none, [0, 1, 2]⟩,
  ⟨.adds_col, [.obj (.viewDense .vec) .s true, .obj (.view1D .vec) .s true, .obj (.viewDense .vec) .s false], .adds_col, none, [0, 1, 2]⟩,
  ⟨.adds_col, [.obj (.viewDense .vec) .s true, .obj (.view1D .vec) .s true, .obj (.viewDense .mat) .s false], .adds_col, none, [0, 1, 2]⟩,
  ⟨.adds_col, [.obj (.viewDense .vec) .s true, .obj (.view1D .vec) .s true, .obj (.viewDense .ten) .s false], .adds_col, none, [0, 1, 2]⟩,
  ⟨.adds_col, [.obj (.viewDense .vec) .s true, .obj (.view1D .mat) .s true, .obj .dense .s false], .adds_col, none, [0, 1, 2]⟩,
  ⟨.adds_col, [.obj (.viewDense .vec) .s true, .obj (.view1D .mat) .s true, .obj (.viewDense .vec) .s false], .adds_col, none, [0, 1, 2]⟩,
  ⟨.adds_col, [.obj (.viewDense .vec) .s true, .obj (.view1D .mat) .s true, .obj (.viewDense .mat) .s false], .adds_col, none, [0, 1, 2]⟩,
  ⟨.adds_col, [.obj (.viewDense .vec) .s true, .obj (.view1D .mat) .s true, .obj (.viewDense .ten) .s false], .adds_col, none, [0, 1, 2]⟩,
  ⟨.adds_col, [.obj (.viewDense .vec) .s true, .obj (.view1D .ten) .s true, .obj .dense .s false], .adds_col, none, [0, 1, 2]⟩,
  ⟨.adds_col, [.obj (.viewDense .vec) .s true, .obj (.view1D .ten) .s true, .obj (.viewDense .vec) .s false], .adds_col, none, [0, 1, 2]⟩,
  ⟨.adds_col, [.obj (.viewDense .vec) .s true, .obj (.view1D .ten) .s true, .obj (.viewDense .mat) .s false], .adds_col, none, [0, 1, 2]⟩,
  ⟨.adds_col, [.obj (.viewDense .vec) .s true, .obj (.view1D .ten) .s true, .obj (.viewDense .ten) .s false], .adds_col, none, [0, 1, 2]⟩,
  ⟨.adds_col, [.obj (.viewDense .mat) .s true, .obj .vector .s true, .obj .dense .s false], .adds_col, none, [0, 1, 2]⟩,
  ⟨.adds_col, [.obj (.viewDense .mat) .s true, .obj .vector .s true, .obj (.viewDense .vec) .s false], .adds_col, none, [0, 1, 2]⟩,
  ⟨.adds_col, [.obj (.viewDense .mat) .s true, .obj .vector .s true, .obj (.viewDense .mat) .s false], .adds_col, none, [0, 1, 2]⟩,
  ⟨.adds_col, [.obj (.viewDense .mat) .s true, .obj .vector .s true, .obj (.viewDense .ten) .s false], .adds_col, none, [0, 1, 2]⟩,
  ⟨.adds_col, [.obj (.viewDense .mat) .s true, .obj (.view1D .vec) .s true, .obj .dense .s false], .adds_col, none, [0, 1, 2]⟩,
  ⟨.adds_col, [.obj (.viewDense .mat) .s true, .obj (.view1D .vec) .s true, .obj (.viewDense .vec) .s false], .adds_col, none, [0, 1, 2]⟩,
  ⟨.adds_col, [.obj (.viewDense .mat) .s true, .obj (.view1D .vec) .s true, .obj (.viewDense .mat) .s false], .adds_col, none, [0, 1, 2]⟩,
  ⟨.adds_col, [.obj (.viewDense .mat) .s true, .obj (.view1D .vec) .s true, .obj (.viewDense .ten) .s false], .adds_col, none, [0, 1, 2]⟩,
  ⟨.adds_col, [.obj (.viewDense .mat) .s true, .obj (.view1D .mat) .s true, .obj .dense .s false], .adds_col, none, [0, 1, 2]⟩,
  ⟨.adds_col, [.obj (.viewDense .mat) .s true, .obj (.view1D .mat) .s true, .obj (.viewDense .vec) .s false], .adds_col, none, [0, 1, 2]⟩,
  ⟨.adds_col, [.obj (.viewDense .mat) .s true, .obj (.view1D .mat) .s true, .obj (.viewDense .mat) .s false], .adds_col, none, [0, 1, 2]⟩,
  ⟨.adds_col, [.obj (.viewDense .mat) .s true, .obj (.view1D .mat) .s true, .obj (.viewDense .ten) .s false], .adds_col, none, [0, 1, 2]⟩,
  ⟨.adds_col, [.obj (.viewDense .mat) .s true, .obj (.view1D .ten) .s true, .obj .dense .s false], .adds_col, none, [0, 1, 2]⟩,
  ⟨.adds_col, [.obj (.viewDense .mat) .s true, .obj (.view1D .ten) .s true, .obj (.viewDense .vec) .s false], .adds_col, none, [0, 1, 2]⟩,
  ⟨.adds_col, [.obj (.viewDense .mat) .s true, .obj (.view1D .ten) .s true, .obj (.viewDense .mat) .s false], .adds_col, none, [0, 1, 2]⟩,
  ⟨.adds_col, [.obj (.viewDense .mat) .s true, .obj (.view1D .ten) .s true, .obj (.viewDense .ten) .s false], .adds_col, none, [0, 1, 2]⟩]

/-- src/blas/matrix/adds/adds.cpp:1298-1698 -/
def tMatAdds_3 : List Overload := [
  ⟨.adds_col, [.obj (.viewDense .ten) .s true, .obj .vector .s true, .obj .dense .s false], .adds_col, none, [0, 1, 2]⟩,
  ⟨.adds_col, [.obj (.viewDense .ten) .s true, .obj .vector .s true, .obj (.viewDense .vec) .s false], .adds_col, none, [0, 1, 2]⟩,
  ⟨.adds_col, [.obj (.viewDense .ten) .s true, .obj .vector .s true, .obj (.viewDense .mat) .s false], .adds_col, none, [0, 1, 2]⟩,
  ⟨.adds_col, [.obj (.viewDense .ten) .s true, .obj .vector .s true, .obj (.viewDense .ten) .s false], .adds_col, none, [0, 1, 2]⟩,
  ⟨.adds_col, [.obj (.viewDense .ten) .s true, .obj (.view1D .vec) .s true, .obj .dense .s false], .adds_col, none, [0, 1, 2]⟩,
  ⟨.adds_col, [.obj (.viewDense .ten) .s true, .obj (.view1D .vec) .s true, .obj (.viewDense .vec) .s false], .adds_col, none, [0, 1, 2]⟩,
  ⟨.adds_col, [.obj (.viewDense .ten) .s true, .obj (.view1D .vec) .s true, .obj (.viewDense .mat) .s false], .adds_col, none, [0, 1, 2]⟩,
  ⟨.adds_col, [.obj (.viewDense .ten) .s true, .obj (.view1D .vec) .s true, .obj (.viewDense .ten) .s false], .adds_col, none, [0, 1, 2]⟩,
  ⟨.adds_col, [.obj (.viewDense .ten) .s true, .obj (.view1D .mat) .s true, .obj .dense .s false], .adds_col, none, [0, 1, 2]⟩,
  ⟨.adds_col, [.obj (.viewDense .ten) .s true, .obj (.view1D .mat) .s true, .obj (.viewDense .vec) .s false], .adds_col, none, [0, 1, 2]⟩,
  ⟨.adds_col, [.obj (.viewDense .ten) .s true, .obj (.view1D .mat) .s true, .obj (.viewDense .mat) .s false], .adds_col, none, [0, 1, 2]⟩,
  ⟨.adds_col, [.obj (.viewDense .ten) .s true, .obj (.view1D .mat) .s true, .obj (.viewDense .ten) .s false], .adds_col, none, [0, 1, 2]⟩,
  ⟨.adds_col, [.obj (.viewDense .ten) .s true, .obj (.view1D .ten) .s true, .obj .dense .s false], .adds_col, none, [0, 1, 2]⟩,
  ⟨.adds_col, [.obj (.viewDense .ten) .s true, .obj (.view1D .ten) .s true, .obj (.viewDense .vec) .s false], .adds_col, none, [0, 1, 2]⟩,
  ⟨.adds_col, [.obj (.viewDense .ten) .s true, .obj (.view1D .ten) .s true, .obj (.viewDense .mat) .s false], .adds_col, none, [0, 1, 2]⟩,
  ⟨.adds_col, [.obj (.viewDense .ten) .s true, .obj (.view1D .ten) .s true, .obj (.viewDense .ten) .s false], .adds_col, none, [0, 1, 2]⟩,
  ⟨.adds_row, [.obj .dense .d true, .num, .obj .vector .d true, .obj .dense .d false], .adds_row, none, [0, 1, 2, 3]⟩,
  ⟨.adds_row, [.obj .dense .d true, .num, .obj .vector .d true, .obj (.viewDense .vec) .d false], .adds_row, none, [0, 1, 2, 3]⟩,
  ⟨.adds_row, [.obj .dense .d true, .num, .obj .vector .d true, .obj (.viewDense .mat) .d false], .adds_row, none, [0, 1, 2, 3]⟩,
  ⟨.adds_row, [.obj .dense .d true, .num, .obj .vector .d true, .obj (.viewDense .ten) .d false], .adds_row, none, [0, 1, 2, 3]⟩,
  ⟨.adds_row, [.obj .dense .d true, .num, .obj (.view1D .vec) .d true, .obj .dense .d false], .adds_row, none, [0, 1, 2, 3]⟩,
  ⟨.adds_row, [.obj .dense .d true, .num, .obj (.view1D .vec) .d true, .obj (.viewDense .vec) .d false], .adds_row, none, [0, 1, 2, 3]⟩,
  ⟨.adds_row, [.obj .dense .d true, .num, .obj (.view1D .vec) .d true, .obj (.viewDense .mat) .d false], .adds_row, none, [0, 1, 2, 3]⟩,
  ⟨.adds_row, [.obj .dense .d true, .num, .obj (.view1D .vec) .d true, .obj (.viewDense .ten) .d false], .adds_row, none, [0, 1, 2, 3]⟩,
  ⟨.adds_row, [.obj .dense .d true, .num, .obj (.view1D .mat) .d true, .obj .dense .d false], .adds_row, none, [0, 1, 2, 3]⟩,
  ⟨.adds_row, [.obj .dense .d true, .num, .obj (.view1D .mat) .d true, .obj (.viewDense .vec) .d false], .adds_row, none, [0, 1, 2, 3]⟩,
  ⟨.adds_row, [.obj .dense .d true, .num, .obj (.view1D .mat) .d true, .obj (.viewDense .mat) .d false], .adds_row, none, [0, 1, 2, 3]⟩,
  ⟨.adds_row, [.obj .dense .d true, .num, .obj (.view1D .mat) .d true, .obj (.viewDense .ten) .d false], .adds_row, none, [0, 1, 2, 3]⟩,
  ⟨.adds_row, [.obj .dense .d true, .num, .obj (.view1D .ten) .d true, .obj .dense .d false], .adds_row, none, [0, 1, 2, 3]⟩,
  ⟨.adds_row, [.obj .dense .d true, .num, .obj (.view1D .ten) .d true, .obj (.viewDense .vec) .d false], .adds_row, none, [0, 1, 2, 3]⟩,
  ⟨.adds_row, [.obj .dense .d true, .num, .obj (.view1D .ten) .d true, .obj (.viewDense .mat) .d false], .adds_row, none, [0, 1, 2, 3]⟩,
  ⟨.adds_row, [.obj .dense .d true, .num, .obj (.view1D .ten) .d true, .obj (.viewDense .ten) .d false], .adds_row, none, [0, 1, 2, 3]⟩,
  ⟨.adds_row, [.obj (.viewDense .vec) .d true, .num, .obj .vector .d true, .obj .dense .d false], .adds_row, none, [0, 1, 2, 3]⟩,
  ⟨.adds_row, [.obj (.viewDense .vec) .d true, .num, .obj .vector .d true, .obj (.viewDense .vec) .d false], .adds_row, none, [0, 1, 2, 3]⟩,
  ⟨.adds_row, [.obj (.viewDense .vec) .d true, .num, .obj .vector .d true, .obj (.viewDense .mat) .d false], .adds_row, none, [0, 1, 2, 3]⟩,
  ⟨.adds_row, [.obj (.viewDense .vec) .d true, .num, .obj .vector .d true, .obj (.viewDense .ten) .d false], .adds_row, none, [0, 1, 2, 3]⟩,
  ⟨.adds_row, [.obj (.viewDense .vec) .d true, .num, .obj (.view1D .vec) .d true, .obj .dense .d false], .adds_row, none, [0, 1, 2, 3]⟩,
  ⟨.adds_row, [.obj (.viewDense .vec) .d true, .num, .obj (.view1D .vec) .d true, .obj (.viewDense .vec) .d false], .adds_row, none, [0, 1, 2, 3]⟩,
  ⟨.adds_row, [.obj (.viewDense .vec) .d true, .num, .obj (.view1D .vec) .d true, .obj (.viewDense .mat) .d false], .adds_row, none, [0, 1, 2, 3]⟩,
  ⟨.adds_row, [.obj (.viewDense .vec) .d true, .num, .obj (.view1D .vec) .d true, .obj (.viewDense .ten) .d false], .adds_row, none, [0, 1, 2, 3]⟩,
  ⟨.adds_row, [.obj (.viewDense .vec) .d true, .num, .obj (.view1D .mat) .d true, .obj .dense .d false], .adds_row, none, [0, 1, 2, 3]⟩,
  ⟨.adds_row, [.obj (.viewDense .vec) .d true, .num, .obj (.view1D .mat) .d true, .obj (.viewDense .vec) .d false], .adds_row, none, [0, 1, 2, 3]⟩,
  ⟨.adds_row, [.obj (.viewDense .vec) .d true, .num, .obj (.view1D .mat) .d true, .obj (.viewDense .mat) .d false], .adds_row, none, [0, 1, 2, 3]⟩,
  ⟨.adds_row, [.obj (.viewDense .vec) .d true, .num, .obj (.view1D .mat) .d true, .obj (.viewDense .ten) .d false], .adds_row, none, [0, 1, 2, 3]⟩,
  ⟨.adds_row, [.obj (.viewDense .vec) .d true, .num, .obj (.view1D .ten) .d true, .obj .dense .d false], .adds_row, none, [0, 1, 2, 3]⟩,
  ⟨.adds_row, [.obj (.viewDense .vec) .d true, .num, .obj (.view1D .ten) .d true, .obj (.viewDense .vec) .d false], .adds_row, none, [0, 1, 2, 3]⟩,
  ⟨.adds_row, [.obj (.viewDense .vec) .d true, .num, .obj (.view1D .ten) .d true, .obj (.viewDense .mat) .d false], .adds_row, none, [0, 1, 2, 3]⟩,
  ⟨.adds_row, [.obj (.viewDense .vec) .d true, .num, .obj (.view1D .ten) .d true, .obj (.viewDense .ten) .d false], .adds_row, none, [0, 1, 2, 3]⟩,
  ⟨.adds_row, [.obj (.viewDense .mat) .d true, .num, .obj .vector .d true, .obj .dense .d false], .adds_row, none, [0, 1, 2, 3]⟩,
  ⟨.adds_row, [.obj (.viewDense .mat) .d true, .num, .obj .vector .d true, .obj (.viewDense .vec) .d false], .adds_row, none, [0, 1, 2, 3]⟩,
  ⟨.adds_row, [.obj (.viewDense .mat) .d true, .num, .obj .vector .d true, .obj (.viewDense .mat) .d false], .adds_row, none, [0, 1, 2, 3]⟩,
  ⟨.adds_row, [.obj (.viewDense .mat) .d true, .num, .obj .vector .d true, .obj (.viewDense .ten) .d false], .adds_row, none, [0, 1, 2, 3]⟩,
  ⟨.adds_row, [.obj (.viewDense .mat) .d true, .num, .obj (.view1D .vec) .d true, .obj .dense .d false], .adds_row, none, [0, 1, 2, 3]⟩,
  ⟨.adds_row, [.obj (.viewDense .mat) .d true, .num, .obj (.view1D .vec) .d true, .obj (.viewDense .vec) .d false], .adds_row, none, [0, 1, 2, 3]⟩,
  ⟨.adds_row, [.obj (.viewDense .mat) .d true, .num, .obj (.view1D .vec) .d true, .obj (.viewDense .mat) .d false], .adds_row, none, [0, 1, 2, 3]⟩,
  ⟨.adds_row, [.obj (.viewDense .mat) .d true, .num, .obj (.view1D .vec) .d true, .obj (.viewDense .ten) .d false], .adds_row, none, [0, 1, 2, 3]⟩,
  ⟨.adds_row, [.obj (.viewDense .mat) .d true, .num, .obj (.view1D .mat) .d true, .obj .dense .d false], .adds_row, none, [0, 1, 2, 3]⟩,
  ⟨.adds_row, [.obj (.viewDense .mat) .d true, .num, .obj (.view1D .mat) .d true, .obj (.viewDense .vec) .d false], .adds_row, none, [0, 1, 2, 3]⟩,
  ⟨.adds_row, [.obj (.viewDense .mat) .d true, .num, .obj (.view1D .mat) .d true, .obj (.viewDense .mat) .d false], .adds_row, none, [0, 1, 2, 3]⟩,
  ⟨.adds_row, [.obj (.viewDense .mat) .d true, .num, .obj (.view1D .mat) .d true, .obj (.viewDense .ten) .d false], .adds_row, none, [0, 1, 2, 3]⟩,
  ⟨.adds_row, [.obj (.viewDense .mat) .d true, .num, .obj (.view1D .ten) .d true, .obj .dense .d false], .adds_row, none, [0, 1, 2, 3]⟩,
  ⟨.adds_row, [.obj (.viewDense .mat) .d true, .num, .obj (.view1D .ten) .d true, .obj (.viewDense .vec) .d false], .adds_row, none, [0, 1, 2, 3]⟩,
  ⟨.adds_row, [.obj (.viewDense .mat) .d true, .num, .obj (.view1D .ten) .d true, .obj (.viewDense .mat) .d false], .adds_row, none, [0, 1, 2, 3]⟩,
  ⟨.adds_row, [.obj (.viewDense .mat) .d true, .num, .obj (.view1D .ten) .d true, .obj (.viewDense .ten) .d false], .adds_row, none, [0, 1, 2, 3]⟩,
  ⟨.adds_row, [.obj (.viewDense .ten) .d true, .num, .obj .vector .d true, .obj .dense .d false], .adds_row, none, [0, 1, 2, 3]⟩,
  ⟨.adds_row, [.obj (.viewDense .ten) .d true, .num, .obj .vector .d true, .obj (.viewDense .vec) .d false], .adds_row, none, [0, 1, 2, 3]⟩,
  ⟨.adds_row, [.obj (.viewDense .ten) .d true, .num, .obj .vector .d true, .obj (.viewDense .mat) .d false], .adds_row, none, [0, 1, 2, 3]⟩,
  ⟨.adds_row, [.obj (.viewDense .ten) .d true, .num, .obj .vector .d true, .obj (.viewDense .ten) .d false], .adds_row, none, [0, 1, 2, 3]⟩,
  ⟨.adds_row, [.obj (.viewDense .ten) .d true, .num, .obj (.view1D .vec) .d true, .obj .dense .d false], .adds_row, none, [0, 1, 2, 3]⟩,
  ⟨.adds_row, [.obj (.viewDense .ten) .d true, .num, .obj (.view1D .vec) .d true, .obj (.viewDense .vec) .d false], .adds_row, none, [0, 1, 2, 3]⟩,
  ⟨.adds_row, [.obj (.viewDense .ten) .d true, .num, .obj (.view1D .vec) .d true, .obj (.viewDense .mat) .d false], .adds_row, none, [0, 1, 2, 3]⟩,
  ⟨.adds_row, [.obj (.viewDense .ten) .d true, .num, .obj (.view1D .vec) .d true, .obj (.viewDense .ten) .d false], .adds_row, none, [0, 1, 2, 3]⟩,
  ⟨.adds_row, [.obj (.viewDense .ten) .d true, .num, .obj (.view1D .mat) .d true, .obj .dense .d false], .adds_row, none, [0, 1, 2, 3]⟩,
  ⟨.adds_row, [.obj (.viewDense .ten) .d true, .num, .obj (.view1D .mat) .d true, .obj (.viewDense .vec) .d false], .adds_row, none, [0, 1, 2, 3]⟩,
  ⟨.adds_row, [.obj (.viewDense .ten) .d true, .num, .obj (.view1D .mat) .d true, .obj (.viewDense .mat) .d false], .adds_row, none, [0, 1, 2, 3]⟩,
  ⟨.adds_row, [.obj (.viewDense .ten) .d true, .num, .obj (.view1D .mat) .d true, .obj (.viewDense .ten) .d false], .adds_row, none, [0, 1, 2, 3]⟩,
  ⟨.adds_row, [.obj (.viewDense .ten) .d true, .num, .obj (.view1D .ten) .d true, .obj .dense .d false], .adds_row, none, [0, 1, 2, 3]⟩,
  ⟨.adds_row, [.obj (.viewDense .ten) .d true, .num, .obj (.view1D .ten) .d true, .obj (.viewDense .vec) .d false], .adds_row, none, [0, 1, 2, 3]⟩,
  ⟨.adds_row, [.obj (.viewDense .ten) .d true, .num, .obj (.view1D .ten) .d true, .obj (.viewDense .mat) .d false], .adds_row, none, [0, 1, 2, 3]⟩,
  ⟨.adds_row, [.obj (.viewDense .ten) .d true, .num, .obj (.view1D .ten) .d true, .obj (.viewDense .ten) .d false], .adds_row, none, [0, 1, 2, 3]⟩]

/-- src/blas/matrix/adds/adds.cpp:1699-2098 -/
def tMatAdds_4 : List Overload := [
  ⟨.adds_row, [.obj .dense .s true, .num, .obj .vector .s true, .obj .dense .s false], .adds_row, none, [0, 1, 2, 3]⟩,
  ⟨.adds_row, [.obj .dense .s true, .num, .obj .vector .s true, .obj (.viewDense .vec) .s false], .adds_row, none, [0, 1, 2, 3]⟩,
  ⟨.adds_row, [.obj .dense .s true, .num, .obj .vector .s true, .obj (.viewDense .mat) .s false], .adds_row, none, [0, 1, 2, 3]⟩,
  ⟨.adds_row, [.obj .dense .s true, .num, .obj .vector .s true, .obj (.viewDense .ten) .s false], .adds_row, none, [0, 1, 2, 3]⟩,
  ⟨.adds_row, [.obj .dense .s true, .num, .obj (.view1D .vec) .s true, .obj .dense .s false], .adds_row, none, [0, 1, 2, 3]⟩,
  ⟨.adds_row, [.obj .dense .s true, .num, .obj (.view1D .vec) .s true, .obj (.viewDense .vec) .s false], .adds_row, none, [0, 1, 2, 3]⟩,
  ⟨.adds_row, [.obj .dense .s true, .num, .obj (.view1D .vec) .s true, .obj (.viewDense .mat) .s false], .adds_row, none, [0, 1, 2, 3]⟩,
  ⟨.adds_row, [.obj .dense .s true, .num, .obj (.view1D .vec) .s true, .obj (.viewDense .ten) .s false], .adds_row, none, [0, 1, 2, 3]⟩,
  ⟨.adds_row, [.obj .dense .s true, .num, .obj (.view1D .mat) .s true, .obj .dense .s false], .adds_row, none, [0, 1, 2, 3]⟩,
  ⟨.adds_row, [.obj .dense .s true, .num, .obj (.view1D .mat) .s true, .obj (.viewDense .vec) .s false], .adds_row, none, [0, 1, 2, 3]⟩,
  ⟨.adds_row, [.obj .dense .s true, .num, .obj (.view1D .mat) .s true, .obj (.viewDense .mat) .s false], .adds_row, none, [0, 1, 2, 3]⟩,
  ⟨.adds_row, [.obj .dense .s true, .num, .obj (.view1D .mat) .s true, .obj (.viewDense .ten) .s false], .adds_row, none, [0, 1, 2, 3]⟩,
  ⟨.adds_row, [.obj .dense .s true, .num, .obj (.view1D .ten) .s true, .obj .dense .s false], .adds_row, none, [0, 1, 2, 3]⟩,
  ⟨.adds_row, [.obj .dense .s true, .num, .obj (.view1D .ten) .s true, .obj (.viewDense .vec) .s false], .adds_row, none, [0, 1, 2, 3]⟩,
  ⟨.adds_row, [.obj .dense .s true, .num, .obj (.view1D .ten) .s true, .obj (.viewDense .mat) .s false], .adds_row, none, [0, 1, 2, 3]⟩,
  ⟨.adds_row, [.obj .dense .s true, .num, .obj (.view1D .ten) .s true, .obj (.viewDense .ten) .s false], .adds_row, none, [0, 1, 2, 3]⟩,
  ⟨.adds_row, [.obj (.viewDense .vec) .s true, .num, .obj .vector .s true, .obj .dense .s false], .adds_row, none, [0, 1, 2, 3]⟩,
  ⟨.adds_row, [.obj (.viewDense .vec) .s true, .num, .obj .vector .s true, .obj (.viewDense .vec) .s false], .adds_row, none, [0, 1, 2, 3]⟩,
  ⟨.adds_row, [.obj (.viewDense .vec) .s true, .num, .obj .vector .s true, .obj (.viewDense .mat) .s false], .adds_row, none, [0, 1, 2, 3]⟩,
  ⟨.adds_row, [.obj (.viewDense .vec) .s true, .num, .obj .vector .s true, .obj (.viewDense .ten) .s false], .adds_row, none, [0, 1, 2, 3]⟩,
  ⟨.adds_row, [.obj (.viewDense .vec) .s true, .num, .obj (.view1D .vec) .s true, .obj .dense .s false], .adds_row, none, [0, 1, 2, 3]⟩,
  ⟨.adds_row, [.obj (.viewDense .vec) .s true, .num, .obj (.view1D .vec) .s true, .obj (.viewDense .vec) .s false], .adds_row, none, [0, 1, 2, 3]⟩,
  ⟨.adds_row, [.obj (.viewDense .vec) .s true, .num, .obj (.view1D .vec) .s true, .obj (.viewDense .mat) .s false], .adds_row, none, [0, 1, 2, 3]⟩,
  ⟨.adds_row, [.obj (.viewDense .vec) .s true, .num, .obj (.view1D .vec) .s true, .obj (.viewDense .ten) .s false], .adds_row, none, [0, 1, 2, 3]⟩,
  ⟨.adds_row, [.obj (.viewDense .vec) .s true, .num, .obj (.view1D .mat) .s true, .obj .dense .s false], .adds_row, none, [0, 1, 2, 3]⟩,
  ⟨.adds_row, [.obj (.viewDense .vec) .s true, .num, .obj (.view1D .mat) .s true, .obj (.viewDense .vec) .s false], .adds_row, none, [0, 1, 2, 3]⟩,
  ⟨.adds_row, [.obj (.viewDense .vec) .s true, .num, .obj (.view1D .mat) .s true, .obj (.viewDense .mat) .s false], .adds_row, none, [0, 1, 2, 3]⟩,
  ⟨.adds_row, [.obj (.viewDense .vec) .s true, .num, .obj (.view1D .mat) .s true, .obj (.viewDense .ten) .s false], .adds_row, none, [0, 1, 2, 3]⟩,
  ⟨.adds_row, [.obj (.viewDense .vec) .s true, .num, .obj (.view1D .ten) .s true, .obj .dense .s false], .adds_row, none, [0, 1, 2, 3]⟩,
  ⟨.adds_row, [.obj (.viewDense .vec) .s true, .num, .obj (.view1D .ten) .s true, .obj (.viewDense .vec) .s false], .adds_row, none, [0, 1, 2, 3]⟩,
  ⟨.adds_row, [.obj (.viewDense .vec) .s true, .num, .obj (.view1D .ten) .s true, .obj (.viewDense .mat) .s false], .adds_row, none, [0, 1, 2, 3]⟩,
  ⟨.adds_row, [.obj (.viewDense .vec) .s true, .num, .obj (.view1D .ten) .s true, .obj (.viewDense .ten) .s false], .adds_row, none, [0, 1, 2, 3]⟩,
  ⟨.adds_row, [.obj (.viewDense .mat) .s true, .num, .obj .vector .s true, .obj .dense .s false], .adds_row, none, [0, 1, 2, 3]⟩,
  ⟨.adds_row, [.obj (.viewDense .mat) .s true, .num, .obj .vector .s true, .obj (.viewDense .vec) .s false], .adds_row, none, [0, 1, 2, 3]⟩,
  ⟨.adds_row, [.obj (.viewDense .mat) .s true, .num, .obj .vector .s true, .obj (.viewDense .mat) .s false], .adds_row, none, [0, 1, 2, 3]⟩,
  ⟨.adds_row, [.obj (.viewDense .mat) .s true, .num, .obj .vector .s true, .obj (.viewDense .ten) .s false], .adds_row, none, [0, 1, 2, 3]⟩,
  ⟨.adds_row, [.obj (.viewDense .mat) .s true, .num, .obj (.view1D .vec) .s true, .obj .dense .s false], .adds_row, none, [0, 1, 2, 3]⟩,
  ⟨.adds_row, [.obj (.viewDense .mat) .s true, .num, .obj (.view1D .vec) .s true, .obj (.viewDense .vec) .s false], .adds_row, none, [0, 1, 2, 3]⟩,
  ⟨.adds_row, [.obj (.viewDense .mat) .s true, .num, .obj (.view1D .vec) .s true, .obj (.viewDense .mat) .s false], .adds_row, none, [0, 1, 2, 3]⟩,
  ⟨.adds_row, [.obj (.viewDense .mat) .s true, .num, .obj (.view1D .vec) .s true, .obj (.viewDense .ten) .s false], .adds_row, none, [0, 1, 2, 3]⟩,
  ⟨.adds_row, [.obj (.viewDense .mat) .s true, .num, .obj (.view1D .mat) .s true, .obj .dense .s false], .adds_row, none, [0, 1, 2, 3]⟩,
  ⟨.adds_row, [.obj (.viewDense .mat) .s true, .num, .obj (.view1D .mat) .s true, .obj (.viewDense .vec) .s false], .adds_row, none, [0, 1, 2, 3]⟩,
  ⟨.adds_row, [.obj (.viewDense .mat) .s true, .num, .obj (.view1D .mat) .s true, .obj (.viewDense .mat) .s false], .adds_row, none, [0, 1, 2, 3]⟩,
  ⟨.adds_row, [.obj (.viewDense .mat) .s true, .num, .obj (.view1D .mat) .s true, .obj (.viewDense .ten) .s false], .adds_row, none, [0, 1, 2, 3]⟩,
  ⟨.adds_row, [.obj (.viewDense .mat) .s true, .num, .obj (.view1D .ten) .s true, .obj .dense .s false], .adds_row, none, [0, 1, 2, 3]⟩,
  ⟨.adds_row, [.obj (.viewDense .mat) .s true, .num, .obj (.view1D .ten) .s true, .obj (.viewDense .vec) .s false], .adds_row, none, [0, 1, 2, 3]⟩,
  ⟨.adds_row, [.obj (.viewDense .mat) .s true, .num, .obj (.view1D .ten) .s true, .obj (.viewDense .mat) .s false], .adds_row, none, [0, 1, 2, 3]⟩,
  ⟨.adds_row, [.obj (.viewDense .mat) .s true, .num, .obj (.view1D .ten) .s true, .obj (.viewDense .ten) .s false], .adds_row, none, [0, 1, 2, 3]⟩,
  ⟨.adds_row, [.obj (.viewDense .ten) .s true, .num, .obj .vector .s true, .obj .dense .s false], .adds_row, none, [0, 1, 2, 3]⟩,
  ⟨.adds_row, [.obj (.viewDense .ten) .s true, .num, .obj .vector .s true, .obj (.viewDense .vec) .s false], .adds_row, none, [0, 1, 2, 3]⟩,
  ⟨.adds_row, [.obj (.viewDense .ten) .s true, .num, .obj .vector .s true, .obj (.viewDense .mat) .s false], .adds_row, none, [0, 1, 2, 3]⟩,
  ⟨.adds_row, [.obj (.viewDense .ten) .s true, .num, .obj .vector .s true, .obj (.viewDense .ten) .s false], .adds_row, none, [0, 1, 2, 3]⟩,
  ⟨.adds_row, [.obj (.viewDense .ten) .s true, .num, .obj (.view1D .vec) .s true, .obj .dense .s false], .adds_row, none, [0, 1, 2, 3]⟩,
  ⟨.adds_row, [.obj (.viewDense .ten) .s true, .num, .obj (.view1D .vec) .s true, .obj (.viewDense .vec) .s false], .adds_row, none, [0, 1, 2, 3]⟩,
  ⟨.adds_row, [.obj (.viewDense .ten) .s true, .num, .obj (.view1D .vec) .s true, .obj (.viewDense .mat) .s false], .adds_row, none, [0, 1, 2, 3]⟩,
  ⟨.adds_row, [.obj (.viewDense .ten) .s true, .num, .obj (.view1D .vec) .s true, .obj (.viewDense .ten) .s false], .adds_row, none, [0, 1, 2, 3]⟩,
  ⟨.adds_row, [.obj (.viewDense .ten) .s true, .num, .obj (.view1D .mat) .s true, .obj .dense .s false], .adds_row, none, [0, 1, 2, 3]⟩,
  ⟨.adds_row, [.obj (.viewDense .ten) .s true, .num, .obj (.view1D .mat) .s true, .obj (.viewDense .vec) .s false], .adds_row, none, [0, 1, 2, 3]⟩,
  ⟨.adds_row, [.obj (.viewDense .ten) .s true, .num, .obj (.view1D .mat) .s true, .obj (.viewDense .mat) .s false], .adds_row, none, [0, 1, 2, 3]⟩,
  ⟨.adds_row, [.obj (.viewDense .ten) .s true, .num, .obj (.view1D .mat) .s true, .obj (.viewDense .ten) .s false], .adds_row, none, [0, 1, 2, 3]⟩,
  ⟨.adds_row, [.obj (.viewDense .ten) .s true, .num, .obj (.view1D .ten) .s true, .obj .dense .s false], .adds_row, none, [0, 1, 2, 3]⟩,
  ⟨.adds_row, [.obj (.viewDense .ten) .s true, .num, .obj (.view1D .ten) .s true, .obj (.viewDense .vec) .s false], .adds_row, none, [0, 1, 2, 3]⟩,
  ⟨.adds_row, [.obj (.viewDense .ten) .s true, .num, .obj (.view1D .ten) .s true, .obj (.viewDense .mat) .s false], .adds_row, none, [0, 1, 2, 3]⟩,
  ⟨.adds_row, [.obj (.viewDense .ten) .s true, .num, .obj (.view1D .ten) .s true, .obj (.viewDense .ten) .s false], .adds_row, none, [0, 1, 2, 3]⟩,
  ⟨.adds_col, [.obj .dense .d true, .num, .obj .vector .d true, .obj .dense .d false], .adds_col, none, [0, 1, 2, 3]⟩,
  ⟨.adds_col, [.obj .dense .d true, .num, .obj .vector .d true, .obj (.viewDense .vec) .d false], .adds_col, none, [0, 1, 2, 3]⟩,
  ⟨.adds_col, [.obj .dense .d true, .num, .obj .vector .d true, .obj (.viewDense .mat) .d false], .adds_col, none, [0, 1, 2, 3]⟩,
  ⟨.adds_col, [.obj .dense .d true, .num, .obj .vector .d true, .obj (.viewDense .ten) .d false], .adds_col, none, [0, 1, 2, 3]⟩,
  ⟨.adds_col, [.obj .dense .d true, .num, .obj (.view1D .vec) .d true, .obj .dense .d false], .adds_col, none, [0, 1, 2, 3]⟩,
  ⟨.adds_col, [.obj .dense .d true, .num, .obj (.view1D .vec) .d true, .obj (.viewDense .vec) .d false], .adds_col, none, [0, 1, 2, 3]⟩,
  ⟨.adds_col, [.obj .dense .d true, .num, .obj (.view1D .vec) .d true, .obj (.viewDense .mat) .d false], .adds_col, none, [0, 1, 2, 3]⟩,
  ⟨.adds_col, [.obj .dense .d true, .num, .obj (.view1D .vec) .d true, .obj (.viewDense .ten) .d false], .adds_col, none, [0, 1, 2, 3]⟩,
  ⟨.adds_col, [.obj .dense .d true, .num, .obj (.view1D .mat) .d true, .obj .dense .d false], .adds_col, none, [0, 1, 2, 3]⟩,
  ⟨.adds_col, [.obj .dense .d true, .num, .obj (.view1D .mat) .d true, .obj (.viewDense .vec) .d false], .adds_col, none, [0, 1, 2, 3]⟩,
  ⟨.adds_col, [.obj .dense .d true, .num, .obj (.view1D .mat) .d true, .obj (.viewDense .mat) .d false], .adds_col, none, [0, 1, 2, 3]⟩,
  ⟨.adds_col, [.obj .dense .d true, .num, .obj (.view1D .mat) .d true, .obj (.viewDense .ten) .d false], .adds_col, none, [0, 1, 2, 3]⟩,
  ⟨.adds_col, [.obj .dense .d true, .num, .obj (.view1D .ten) .d true, .obj .dense .d false], .adds_col, none, [0, 1, 2, 3]⟩,
  ⟨.adds_col, [.obj .dense .d true, .num, .obj (.view1D .ten) .d true, .obj (.viewDense .vec) .d false], .adds_col, none, [0, 1, 2, 3]⟩,
  ⟨.adds_col, [.obj .dense .d true, .num, .obj (.view1D .ten) .d true, .obj (.viewDense .mat) .d false], .adds_col, none, [0, 1, 2, 3]⟩,
  ⟨.adds_col, [.obj .dense .d true, .num, .obj (.view1D .ten) .d true, .obj (.viewDense .ten) .d false], .adds_col, none, [0, 1, 2, 3]⟩]

/-- src/blas/matrix/adds/adds.cpp:2099-2498 -/
def tMatAdds_5 : List Overload := [
  ⟨.adds_col, [.obj (.viewDense .vec) .d true, .num, .obj .vector .d true, .obj .dense .d false], .adds_col, none, [0, 1, 2, 3]⟩,
  ⟨.adds_col, [.obj (.viewDense .vec) .d true, .num, .obj .vector .d true, .obj (.viewDense .vec) .d false], .adds_col, none, [0, 1, 2, 3]⟩,
  ⟨.adds_col, [.obj (.viewDense .vec) .d true, .num, .obj .vector .d true, .obj (.viewDense .mat) .d false], .adds_col, none, [0, 1, 2, 3]⟩,
  ⟨.adds_col, [.obj (.viewDense .vec) .d true, .num, .obj .vector .d true, .obj (.viewDense .ten) .d false], .adds_col, none, [0, 1, 2, 3]⟩,
  ⟨.adds_col, [.obj (.viewDense .vec) .d true, .num, .obj (.view1D .vec) .d true, .obj .dense .d false], .adds_col, none, [0, 1, 2, 3]⟩,
  ⟨.adds_col, [.obj (.viewDense .vec) .d true, .num, .obj (.view1D .vec) .d true, .obj (.viewDense .vec) .d false], .adds_col, none, [0, 1, 2, 3]⟩,
  ⟨.adds_col, [.obj (.viewDense .vec) .d true, .num, .obj (.view1D .vec) .d true, .obj (.viewDense .mat) .d false], .adds_col, none, [0, 1, 2, 3]⟩,
  ⟨.adds_col, [.obj (.viewDense .vec) .d true, .num, .obj (.view1D .vec) .d true, .obj (.viewDense .ten) .d false], .adds_col, none, [0, 1, 2, 3]⟩,
  ⟨.adds_col, [.obj (.viewDense .vec) .d true, .num, .obj (.view1D .mat) .d true, .obj .dense .d false], .adds_col, none, [0, 1, 2, 3]⟩,
  ⟨.adds_col, [.obj (.viewDense .vec) .d true, .num, .obj (.view1D .mat) .d true, .obj (.viewDense .vec) .d false], .adds_col, none, [0, 1, 2, 3]⟩,
  ⟨.adds_col, [.obj (.viewDense .vec) .d true, .num, .obj (.view1D .mat) .d true, .obj (.viewDense .mat) .d false], .adds_col, none, [0, 1, 2, 3]⟩,
  ⟨.adds_col, [.obj (.viewDense .vec) .d true, .num, .obj (.view1D .mat) .d true, .obj (.viewDense .ten) .d false], .adds_col, none, [0, 1, 2, 3]⟩,
  ⟨.adds_col, [.obj (.viewDense .vec) .d true, .num, .obj (.view1D .ten) .d true, .obj .dense .d false], .adds_col, none, [0, 1, 2, 3]⟩,
  ⟨.adds_col, [.obj (.viewDense .vec) .d true, .num, .obj (.view1D .ten) .d true, .obj (.viewDense .vec) .d false], .adds_col, none, [0, 1, 2, 3]⟩,
  ⟨.adds_col, [.obj (.viewDense .vec) .d true, .num, .obj (.view1D .ten) .d true, .obj (.viewDense .mat) .d false], .adds_col, none, [0, 1, 2, 3]⟩,
  ⟨.adds_col, [.obj (.viewDense .vec) .d true, .num, .obj (.view1D .ten) .d true, .obj (.viewDense .ten) .d false], .adds_col, none, [0, 1, 2, 3]⟩,
  ⟨.adds_col, [.obj (.viewDense .mat) .d true, .num, .obj .vector .d true, .obj .dense .d false], .adds_col, none, [0, 1, 2, 3]⟩,
  ⟨.adds_col, [.obj (.viewDense .mat) .d true, .num, .obj .vector .d true, .obj (.viewDense .vec) .d false], .adds_col, none, [0, 1, 2, 3]⟩,
  ⟨.adds_col, [.obj (.viewDense .mat) .d true, .num, .obj .vector .d true, .obj (.viewDense .mat) .d false], .adds_col, none, [0, 1, 2, 3]⟩,
  ⟨.adds_col, [.obj (.viewDense .mat) .d true, .num, .obj .vector .d true, .obj (.viewDense .ten) .d false], .adds_col, none, [0, 1, 2, 3]⟩,
  ⟨.adds_col, [.obj (.viewDense .mat) .d true, .num, .obj (.view1D .vec) .d true, .obj .dense .d false], .adds_col, none, [0, 1, 2, 3]⟩,
  ⟨.adds_col, [.obj (.viewDense .mat) .d true, .num, .obj (.view1D .vec) .d true, .obj (.viewDense .vec) .d false], .adds_col, none, [0, 1, 2, 3]⟩,
  ⟨.adds_col, [.obj (.viewDense .mat) .d true, .num, .obj (.view1D .vec) .d true, .obj (.viewDense .mat) .d false], .adds_col, none, [0, 1, 2, 3]⟩,
  ⟨.adds_col, [.obj (.viewDense .mat) .d true, .num, .obj (.view1D .vec) .d true, .obj (.viewDense .ten) .d false], .adds_col, none, [0, 1, 2, 3]⟩,
  ⟨.adds_col, [.obj (.viewDense .mat) .d true, .num, .obj (.view1D .mat) .d true, .obj .dense .d false], .adds_col, none, [0, 1, 2, 3]⟩,
  ⟨.adds_col, [.obj (.viewDense .mat) .d true, .num, .obj (.view1D .mat) .d true, .obj (.viewDense .vec) .d false], .adds_col, none, [0, 1, 2, 3]⟩,
  ⟨.adds_col, [.obj (.viewDense .mat) .d true, .num, .obj (.view1D .mat) .d true, .obj (.viewDense .mat) .d false], .adds_col, none, [0, 1, 2, 3]⟩,
  ⟨.adds_col, [.obj (.viewDense .mat) .d true, .num, .obj (.view1D .mat) .d true, .obj (.viewDense .ten) .d false], .adds_col, none, [0, 1, 2, 3]⟩,
  ⟨.adds_col, [.obj (.viewDense .mat) .d true, .num, .obj (.view1D .ten) .d true, .obj .dense .d false], .adds_col, none, [0, 1, 2, 3]⟩,
  ⟨.adds_col, [.obj (.viewDense .mat) .d true, .num, .obj (.view1D .ten) .d true, .obj (.viewDense .vec) .d false], .adds_col, none, [0, 1, 2, 3]⟩,
  ⟨.adds_col, [.obj (.viewDense .mat) .d true, .num, .obj (.view1D .ten) .d true, .obj (.viewDense .mat) .d false], .adds_col, none, [0, 1, 2, 3]⟩,
  ⟨.adds_col, [.obj (.viewDense .mat) .d true, .num, .obj (.view1D .ten) .d true, .obj (.viewDense .ten) .d false], .adds_col, none, [0, 1, 2, 3]⟩,
  ⟨.adds_col, [.obj (.viewDense .ten) .d true, .num, .obj .vector .d true, .obj .dense .d false], .adds_col, none, [0, 1, 2, 3]⟩,
  ⟨.adds_col, [.obj (.viewDense .ten) .d true, .num, .obj .vector .d true, .obj (.viewDense .vec) .d false], .adds_col, none, [0, 1, 2, 3]⟩,
  ⟨.adds_col, [.obj (.viewDense .ten) .d true, .num, .obj .vector .d true, .obj (.viewDense .mat) .d false], .adds_col, none, [0, 1, 2, 3]⟩,
  ⟨.adds_col, [.obj (.viewDense .ten) .d true, .num, .obj .vector .d true, .obj (.viewDense .ten) .d false], .adds_col, none, [0, 1, 2, 3]⟩,
  ⟨.adds_col, [.obj (.viewDense .ten) .d true, .num, .obj (.view1D .vec) .d true, .obj .dense .d false], .adds_col, none, [0, 1, 2, 3]⟩,
  ⟨.adds_col, [.obj (.viewDense .ten) .d true, .num, .obj (.view1D .vec) .d true, .obj (.viewDense .vec) .d false], .adds_col, none, [0, 1, 2, 3]⟩,
  ⟨.adds_col, [.obj (.viewDense .ten) .d true, .num, .obj (.view1D .vec) .d true, .obj (.viewDense .mat) .d false], .adds_col, none, [0, 1, 2, 3]⟩,
  ⟨.adds_col, [.obj (.viewDense .ten) .d true, .num, .obj (.view1D .vec) .d true, .obj (.viewDense .ten) .d false], .adds_col, none, [0, 1, 2, 3]⟩,
  ⟨.adds_col, [.obj (.viewDense .ten) .d true, .num, .obj (.view1D .mat) .d true, .obj .dense .d false], .adds_col, none, [0, 1, 2, 3]⟩,
  ⟨.adds_col, [.obj (.viewDense .ten) .d true, .num, .obj (.view1D .mat) .d true, .obj (.viewDense .vec) .d false], .adds_col, none, [0, 1, 2, 3]⟩,
  ⟨.adds_col, [.obj (.viewDense .ten) .d true, .num, .obj (.view1D .mat) .d true, .obj (.viewDense .mat) .d false], .adds_col, none, [0, 1, 2, 3]⟩,
  ⟨.adds_col, [.obj (.viewDense .ten) .d true, .num, .obj (.view1D .mat) .d true, .obj (.viewDense .ten) .d false], .adds_col, none, [0, 1, 2, 3]⟩,
  ⟨.adds_col, [.obj (.viewDense .ten) .d true, .num, .obj (.view1D .ten) .d true, .obj .dense .d false], .adds_col, none, [0, 1, 2, 3]⟩,
  ⟨.adds_col, [.obj (.viewDense .ten) .d true, .num, .obj (.view1D .ten) .d true, .obj (.viewDense .vec) .d false], .adds_col, none, [0, 1, 2, 3]⟩,
  ⟨.adds_col, [.obj (.viewDense .ten) .d true, .num, .obj (.view1D .ten) .d true, .obj (.viewDense .mat) .d false], .adds_col, none, [0, 1, 2, 3]⟩,
  ⟨.adds_col, [.obj (.viewDense .ten) .d true, .num, .obj (.view1D .ten) .d true, .obj (.viewDense .ten) .d false], .adds_col, none, [0, 1, 2, 3]⟩,
  ⟨.adds_col, [.obj .dense .s true, .num, .obj .vector .s true, .obj .dense .s false], .adds_col, none, [0, 1, 2, 3]⟩,
  ⟨.adds_col, [.obj .dense .s true, .num, .obj .vector .s true, .obj (.viewDense .vec) .s false], .adds_col, none, [0, 1, 2, 3]⟩,
  ⟨.adds_col, [.obj .dense .s true, .num, .obj .vector .s true, .obj (.viewDense .mat) .s false], .adds_col, none, [0, 1, 2, 3]⟩,
  ⟨.adds_col, [.obj .dense .s true, .num, .obj .vector .s true, .obj (.viewDense .ten) .s false], .adds_col, none, [0, 1, 2, 3]⟩,
  ⟨.adds_col, [.obj .dense .s true, .num, .obj (.view1D .vec) .s true, .obj .dense .s false], .adds_col, none, [0, 1, 2, 3]⟩,
  ⟨.adds_col, [.obj .dense .s true, .num, .obj (.view1D .vec) .s true, .obj (.viewDense .vec) .s false], .adds_col, none, [0, 1, 2, 3]⟩,
  ⟨.adds_col, [.obj .dense .s true, .num, .obj (.view1D .vec) .s true, .obj (.viewDense .mat) .s false], .adds_col, none, [0, 1, 2, 3]⟩,
  ⟨.adds_col, [.obj .dense .s true, .num, .obj (.view1D .vec) .s true, .obj (.viewDense .ten) .s false], .adds_col, none, [0, 1, 2, 3]⟩,
  ⟨.adds_col, [.obj .dense .s true, .num, .obj (.view1D .mat) .s true, .obj .dense .s false], .adds_col, none, [0, 1, 2, 3]⟩,
  ⟨.adds_col, [.obj .dense .s true, .num, .obj (.view1D .mat) .s true, .obj (.viewDense .vec) .s false], .adds_col, none, [0, 1, 2, 3]⟩,
  ⟨.adds_col, [.obj .dense .s true, .num, .obj (.view1D .mat) .s true, .obj (.viewDense .mat) .s false], .adds_col, none, [0, 1, 2, 3]⟩,
  ⟨.adds_col, [.obj .dense .s true, .num, .obj (.view1D .mat) .s true, .obj (.viewDense .ten) .s false], .adds_col, none, [0, 1, 2, 3]⟩,
  ⟨.adds_col, [.obj .dense .s true, .num, .obj (.view1D .ten) .s true, .obj .dense .s false], .adds_col, none, [0, 1, 2, 3]⟩,
  ⟨.adds_col, [.obj .dense .s true, .num, .obj (.view1D .ten) .s true, .obj (.viewDense .vec) .s false], .adds_col, none, [0, 1, 2, 3]⟩,
  ⟨.adds_col, [.obj .dense .s true, .num, .obj (.view1D .ten) .s true, .obj (.viewDense .mat) .s false], .adds_col, none, [0, 1, 2, 3]⟩,
  ⟨.adds_col, [.obj .dense .s true, .num, .obj (.view1D .ten) .s true, .obj (.viewDense .ten) .s false], .adds_col, none, [0, 1, 2, 3]⟩,
  ⟨.adds_col, [.obj (.viewDense .vec) .s true, .num, .obj .vector .s true, .obj .dense .s false], .adds_col, none, [0, 1, 2, 3]⟩,
  ⟨.adds_col, [.obj (.viewDense .vec) .s true, .num, .obj .vector .s true, .obj (.viewDense .vec) .s false], .adds_col, none, [0, 1, 2, 3]⟩,
  ⟨.adds_col, [.obj (.viewDense .vec) .s true, .num, .obj .vector .s true, .obj (.viewDense .mat) .s false], .adds_col, none, [0, 1, 2, 3]⟩,
  ⟨.adds_col, [.obj (.viewDense .vec) .s true, .num, .obj .vector .s true, .obj (.viewDense .ten) .s false], .adds_col, none, [0, 1, 2, 3]⟩,
  ⟨.adds_col, [.obj (.viewDense .vec) .s true, .num, .obj (.view1D .vec) .s true, .obj .dense .s false], .adds_col, none, [0, 1, 2, 3]⟩,
  ⟨.adds_col, [.obj (.viewDense .vec) .s true, .num, .obj (.view1D .vec) .s true, .obj (.viewDense .vec) .s false], .adds_col, none, [0, 1, 2, 3]⟩,
  ⟨.adds_col, [.obj (.viewDense .vec) .s true, .num, .obj (.view1D .vec) .s true, .obj (.viewDense .mat) .s false], .adds_col, none, [0, 1, 2, 3]⟩,
  ⟨.adds_col, [.obj (.viewDense .vec) .s true, .num, .obj (.view1D .vec) .s true, .obj (.viewDense .ten) .s false], .adds_col, none, [0, 1, 2, 3]⟩,
  ⟨.adds_col, [.obj (.viewDense .vec) .s true, .num, .obj (.view1D .mat) .s true, .obj .dense .s false], .adds_col, none, [0, 1, 2, 3]⟩,
  ⟨.adds_col, [.obj (.viewDense .vec) .s true, .num, .obj (.view1D .mat) .s true, .obj (.viewDense .vec) .s false], .adds_col, none, [0, 1, 2, 3]⟩,
  ⟨.adds_col, [.obj (.viewDense .vec) .s true, .num, .obj (.view1D .mat) .s true, .obj (.viewDense .mat) .s false], .adds_col, none, [0, 1, 2, 3]⟩,
  ⟨.adds_col, [.obj (.viewDense .vec) .s true, .num, .obj (.view1D .mat) .s true, .obj (.viewDense .ten) .s false], .adds_col, none, [0, 1, 2, 3]⟩,
  ⟨.adds_col, [.obj (.viewDense .vec) .s true, .num, .obj (.view1D .ten) .s true, .obj .dense .s false], .adds_col, none, [0, 1, 2, 3]⟩,
  ⟨.adds_col, [.obj (.viewDense .vec) .s true, .num, .obj (.view1D .ten) .s true, .obj (.viewDense .vec) .s false], .adds_col, none, [0, 1, 2, 3]⟩,
  ⟨.adds_col, [.obj (.viewDense .vec) .s true, .num, .obj (.view1D .ten) .s true, .obj (.viewDense .mat) .s false], .adds_col, none, [0, 1, 2, 3]⟩,
  ⟨.adds_col, [.obj (.viewDense .vec) .s true, .num, .obj (.view1D .ten) .s true, .obj (.viewDense .ten) .s false], .adds_col, none, [0, 1, 2, 3]⟩]

/-- src/blas/matrix/adds/adds.cpp:2499-2666 -/
def tMatAdds_6 : List Overload := [
  ⟨.adds_col, [.obj (.viewDense .mat) .s true, .num, .obj .vector .s true, .obj .dense .s false], .adds_col, none, [0, 1, 2, 3]⟩,
  ⟨.adds_col, [.obj (.viewDense .mat) .s true, .num, .obj .vector .s true, .obj (.viewDense .vec) .s false], .adds_col, none, [0, 1, 2, 3]⟩,
  ⟨.adds_col, [.obj (.viewDense .mat) .s true, .num, .obj .vector .s true, .obj (.viewDense .mat) .s false], .adds_col, none, [0, 1, 2, 3]⟩,
  ⟨.adds_col, [.obj (.viewDense .mat) .s true, .num, .obj .vector .s true, .obj (.viewDense .ten) .s false], .adds_col, none, [0, 1, 2, 3]⟩,
  ⟨.adds_col, [.obj (.viewDense .mat) .s true, .num, .obj (.view1D .vec) .s true, .obj .dense .s false], .adds_col, none, [0, 1, 2, 3]⟩,
  ⟨.adds_col, [.obj (.viewDense .mat) .s true, .num, .obj (.view1D .vec) .s true, .obj (.viewDense .vec) .s false], .adds_col, none, [0, 1, 2, 3]⟩,
  ⟨.adds_col, [.obj (.viewDense .mat) .s true, .num, .obj (.view1D .vec) .s true, .obj (.viewDense .mat) .s false], .adds_col, none, [0, 1, 2, 3]⟩,
  ⟨.adds_col, [.obj (.viewDense .mat) .s true, .num, .obj (.view1D .vec) .s true, .obj (.viewDense .ten) .s false], .adds_col, none, [0, 1, 2, 3]⟩,
  ⟨.adds_col, [.obj (.viewDense .mat) .s true, .num, .obj (.view1D .mat) .s true, .obj .dense .s false], .adds_col, none, [0, 1, 2, 3]⟩,
  ⟨.adds_col, [.obj (.viewDense .mat) .s true, .num, .obj (.view1D .mat) .s true, .obj (.viewDense .vec) .s false], .adds_col, none, [0, 1, 2, 3]⟩,
  ⟨.adds_col, [.obj (.viewDense .mat) .s true, .num, .obj (.view1D .mat) .s true, .obj (.viewDense .mat) .s false], .adds_col, none, [0, 1, 2, 3]⟩,
  ⟨.adds_col, [.obj (.viewDense .mat) .s true, .num, .obj (.view1D .mat) .s true, .obj (.viewDense .ten) .s false], .adds_col, none, [0, 1, 2, 3]⟩,
  ⟨.adds_col, [.obj (.viewDense .mat) .s true, .num, .obj (.view1D .ten) .s true, .obj .dense .s false], .adds_col, none, [0, 1, 2, 3]⟩,
  ⟨.adds_col, [.obj (.viewDense .mat) .s true, .num, .obj (.view1D .ten) .s true, .obj (.viewDense .vec) .s false], .adds_col, none, [0, 1, 2, 3]⟩,
  ⟨.adds_col, [.obj (.viewDense .mat) .s true, .num, .obj (.view1D .ten) .s true, .obj (.viewDense .mat) .s false], .adds_col, none, [0, 1, 2, 3]⟩,
  ⟨.adds_col, [.obj (.viewDense .mat) .s true, .num, .obj (.view1D .ten) .s true, .obj (.viewDense .ten) .s false], .adds_col, none, [0, 1, 2, 3]⟩,
  ⟨.adds_col, [.obj (.viewDense .ten) .s true, .num, .obj .vector .s true, .obj .dense .s false], .adds_col, none, [0, 1, 2, 3]⟩,
  ⟨.adds_col, [.obj (.viewDense .ten) .s true, .num, .obj .vector .s true, .obj (.viewDense .vec) .s false], .adds_col, none, [0, 1, 2, 3]⟩,
  ⟨.adds_col, [.obj (.viewDense .ten) .s true, .num, .obj .vector .s true, .obj (.viewDense .mat) .s false], .adds_col, none, [0, 1, 2, 3]⟩,
  ⟨.adds_col, [.obj (.viewDense .ten) .s true, .num, .obj .vector .s true, .obj (.viewDense .ten) .s false], .adds_col, none, [0, 1, 2, 3]⟩,
  ⟨.adds_col, [.obj (.viewDense .ten) .s true, .num, .obj (.view1D .vec) .s true, .obj .dense .s false], .adds_col, none, [0, 1, 2, 3]⟩,
  ⟨.adds_col, [.obj (.viewDense .ten) .s true, .num, .obj (.view1D .vec) .s true, .obj (.viewDense .vec) .s false], .adds_col, none, [0, 1, 2, 3]⟩,
  ⟨.adds_col, [.obj (.viewDense .ten) .s true, .num, .obj (.view1D .vec) .s true, .obj (.viewDense .mat) .s false], .adds_col, none, [0, 1, 2, 3]⟩,
  ⟨.adds_col, [.obj (.viewDense .ten) .s true, .num, .obj (.view1D .vec) .s true, .obj (.viewDense .ten) .s false], .adds_col, none, [0, 1, 2, 3]⟩,
  ⟨.adds_col, [.obj (.viewDense .ten) .s true, .num, .obj (.view1D .mat) .s true, .obj .dense .s false], .adds_col, none, [0, 1, 2, 3]⟩,
  ⟨.adds_col, [.obj (.viewDense .ten) .s true, .num, .obj (.view1D .mat) .s true, .obj (.viewDense .vec) .s false], .adds_col, none, [0, 1, 2, 3]⟩,
  ⟨.adds_col, [.obj (.viewDense .ten) .s true, .num, .obj (.view1D .mat) .s true, .obj (.viewDense .mat) .s false], .adds_col, none, [0, 1, 2, 3]⟩,
  ⟨.adds_col, [.obj (.viewDense .ten) .s true, .num, .obj (.view1D .mat) .s true, .obj (.viewDense .ten) .s false], .adds_col, none, [0, 1, 2, 3]⟩,
  ⟨.adds_col, [.obj (.viewDense .ten) .s true, .num, .obj (.view1D .ten) .s true, .obj .dense .s false], .adds_col, none, [0, 1, 2, 3]⟩,
  ⟨.adds_col, [.obj (.viewDense .ten) .s true, .num, .obj (.view1D .ten) .s true, .obj (.viewDense .vec) .s false], .adds_col, none, [0, 1, 2, 3]⟩,
  ⟨.adds_col, [.obj (.viewDense .ten) .s true, .num, .obj (.view1D .ten) .s true, .obj (.viewDense .mat) .s false], .adds_col, none, [0, 1, 2, 3]⟩,
  ⟨.adds_col, [.obj (.viewDense .ten) .s true, .num, .obj (.view1D .ten) .s true, .obj (.viewDense .ten) .s false], .adds_col, none, [0, 1, 2, 3]⟩]

/-- the row and column operations of src/blas/matrix/adds/adds.cpp (512 overloads) -/
def tMatAdds : List (List Overload) :=
  [tMatAdds_0, tMatAdds_1, tMatAdds_2, tMatAdds_3, tMatAdds_4, tMatAdds_5, tMatAdds_6]

/-- src/blas/tensor/times/times.cpp:165-552 -/
def tTenTimes_0 : List Overload := [
  ⟨.times_row, [.obj .tdense .d true, .obj .vector .d true, .obj .tdense .d false], .times_row, (some .d), [0, 1, 2]⟩,
  ⟨.times_row, [.obj .tdense .d true, .obj .vector .d true, .obj (.viewTDense .vec) .d false], .times_row, (some .d), [0, 1, 2]⟩,
  ⟨.times_row, [.obj .tdense .d true, .obj .vector .d true, .obj (.viewTDense .mat) .d false], .times_row, (some .d), [0, 1, 2]⟩,
  ⟨.times_row, [.obj .tdense .d true, .obj .vector .d true, .obj (.viewTDense .ten) .d false], .times_row, (some .d), [0, 1, 2]⟩,
  ⟨.times_row, [.obj .tdense .d true, .obj (.view1D .vec) .d true, .obj .tdense .d false], .times_row, (some .d), [0, 1, 2]⟩,
  ⟨.times_row, [.obj .tdense .d true, .obj (.view1D .vec) .d true, .obj (.viewTDense .vec) .d false], .times_row, (some .d), [0, 1, 2]⟩,
  ⟨.times_row, [.obj .tdense .d true, .obj (.view1D .vec) .d true, .obj (.viewTDense .mat) .d false], .times_row, (some .d), [0, 1, 2]⟩,
  ⟨.times_row, [.obj .tdense .d true, .obj (.view1D .vec) .d true, .obj (.viewTDense .ten) .d false], .times_row, (some .d), [0, 1, 2]⟩,
  ⟨.times_row, [.obj .tdense .d true, .obj (.view1D .mat) .d true, .obj .tdense .d false], .times_row, (some .d), [0, 1, 2]⟩,
  ⟨.times_row, [.obj .tdense .d true, .obj (.view1D .mat) .d true, .obj (.viewTDense .vec) .d false], .times_row, (some .d), [0, 1, 2]⟩,
  ⟨.times_row, [.obj .tdense .d true, .obj (.view1D .mat) .d true, .obj (.viewTDense .mat) .d false], .times_row, (some .d), [0, 1, 2]⟩,
  ⟨.times_row, [.obj .tdense .d true, .obj (.view1D .mat) .d true, .obj (.viewTDense .ten) .d false], .times_row, (some .d), [0, 1, 2]⟩,
  ⟨.times_row, [.obj .tdense .d true, .obj (.view1D .ten) .d true, .obj .tdense .d false], .times_row, (some .d), [0, 1, 2]⟩,
  ⟨.times_row, [.obj .tdense .d true, .obj (.view1D .ten) .d true, .obj (.viewTDense .vec) .d false], .times_row, (some .d), [0, 1, 2]⟩,
  ⟨.times_row, [.obj .tdense .d true, .obj (.view1D .ten) .d true, .obj (.viewTDense .mat) .d false], .times_row, (some .d), [0, 1, 2]⟩,
  ⟨.times_row, [.obj .tdense .d true, .obj (.view1D .ten) .d true, .obj (.viewTDense .ten) .d false], .times_row, (some .d), [0, 1, 2]⟩,
  ⟨.times_row, [.obj (.viewTDense .vec) .d true, .obj .vector .d true, .obj .tdense .d false], .times_row, (some .d), [0, 1, 2]⟩,
  ⟨.times_row, [.obj (.viewTDense .vec) .d true, .obj .vector .d true, .obj (.viewTDense .vec) .d false], .times_row, (some .d), [0, 1, 2]⟩,
  ⟨.times_row, [.obj (.viewTDense .vec) .d true, .obj .vector .d true, .obj (.viewTDense .mat) .d false], .times_row, (some .d), [0, 1, 2]⟩,
  ⟨.times_row, [.obj (.viewTDense .vec) .d true, .obj .vector .d true, .obj (.viewTDense .ten) .d false], .times_row, (some .d), [0, 1, 2]⟩,
  ⟨.times_row, [.obj (.viewTDense .vec) .d true, .obj (.view1D .vec) .d true, .obj .tdense .d false], .times_row, (some .d), [0, 1, 2]⟩,
  ⟨.times_row, [.obj (.viewTDense .vec) .d true, .obj (.view1D .vec) .d true, .obj (.viewTDense .vec) .d false], .times_row, (some .d), [0, 1, 2]⟩,
  ⟨.times_row, [.obj (.viewTDense .vec) .d true, .obj (.view1D .vec) .d true, .obj (.viewTDense .mat) .d false], .times_row, (some .d), [0, 1, 2]⟩,
  ⟨.times_row, [.obj (.viewTDense .vec) .d true, .obj (.view1D .vec) .d true, .obj (.viewTDense .ten) .d false], .times_row, (some .d), [0, 1, 2]⟩,
  ⟨.times_row, [.obj (.viewTDense .vec) .d true, .obj (.view1D .mat) .d true, .obj .tdense .d false], .times_row, (some .d), [0, 1, 2]⟩,
  ⟨.times_row, [.obj (.viewTDense .vec) .d true, .obj (.view1D .mat) .d true, .obj (.viewTDense .vec) .d false], .times_row, (some .d), [0, 1, 2]⟩,
  ⟨.times_row, [.obj (.viewTDense .vec) .d true, .obj (.view1D .mat) .d true, .obj (.viewTDense .mat) .d false], .times_row, (some .d), [0, 1, 2]⟩,
  ⟨.times_row, [.obj (.viewTDense .vec) .d true, .obj (.view1D .mat) .d true, .obj (.viewTDense .ten) .d false], .times_row, (some .d), [0, 1, 2]⟩,
  ⟨.times_row, [.obj (.viewTDense .vec) .d true, .obj (.view1D .ten) .d true, .obj .tdense .d false], .times_row, (some .d), [0, 1, 2]⟩,
  ⟨.times_row, [.obj (.viewTDense .vec) .d true, .obj (.view1D .ten) .d true, .obj (.viewTDense .vec) .d false], .times_row, (some .d), [0, 1, 2]⟩,
  ⟨.times_row, [.obj (.viewTDense .vec) .d true, .obj (.view1D .ten) .d true, .obj (.viewTDense .mat) .d false], .times_row, (some .d), [0, 1, 2]⟩,
  ⟨.times_row, [.obj (.viewTDense .vec) .d true, .obj (.view1D .ten) .d true, .obj (.viewTDense .ten) .d false], .times_row, (some .d), [0, 1, 2]⟩,
  ⟨.times_row, [.obj (.viewTDense .mat) .d true, .obj .vector .d true, .obj .tdense .d false], .times_row, (some .d), [0, 1, 2]⟩,
  ⟨.times_row, [.obj (.viewTDense .mat) .d true, .obj .vector .d true, .obj (.viewTDense .vec) .d false], .times_row, (some .d), [0, 1, 2]⟩,
  ⟨.times_row, [.obj (.viewTDense .mat) .d true, .obj .vector .d true, .obj (.viewTDense .mat) .d false], .times_row, (some .d), [0, 1, 2]⟩,
  ⟨.times_row, [.obj (.viewTDense .mat) .d true, .obj .vector .d true, .obj (.viewTDense .ten) .d false], .times_row, (some .d), [0, 1, 2]⟩,
  ⟨.times_row, [.obj (.viewTDense .mat) .d true, .obj (.view1D .vec) .d true, .obj .tdense .d false], .times_row, (some .d), [0, 1, 2]⟩,
  ⟨.times_row, [.obj (.viewTDense .mat) .d true, .obj (.view1D .vec) .d true, .obj (.viewTDense .vec) .d false], .times_row, (some .d), [0, 1, 2]⟩,
  ⟨.times_row, [.obj (.viewTDense .mat) .d true, .obj (.view1D .vec) .d true, .obj (.viewTDense .mat) .d false], .times_row, (some .d), [0, 1, 2]⟩,
  ⟨.times_row, [.obj (.viewTDense .mat) .d true, .obj (.view1D .vec) .d true, .obj (.viewTDense .ten) .d false], .times_row, (some .d), [0, 1, 2]⟩,
  ⟨.times_row, [.obj (.viewTDense .mat) .d true, .obj (.view1D .mat) .d true, .obj .tdense .d false], .times_row, (some .d), [0, 1, 2]⟩,
  ⟨.times_row, [.obj (.viewTDense .mat) .d true, .obj (.view1D .mat) .d true, .obj (.viewTDense .vec) .d false], .times_row, (some .d), [0, 1, 2]⟩,
  ⟨.times_row, [.obj (.viewTDense .mat) .d true, .obj (.view1D .mat) .d true, .obj (.viewTDense .mat) .d false], .times_row, (some .d), [0, 1, 2]⟩,
  ⟨.times_row, [.obj (.viewTDense .mat) .d true, .obj (.view1D .mat) .d true, .obj (.viewTDense .ten) .d false], .times_row, (some .d), [0, 1, 2]⟩,
  ⟨.times_row, [.obj (.viewTDense .mat) .d true, .obj (.view1D .ten) .d true, .obj .tdense .d false], .times_row, (some .d), [0, 1, 2]⟩,
  ⟨.times_row, [.obj (.viewTDense .mat) .d true, .obj (.view1D .ten) .d true, .obj (.viewTDense .vec) .d false], .times_row, (some .d), [0, 1, 2]⟩,
  ⟨.times_row, [.obj (.viewTDense .mat) .d true, .obj (.view1D .ten) .d true, .obj (.viewTDense .mat) .d false], .times_row, (some .d), [0, 1, 2]⟩,
  ⟨.times_row, [.obj (.viewTDense .mat) .d true, .obj (.view1D .ten) .d true, .obj (.viewTDense .ten) .d false], .times_row, (some .d), [0, 1, 2]⟩,
  ⟨.times_row, [.obj (.viewTDense .ten) .d true, .obj .vector .d true, .obj .tdense .d false], .times_row, (some .d), [0, 1, 2]⟩,
  ⟨.times_row, [.obj (.viewTDense .ten) .d true, .obj .vector .d true, .obj (.viewTDense .vec) .d false], .times_row, (some .d), [0, 1, 2]⟩,
  ⟨.times_row, [.obj (.viewTDense .ten) .d true, .obj .vector .d true, .obj (.viewTDense .mat) .d false], .times_row, (some .d), [0, 1, 2]⟩,
  ⟨.times_row, [.obj (.viewTDense .ten) .d true, .obj .vector .d true, .obj (.viewTDense .ten) .d false], .times_row, (some .d), [0, 1, 2]⟩,
  ⟨.times_row, [.obj (.viewTDense .ten) .d true, .obj (.view1D .vec) .d true, .obj .tdense .d false], .times_row, (some .d), [0, 1, 2]⟩,
  ⟨.times_row, [.obj (.viewTDense .ten) .d true, .obj (.view1D .vec) .d true, .obj (.viewTDense .vec) .d false], .times_row, (some .d), [0, 1, 2]⟩,
  ⟨.times_row, [.obj (.viewTDense .ten) .d true, .obj (.view1D .vec) .d true, .obj (.viewTDense .mat) .d false], .times_row, (some .d), [0, 1, 2]⟩,
  ⟨.times_row, [.obj (.viewTDense .ten) .d true, .obj (.view1D .vec) .d true, .obj (.viewTDense .ten) .d false], .times_row, (some .d), [0, 1, 2]⟩,
  ⟨.times_row, [.obj (.viewTDense .ten) .d true, .obj (.view1D .mat) .d true, .obj .tdense .d false], .times_row, (some .d), [0, 1, 2]⟩,
  ⟨.times_row, [.obj (.viewTDense .ten) .d true, .obj (.view1D .mat) .d true, .obj (.viewTDense .vec) .d false], .times_row, (some .d), [0, 1, 2]⟩,
  ⟨.times_row, [.obj (.viewTDense .ten) .d true, .obj (.view1D .mat) .d true, .obj (.viewTDense .mat) .d false], .times_row, (some .d), [0, 1, 2]⟩,
  ⟨.times_row, [.obj (.viewTDense .ten) .d true, .obj (.view1D .mat) .d true, .obj (.viewTDense .ten) .d false], .times_row, (some .d), [0, 1, 2]⟩,
  ⟨.times_row, [.obj (.viewTDense .ten) .d true, .obj (.view1D .ten) .d true, .obj .tdense .d false], .times_row, (some .d), [0, 1, 2]⟩,
  ⟨.times_row, [.obj (.viewTDense .ten) .d true, .obj (.view1D .ten) .d true, .obj (.viewTDense .vec) .d false], .times_row, (some .d), [0, 1, 2]⟩,
  ⟨.times_row, [.obj (.viewTDense .ten) .d true, .obj (.view1D .ten) .d true, .obj (.viewTDense .mat) .d false], .times_row, (some .d), [0, 1, 2]⟩,
  ⟨.times_row, [.obj (.viewTDense .ten) .d true, .obj (.view1D .ten) .d true, .obj (.viewTDense .ten) .d false], .times_row, (some .d), [0, 1, 2]⟩,
  ⟨.times_row, [.obj .tcrs .d true, .obj .vector .d true, .obj .tcrs .d false], .times_row, (some .d), [0, 1, 2]⟩,
  ⟨.times_row, [.obj .tcrs .d true, .obj (.view1D .vec) .d true, .obj .tcrs .d false], .times_row, (some .d), [0, 1, 2]⟩,
  ⟨.times_row, [.obj .tcrs .d true, .obj (.view1D .mat) .d true, .obj .tcrs .d false], .times_row, (some .d), [0, 1, 2]⟩,
  ⟨.times_row, [.obj .tcrs .d true, .obj (.view1D .ten) .d true, .obj .tcrs .d false], .times_row, (some .d), [0, 1, 2]⟩,
  ⟨.times_row, [.obj .tdense .s true, .obj .vector .s true, .obj .tdense .s false], .times_row, (some .s), [0, 1, 2]⟩,
  ⟨.times_row, [.obj .tdense .s true, .obj .vector .s true, .obj (.viewTDense .vec) .s false], .times_row, (some .s), [0, 1, 2]⟩,
  ⟨.times_row, [.obj .tdense .s true, .obj .vector .s true, .obj (.viewTDense .mat) .s false], .times_row, (some .s), [0, 1, 2]⟩,
  ⟨.times_row, [.obj .tdense .s true, .obj .vector .s true, .obj (.viewTDense .ten) .s false], .times_row, (some .s), [0, 1, 2]⟩,
  ⟨.times_row, [.obj .tdense .s true, .obj (.view1D .vec) .s true, .obj .tdense .s false], .times_row, (some .s), [0, 1, 2]⟩,
  ⟨.times_row, [.obj .tdense .s true, .obj (.view1D .vec) .s true, .obj (.viewTDense .vec) .s false], .times_row, (some .s), [0, 1, 2]⟩,
  ⟨.times_row, [.obj .tdense .s true, .obj (.view1D .vec) .s true, .obj (.viewTDense .mat) .s false], .times_row, (some .s), [0, 1, 2]⟩,
  ⟨.times_row, [.obj .tdense .s true, .obj (.view1D .vec) .s true, .obj (.viewTDense .ten) .s false], .times_row, (some .s), [0, 1, 2]⟩,
  ⟨.times_row, [.obj .tdense .s true, .obj (.view1D .mat) .s true, .obj .tdense .s false], .times_row, (some .s), [0, 1, 2]⟩,
  ⟨.times_row, [.obj .tdense .s true, .obj (.view1D .mat) .s true, .obj (.viewTDense .vec) .s false], .times_row, (some .s), [0, 1, 2]⟩,
  ⟨.times_row, [.obj .tdense .s true, .obj (.view1D .mat) .s true, .obj (.viewTDense .mat) .s false], .times_row, (some .s), [0, 1, 2]⟩,
  ⟨.times_row, [.obj .tdense .s true, .obj (.view1D .mat) .s true, .obj (.viewTDense .ten) .s false], .times_row, (some .s), [0, 1, 2]⟩]

/-- src/blas/tensor/times/times.cpp:553-944 -/
def tTenTimes_1 : List Overload := [
  ⟨.times_row, [.obj .tdense .s true, .obj (.view1D .ten) .s true, .obj .tdense .s false], .times_row, (some .s), [0, 1, 2]⟩,
  ⟨.times_row, [.obj .tdense .s true, .obj (.view1D .ten) .s true, .obj (.viewTDense .vec) .s false], .times_row, (some .s), [0, 1, 2]⟩,
  ⟨.times_row, [.obj .tdense .s true, .obj (.view1D .ten) .s true, .obj (.viewTDense .mat) .s false], .times_row, (some .s), [0, 1, 2]⟩,
  ⟨.times_row, [.obj .tdense .s true, .obj (.view1D .ten) .s true, .obj (.viewTDense .ten) .s false], .times_row, (some .s), [0, 1, 2]⟩,
  ⟨.times_row, [.obj (.viewTDense .vec) .s true, .obj .vector .s true, .obj .tdense .s false], .times_row, (some .s), [0, 1, 2]⟩,
  ⟨.times_row, [.obj (.viewTDense .vec) .s true, .obj .vector .s true, .obj (.viewTDense .vec) .s false], .times_row, (some .s), [0, 1, 2]⟩,
  ⟨.times_row, [.obj (.viewTDense .vec) .s true, .obj .vector .s true, .obj (.viewTDense .mat) .s false], .times_row, (some .s), [0, 1, 2]⟩,
  ⟨.times_row, [.obj (.viewTDense .vec) .s true, .obj .vector .s true, .obj (.viewTDense .ten) .s false], .times_row, (some .s), [0, 1, 2]⟩,
  ⟨.times_row, [.obj (.viewTDense .vec) .s true, .obj (.view1D .vec) .s true, .obj .tdense .s false], .times_row, (some .s), [0, 1, 2]⟩,
  ⟨.times_row, [.obj (.viewTDense .vec) .s true, .obj (.view1D .vec) .s true, .obj (.viewTDense .vec) .s false], .times_row, (some .s), [0, 1, 2]⟩,
  ⟨.times_row, [.obj (.viewTDense .vec) .s true, .obj (.view1D .vec) .s true, .obj (.viewTDense .mat) .s false], .times_row, (some .s), [0, 1, 2]⟩,
  ⟨.times_row, [.obj (.viewTDense .vec) .s true, .obj (.view1D .vec) .s true, .obj (.viewTDense .ten) .s false], .times_row, (some .s), [0, 1, 2]⟩,
  ⟨.times_row, [.obj (.viewTDense .vec) .s true, .obj (.view1D .mat) .s true, .obj .tdense .s false], .times_row, (some .s), [0, 1, 2]⟩,
  ⟨.times_row, [.obj (.viewTDense .vec) .s true, .obj (.view1D .mat) .s true, .obj (.viewTDense .vec) .s false], .times_row, (some .s), [0, 1, 2]⟩,
  ⟨.times_row, [.obj (.viewTDense .vec) .s true, .obj (.view1D .mat) .s true, .obj (.viewTDense .mat) .s false], .times_row, (some .s), [0, 1, 2]⟩,
  ⟨.times_row, [.obj (.viewTDense .vec) .s true, .obj (.view1D .mat) .s true, .obj (.viewTDense .ten) .s false], .times_row, (some .s), [0, 1, 2]⟩,
  ⟨.times_row, [.obj (.viewTDense .vec) .s true, .obj (.view1D .ten) .s true, .obj .tdense .s false], .times_row, (some .s), [0, 1, 2]⟩,
  ⟨.times_row, [.obj (.viewTDense .vec) .s true, .obj (.view1D .ten) .s true, .obj (.viewTDense .vec) .s false], .times_row, (some .s), [0, 1, 2]⟩,
  ⟨.times_row, [.obj (.viewTDense .vec) .s true, .obj (.view1D .ten) .s true, .obj (.viewTDense .mat) .s false], .times_row, (some .s), [0, 1, 2]⟩,
  ⟨.times_row, [.obj (.viewTDense .vec) .s true, .obj (.view1D .ten) .s true, .obj (.viewTDense .ten) .s false], .times_row, (some .s), [0, 1, 2]⟩,
  ⟨.times_row, [.obj (.viewTDense .mat) .s true, .obj .vector .s true, .obj .tdense .s false], .times_row, (some .s), [0, 1, 2]⟩,
  ⟨.times_row, [.obj (.viewTDense .mat) .s true, .obj .vector .s true, .obj (.viewTDense .vec) .s false], .times_row, (some .s), [0, 1, 2]⟩,
  ⟨.times_row, [.obj (.viewTDense .mat) .s true, .obj .vector .s true, .obj (.viewTDense .mat) .s false], .times_row, (some .s), [0, 1, 2]⟩,
  ⟨.times_row, [.obj (.viewTDense .mat) .s true, .obj .vector .s true, .obj (.viewTDense .ten) .s false], .times_row, (some .s), [0, 1, 2]⟩,
  ⟨.times_row, [.obj (.viewTDense .mat) .s true, .obj (.view1D .vec) .s true, .obj .tdense .s false], .times_row, (some .s), [0, 1, 2]⟩,
  ⟨.times_row, [.obj (.viewTDense .mat) .s true, .obj (.view1D .vec) .s true, .obj (.viewTDense .vec) .s false], .times_row, (some .s), [0, 1, 2]⟩,
  ⟨.times_row, [.obj (.viewTDense .mat) .s true, .obj (.view1D .vec) .s true, .obj (.viewTDense .mat) .s false], .times_row, (some .s), [0, 1, 2]⟩,
  ⟨.times_row, [.obj (.viewTDense .mat) .s true, .obj (.view1D .vec) .s true, .obj (.viewTDense .ten) .s false], .times_row, (some .s), [0, 1, 2]⟩,
  ⟨.times_row, [.obj (.viewTDense .mat) .s true, .obj (.view1D .mat) .s true, .obj .tdense .s false], .times_row, (some .s), [0, 1, 2]⟩,
  ⟨.times_row, [.obj (.viewTDense .mat) .s true, .obj (.view1D .mat) .s true, .obj (.viewTDense .vec) .s false], .times_row, (some .s), [0, 1, 2]⟩,
  ⟨.times_row, [.obj (.viewTDense .mat) .s true, .obj (.view1D .mat) .s true, .obj (.viewTDense .mat) .s false], .times_row, (some .s), [0, 1, 2]⟩,
  ⟨.times_row, [.obj (.viewTDense .mat) .s true, .obj (.view1D .mat) .s true, .obj (.viewTDense .ten) .s false], .times_row, (some .s), [0, 1, 2]⟩,
  ⟨.times_row, [.obj (.viewTDense .mat) .s true, .obj (.view1D .ten) .s true, .obj .tdense .s false], .times_row, (some .s), [0, 1, 2]⟩,
  ⟨.times_row, [.obj (.viewTDense .mat) .s true, .obj (.view1D .ten) .s true, .obj (.viewTDense .vec) .s false], .times_row, (some .s), [0, 1, 2]⟩,
  ⟨.times_row, [.obj (.viewTDense .mat) .s true, .obj (.view1D .ten) .s true, .obj (.viewTDense .mat) .s false], .times_row, (some .s), [0, 1, 2]⟩,
  ⟨.times_row, [.obj (.viewTDense .mat) .s true, .obj (.view1D .ten) .s true, .obj (.viewTDense .ten) .s false], .times_row, (some .s), [0, 1, 2]⟩,
  ⟨.times_row, [.obj (.viewTDense .ten) .s true, .obj .vector .s true, .obj .tdense .s false], .times_row, (some .s), [0, 1, 2]⟩,
  ⟨.times_row, [.obj (.viewTDense .ten) .s true, .obj .vector .s true, .obj (.viewTDense .vec) .s false], .times_row, (some .s), [0, 1, 2]⟩,
  ⟨.times_row, [.obj (.viewTDense .ten) .s true, .obj .vector .s true, .obj (.viewTDense .mat) .s false], .times_row, (some .s), [0, 1, 2]⟩,
  ⟨.times_row, [.obj (.viewTDense .ten) .s true, .obj .vector .s true, .obj (.viewTDense .ten) .s false], .times_row, (some .s), [0, 1, 2]⟩,
  ⟨.times_row, [.obj (.viewTDense .ten) .s true, .obj (.view1D .vec) .s true, .obj .tdense .s false], .times_row, (some .s), [0, 1, 2]⟩,
  ⟨.times_row, [.obj (.viewTDense .ten) .s true, .obj (.view1D .vec) .s true, .obj (.viewTDense .vec) .s false], .times_row, (some .s), [0, 1, 2]⟩,
  ⟨.times_row, [.obj (.viewTDense .ten) .s true, .obj (.view1D .vec) .s true, .obj (.viewTDense .mat) .s false], .times_row, (some .s), [0, 1, 2]⟩,
  ⟨.times_row, [.obj (.viewTDense .ten) .s true, .obj (.view1D .vec) .s true, .obj (.viewTDense .ten) .s false], .times_row, (some .s), [0, 1, 2]⟩,
  ⟨.times_row, [.obj (.viewTDense .ten) .s true, .obj (.view1D .mat) .s true, .obj .tdense .s false], .times_row, (some .s), [0, 1, 2]⟩,
  ⟨.times_row, [.obj (.viewTDense .ten) .s true, .obj (.view1D .mat) .s true, .obj (.viewTDense .vec) .s false], .times_row, (some .s), [0, 1, 2]⟩,
  ⟨.times_row, [.obj (.viewTDense .ten) .s true, .obj (.view1D .mat) .s true, .obj (.viewTDense .mat) .s false], .times_row, (some .s), [0, 1, 2]⟩,
  ⟨.times_row, [.obj (.viewTDense .ten) .s true, .obj (.view1D .mat) .s true, .obj (.viewTDense .ten) .s false], .times_row, (some .s), [0, 1, 2]⟩,
  ⟨.times_row, [.obj (.viewTDense .ten) .s true, .obj (.view1D .ten) .s true, .obj .tdense .s false], .times_row, (some .s), [0, 1, 2]⟩,
  ⟨.times_row, [.obj (.viewTDense .ten) .s true, .obj (.view1D .ten) .s true, .obj (.viewTDense .vec) .s false], .times_row, (some .s), [0, 1, 2]⟩,
  ⟨.times_row, [.obj (.viewTDense .ten) .s true, .obj (.view1D .ten) .s true, .obj (.viewTDense .mat) .s false], .times_row, (some .s), [0, 1, 2]⟩,
  ⟨.times_row, [.obj (.viewTDense .ten) .s true, .obj (.view1D .ten) .s true, .obj (.viewTDense .ten) .s false], .times_row, (some .s), [0, 1, 2]⟩,
  ⟨.times_row, [.obj .tcrs .s true, .obj .vector .s true, .obj .tcrs .s false], .times_row, (some .s), [0, 1, 2]⟩,
  ⟨.times_row, [.obj .tcrs .s true, .obj (.view1D .vec) .s true, .obj .tcrs .s false], .times_row, (some .s), [0, 1, 2]⟩,
  ⟨.times_row, [.obj .tcrs .s true, .obj (.view1D .mat) .s true, .obj .tcrs .s false], .times_row, (some .s), [0, 1, 2]⟩,
  ⟨.times_row, [.obj .tcrs .s true, .obj (.view1D .ten) .s true, .obj .tcrs .s false], .times_row, (some .s), [0, 1, 2]⟩,
  ⟨.times_col, [.obj .tdense .d true, .obj .vector .d true, .obj .tdense .d false], .times_col, (some .d), [0, 1, 2]⟩,
  ⟨.times_col, [.obj .tdense .d true, .obj .vector .d true, .obj (.viewTDense .vec) .d false], .times_col, (some .d), [0, 1, 2]⟩,
  ⟨.times_col, [.obj .tdense .d true, .obj .vector .d true, .obj (.viewTDense .mat) .d false], .times_col, (some .d), [0, 1, 2]⟩,
  ⟨.times_col, [.obj .tdense .d true, .obj .vector .d true, .obj (.viewTDense .ten) .d false], .times_col, (some .d), [0, 1, 2]⟩,
  ⟨.times_col, [.obj .tdense .d true, .obj (.view1D .vec) .d true, .obj .tdense .d false], .times_col, (some .d), [0, 1, 2]⟩,
  ⟨.times_col, [.obj .tdense .d true, .obj (.view1D .vec) .d true, .obj (.viewTDense .vec) .d false], .times_col, (some .d), [0, 1, 2]⟩,
  ⟨.times_col, [.obj .tdense .d true, .obj (.view1D .vec) .d true, .obj (.viewTDense .mat) .d false], .times_col, (some .d), [0, 1, 2]⟩,
  ⟨.times_col, [.obj .tdense .d true, .obj (.view1D .vec) .d true, .obj (.viewTDense .ten) .d false], .times_col, (some .d), [0, 1, 2]⟩,
  ⟨.times_col, [.obj .tdense .d true, .obj (.view1D .mat) .d true, .obj .tdense .d false], .times_col, (some .d), [0, 1, 2]⟩,
  ⟨.times_col, [.obj .tdense .d true, .obj (.view1D .mat) .d true, .obj (.viewTDense .vec) .d false], .times_col, (some .d), [0, 1, 2]⟩,
  ⟨.times_col, [.obj .tdense .d true, .obj (.view1D .mat) .d true, .obj (.viewTDense .mat) .d false], .times_col, (some .d), [0, 1, 2]⟩,
  ⟨.times_col, [.obj .tdense .d true, .obj (.view1D .mat) .d true, .obj (.viewTDense .ten) .d false], .times_col, (some .d), [0, 1, 2]⟩,
  ⟨.times_col, [.obj .tdense .d true, .obj (.view1D .ten) .d true, .obj .tdense .d false], .times_col, (some .d), [0, 1, 2]⟩,
  ⟨.times_col, [.obj .tdense .d true, .obj (.view1D .ten) .d true, .obj (.viewTDense .vec) .d false], .times_col, (some .d), [0, 1, 2]⟩,
  ⟨.times_col, [.obj .tdense .d true, .obj (.view1D .ten) .d true, .obj (.viewTDense .mat) .d false], .times_col, (some .d), [0, 1, 2]⟩,
  ⟨.times_col, [.obj .tdense .d true, .obj (.view1D .ten) .d true, .obj (.viewTDense .ten) .d false], .times_col, (some .d), [0, 1, 2]⟩,
  ⟨.times_col, [.obj (.viewTDense .vec) .d true, .obj .vector .d true, .obj .tdense .d false], .times_col, (some .d), [0, 1, 2]⟩,
  ⟨.times_col, [.obj (.viewTDense .vec) .d true, .obj .vector .d true, .obj (.viewTDense .vec) .d false], .times_col, (some .d), [0, 1, 2]⟩,
  ⟨.times_col, [.obj (.viewTDense .vec) .d true, .obj .vector .d true, .obj (.viewTDense .mat) .d false], .times_col, (some .d), [0, 1, 2]⟩,
  ⟨.times_col, [.obj (.viewTDense .vec) .d true, .obj .vector .d true, .obj (.viewTDense .ten) .d false], .times_col, (some .d), [0, 1, 2]⟩,
  ⟨.times_col, [.obj (.viewTDense .vec) .d true, .obj (.view1D .vec) .d true, .obj .tdense .d false], .times_col, (some .d), [0, 1, 2]⟩,
  ⟨.times_col, [.obj (.viewTDense .vec) .d true, .obj (.view1D .vec) .d true, .obj (.viewTDense .vec) .d false], .times_col, (some .d), [0, 1, 2]⟩,
  ⟨.times_col, [.obj (.viewTDense .vec) .d true, .obj (.view1D .vec) .d true, .obj (.viewTDense .mat) .d false], .times_col, (some .d), [0, 1, 2]⟩,
  ⟨.times_col, [.obj (.viewTDense .vec) .d true, .obj (.view1D .vec) .d true, .obj (.viewTDense .ten) .d false], .times_col, (some .d), [0, 1, 2]⟩]

/-- src/blas/tensor/times/times.cpp:945-1336 -/
def tTenTimes_2 : List Overload := [
  ⟨.times_col, [.obj (.viewTDense .vec) .d true, .obj (.view1D .mat) .d true, .obj .tdense .d false], .times_col, (some .d), [0, 1, 2]⟩,
  ⟨.times_col, [.obj (.viewTDense .vec) .d true, .obj (.view1D .mat) .d true, .obj (.viewTDense .vec) .d false], .times_col, (some .d), [0, 1, 2]⟩,
  ⟨.times_col, [.obj (.viewTDense .vec) .d true, .obj (.view1D .mat) .d true, .obj (.viewTDense .mat) .d false], .times_col, (some .d), [0, 1, 2]⟩,
  ⟨.times_col, [.obj (.viewTDense .vec) .d true, .obj (.view1D .mat) .d true, .obj (.viewTDense .ten) .d false], .times_col, (some .d), [0, 1, 2]⟩,
  ⟨.times_col, [.obj (.viewTDense .vec) .d true, .obj (.view1D .ten) .d true, .obj .tdense .d false], .times_col, (some .d), [0, 1, 2]⟩,
  ⟨.times_col, [.obj (.viewTDense .vec) .d true, .obj (.view1D .ten) .d true, .obj (.viewTDense .vec) .d false], .times_col, (some .d), [0, 1, 2]⟩,
  ⟨.times_col, [.obj (.viewTDense .vec) .d true, .obj (.view1D .ten) .d true, .obj (.viewTDense .mat) .d false], .times_col, (some .d), [0, 1, 2]⟩,
  ⟨.times_col, [.obj (.viewTDense .vec) .d true, .obj (.view1D .ten) .d true, .obj (.viewTDense .ten) .d false], .times_col, (some .d), [0, 1, 2]⟩,
  ⟨.times_col, [.obj (.viewTDense .mat) .d true, .obj .vector .d true, .obj .tdense .d false], .times_col, (some .d), [0, 1, 2]⟩,
  ⟨.times_col, [.obj (.viewTDense .mat) .d true, .obj .vector .d true, .obj (.viewTDense .vec) .d false], .times_col, (some .d), [0, 1, 2]⟩,
  ⟨.times_col, [.obj (.viewTDense .mat) .d true, .obj .vector .d true, .obj (.viewTDense .mat) .d false], .times_col, (some .d), [0, 1, 2]⟩,
  ⟨.times_col, [.obj (.viewTDense .mat) .d true, .obj .vector .d true, .obj (.viewTDense .ten) .d false], .times_col, (some .d), [0, 1, 2]⟩,
  ⟨.times_col, [.obj (.viewTDense .mat) .d true, .obj (.view1D .vec) .d true, .obj .tdense .d false], .times_col, (some .d), [0, 1, 2]⟩,
  ⟨.times_col, [.obj (.viewTDense .mat) .d true, .obj (.view1D .vec) .d true, .obj (.viewTDense .vec) .d false], .times_col, (some .d), [0, 1, 2]⟩,
  ⟨.times_col, [.obj (.viewTDense .mat) .d true, .obj (.view1D .vec) .d true, .obj (.viewTDense .mat) .d false], .times_col, (some .d), [0, 1, 2]⟩,
  ⟨.times_col, [.obj (.viewTDense .mat) .d true, .obj (.view1D .vec) .d true, .obj (.viewTDense .ten) .d false], .times_col, (some .d), [0, 1, 2]⟩,
  ⟨.times_col, [.obj (.viewTDense .mat) .d true, .obj (.view1D .mat) .d true, .obj .tdense .d false], .times_col, (some .d), [0, 1, 2]⟩,
  ⟨.times_col, [.obj (.viewTDense .mat) .d true, .obj (.view1D .mat) .d true, .obj (.viewTDense .vec) .d false], .times_col, (some .d), [0, 1, 2]⟩,
  ⟨.times_col, [.obj (.viewTDense .mat) .d true, .obj (.view1D .mat) .d true, .obj (.viewTDense .mat) .d false], .times_col, (some .d), [0, 1, 2]⟩,
  ⟨.times_col, [.obj (.viewTDense .mat) .d true, .obj (.view1D .mat) .d true, .obj (.viewTDense .ten) .d false], .times_col, (some .d), [0, 1, 2]⟩,
  ⟨.times_col, [.obj (.viewTDense .mat) .d true, .obj (.view1D .ten) .d true, .obj .tdense .d false], .times_col, (some .d), [0, 1, 2]⟩,
  ⟨.times_col, [.obj (.viewTDense .mat) .d true, .obj (.view1D .ten) .d true, .obj (.viewTDense .vec) .d false], .times_col, (some .d), [0, 1, 2]⟩,
  ⟨.times_col, [.obj (.viewTDense .mat) .d true, .obj (.view1D .ten) .d true, .obj (.viewTDense .mat) .d false], .times_col, (some .d), [0, 1, 2]⟩,
  ⟨.times_col, [.obj (.viewTDense .mat) .d true, .obj (.view1D .ten) .d true, .obj (.viewTDense .ten) .d false], .times_col, (some .d), [0, 1, 2]⟩,
  ⟨.times_col, [.obj (.viewTDense .ten) .d true, .obj .vector .d true, .obj .tdense .d false], .times_col, (some .d), [0, 1, 2]⟩,
  ⟨.times_col, [.obj (.viewTDense .ten) .d true, .obj .vector .d true, .obj (.viewTDense .vec) .d false], .times_col, (some .d), [0, 1, 2]⟩,
  ⟨.times_col, [.obj (.viewTDense .ten) .d true, .obj .vector .d true, .obj (.viewTDense .mat) .d false], .times_col, (some .d), [0, 1, 2]⟩,
  ⟨.times_col, [.obj (.viewTDense .ten) .d true, .obj .vector .d true, .obj (.viewTDense .ten) .d false], .times_col, (some .d), [0, 1, 2]⟩,
  ⟨.times_col, [.obj (.viewTDense .ten) .d true, .obj (.view1D .vec) .d true, .obj .tdense .d false], .times_col, (some .d), [0, 1, 2]⟩,
  ⟨.times_col, [.obj (.viewTDense .ten) .d true, .obj (.view1D .vec) .d true, .obj (.viewTDense .vec) .d false], .times_col, (some .d), [0, 1, 2]⟩,
  ⟨.times_col, [.obj (.viewTDense .ten) .d true, .obj (.view1D .vec) .d true, .obj (.viewTDense .mat) .d false], .times_col, (some .d), [0, 1, 2]⟩,
  ⟨.times_col, [.obj (.viewTDense .ten) .d true, .obj (.view1D .vec) .d true, .obj (.viewTDense .ten) .d false], .times_col, (some .d), [0, 1, 2]⟩,
  ⟨.times_col, [.obj (.viewTDense .ten) .d true, .obj (.view1D .mat) .d true, .obj .tdense .d false], .times_col, (some .d), [0, 1, 2]⟩,
  ⟨.times_col, [.obj (.viewTDense .ten) .d true, .obj (.view1D .mat) .d true, .obj (.viewTDense .vec) .d false], .times_col, (some .d), [0, 1, 2]⟩,
  ⟨.times_col, [.obj (.viewTDense .ten) .d true, .obj (.view1D .mat) .d true, .obj (.viewTDense .mat) .d false], .times_col, (some .d), [0, 1, 2]⟩,
  ⟨.times_col, [.obj (.viewTDense .ten) .d true, .obj (.view1D .mat) .d true, .obj (.viewTDense .ten) .d false], .times_col, (some .d), [0, 1, 2]⟩,
  ⟨.times_col, [.obj (.viewTDense .ten) .d true, .obj (.view1D .ten) .d true, .obj .tdense .d false], .times_col, (some .d), [0, 1, 2]⟩,
  ⟨.times_col, [.obj (.viewTDense .ten) .d true, .obj (.view1D .ten) .d true, .obj (.viewTDense .vec) .d false], .times_col, (some .d), [0, 1, 2]⟩,
  ⟨.times_col, [.obj (.viewTDense .ten) .d true, .obj (.view1D .ten) .d true, .obj (.viewTDense .mat) .d false], .times_col, (some .d), [0, 1, 2]⟩,
  ⟨.times_col, [.obj (.viewTDense .ten) .d true, .obj (.view1D .ten) .d true, .obj (.viewTDense .ten) .d false], .times_col, (some .d), [0, 1, 2]⟩,
  ⟨.times_col, [.obj .tdense .s true, .obj .vector .s true, .obj .tdense .s false], .times_col, (some .s), [0, 1, 2]⟩,
  ⟨.times_col, [.obj .tdense .s true, .obj .vector .s true, .obj (.viewTDense .vec) .s false], .times_col, (some .s), [0, 1, 2]⟩,
  ⟨.times_col, [.obj .tdense .s true, .obj .vector .s true, .obj (.viewTDense .mat) .s false], .times_col, (some .s), [0, 1, 2]⟩,
  ⟨.times_col, [.obj .tdense .s true, .obj .vector .s true, .obj (.viewTDense .ten) .s false], .times_col, (some .s), [0, 1, 2]⟩,
  ⟨.times_col, [.obj .tdense .s true, .obj (.view1D .vec) .s true, .obj .tdense .s false], .times_col, (some .s), [0, 1, 2]⟩,
  ⟨.times_col, [.obj .tdense .s true, .obj (.view1D .vec) .s true, .obj (.viewTDense .vec) .s false], .times_col, (some .s), [0, 1, 2]⟩,
  ⟨.times_col, [.obj .tdense .s true, .obj (.view1D .vec) .s true, .obj (.viewTDense .mat) .s false], .times_col, (some .s), [0, 1, 2]⟩,
  ⟨.times_col, [.obj .tdense .s true, .obj (.view1D .vec) .s true, .obj (.viewTDense .ten) .s false], .times_col, (some .s), [0, 1, 2]⟩,
  ⟨.times_col, [.obj .tdense .s true, .obj (.view1D .mat) .s true, .obj .tdense .s false], .times_col, (some .s), [0, 1, 2]⟩,
  ⟨.times_col, [.obj .tdense .s true, .obj (.view1D .mat) .s true, .obj (.viewTDense .vec) .s false], .times_col, (some .s), [0, 1, 2]⟩,
  ⟨.times_col, [.obj .tdense .s true, .obj (.view1D .mat) .s true, .obj (.viewTDense .mat) .s false], .times_col, (some .s), [0, 1, 2]⟩,
  ⟨.times_col, [.obj .tdense .s true, .obj (.view1D .mat) .s true, .obj (.viewTDense .ten) .s false], .times_col, (some .s), [0, 1, 2]⟩,
  ⟨.times_col, [.obj .tdense .s true, .obj (.view1D .ten) .s true, .obj .tdense .s false], .times_col, (some .s), [0, 1, 2]⟩,
  ⟨.times_col, [.obj .tdense .s true, .obj (.view1D .ten) .s true, .obj (.viewTDense .vec) .s false], .times_col, (some .s), [0, 1, 2]⟩,
  ⟨.times_col, [.obj .tdense .s true, .obj (.view1D .ten) .s true, .obj (.viewTDense .mat) .s false], .times_col, (some .s), [0, 1, 2]⟩,
  ⟨.times_col, [.obj .tdense .s true, .obj (.view1D .ten) .s true, .obj (.viewTDense .ten) .s false], .times_col, (some .s), [0, 1, 2]⟩,
  ⟨.times_col, [.obj (.viewTDense .vec) .s true, .obj .vector .s true, .obj .tdense .s false], .times_col, (some .s), [0, 1, 2]⟩,
  ⟨.times_col, [.obj (.viewTDense .vec) .s true, .obj .vector .s true, .obj (.viewTDense .vec) .s false], .times_col, (some .s), [0, 1, 2]⟩,
  ⟨.times_col, [.obj (.viewTDense .vec) .s true, .obj .vector .s true, .obj (.viewTDense .mat) .s false], .times_col, (some .s), [0, 1, 2]⟩,
  ⟨.times_col, [.obj (.viewTDense .vec) .s true, .obj .vector .s true, .obj (.viewTDense .ten) .s false], .times_col, (some .s), [0, 1, 2]⟩,
  ⟨.times_col, [.obj (.viewTDense .vec) .s true, .obj (.view1D .vec) .s true, .obj .tdense .s false], .times_col, (some .s), [0, 1, 2]⟩,
  ⟨.times_col, [.obj (.viewTDense .vec) .s true, .obj (.view1D .vec) .s true, .obj (.viewTDense .vec) .s false], .times_col, (some .s), [0, 1, 2]⟩,
  ⟨.times_col, [.obj (.viewTDense .vec) .s true, .obj (.view1D .vec) .s true, .obj (.viewTDense .mat) .s false], .times_col, (some .s), [0, 1, 2]⟩,
  ⟨.times_col, [.obj (.viewTDense .vec) .s true, .obj (.view1D .vec) .s true, .obj (.viewTDense .ten) .s false], .times_col, (some .s), [0, 1, 2]⟩,
  ⟨.times_col, [.obj (.viewTDense .vec) .s true, .obj (.view1D .mat) .s true, .obj .tdense .s false], .times_col, (some .s), [0, 1, 2]⟩,
  ⟨.times_col, [.obj (.viewTDense .vec) .s true, .obj (.view1D .mat) .s true, .obj (.viewTDense .vec) .s false], .times_col, (some .s), [0, 1, 2]⟩,
  ⟨.times_col, [.obj (.viewTDense .vec) .s true, .obj (.view1D .mat) .s true, .obj (.viewTDense .mat) .s false], .times_col, (some .s), [0, 1, 2]⟩,
  ⟨.times_col, [.obj (.viewTDense .vec) .s true, .obj (.view1D .mat) .s true, .obj (.viewTDense .ten) .s false], .times_col, (some .s), [0, 1, 2]⟩,
  ⟨.times_col, [.obj (.viewTDense .vec) .s true, .obj (.view1D .ten) .s true, .obj .tdense .s false], .times_col, (some .s), [0, 1, 2]⟩,
  ⟨.times_col, [.obj (.viewTDense .vec) .s true, .obj (.view1D .ten) .s true, .obj (.viewTDense .vec) .s false], .times_col, (some .s), [0, 1, 2]⟩,
  ⟨.times_col, [.obj (.viewTDense .vec) .s true, .obj (.view1D .ten) .s true, .obj (.viewTDense .mat) .s false], .times_col, (some .s), [0, 1, 2]⟩,
  ⟨.times_col, [.obj (.viewTDense .vec) .s true, .obj (.view1D .ten) .s true, .obj (.viewTDense .ten) .s false], .times_col, (some .s), [0, 1, 2]⟩,
  ⟨.times_col, [.obj (.viewTDense .mat) .s true, .obj .vector .s true, .obj .tdense .s false], .times_col, (some .s), [0, 1, 2]⟩,
  ⟨.times_col, [.obj (.viewTDense .mat) .s true, .obj .vector .s true, .obj (.viewTDense .vec) .s false], .times_col, (some .s), [0, 1, 2]⟩,
  ⟨.times_col, [.obj (.viewTDense .mat) .s true, .obj .vector .s true, .obj (.viewTDense .mat) .s false], .times_col, (some .s), [0, 1, 2]⟩,
  ⟨.times_col, [.obj (.viewTDense .mat) .s true, .obj .vector .s true, .obj (.viewTDense .ten) .s false], .times_col, (some .s), [0, 1, 2]⟩,
  ⟨.times_col, [.obj (.viewTDense .mat) .s true, .obj (.view1D .vec) .s true, .obj .tdense .s false], .times_col, (some .s), [0, 1, 2]⟩,
  ⟨.times_col, [.obj (.viewTDense .mat) .s true, .obj (.view1D .vec) .s true, .obj (.viewTDense .vec) .s false], .times_col, (some .s), [0, 1, 2]⟩,
  ⟨.times_col, [.obj (.viewTDense .mat) .s true, .obj (.view1D .vec) .s true, .obj (.viewTDense .mat) .s false], .times_col, (some .s), [0, 1, 2]⟩,
  ⟨.times_col, [.obj (.viewTDense .mat) .s true, .obj (.view1D .vec) .s true, .obj (.viewTDense .ten) .s false], .times_col, (some .s), [0, 1, 2]⟩]

/-- src/blas/tensor/times/times.cpp:1337-1743 -/
def tTenTimes_3 : List Overload := [
  ⟨.times_col, [.obj (.viewTDense .mat) .s true, .obj (.view1D .mat) .s true, .obj .tdense .s false], .times_col, (some .s), [0, 1, 2]⟩,
  ⟨.times_col, [.obj (.viewTDense .mat) .s true, .obj (.view1D .mat) .s true, .obj (.viewTDense .vec) .s false], .times_col, (some .s), [0, 1, 2]⟩,
  ⟨.times_col, [.obj (.viewTDense .mat) .s true, .obj (.view1D .mat) .s true, .obj (.viewTDense .mat) .s false], .times_col, (some .s), [0, 1, 2]⟩,
  ⟨.times_col, [.obj (.viewTDense .mat) .s true, .obj (.view1D .mat) .s true, .obj (.viewTDense .ten) .s false], .times_col, (some .s), [0, 1, 2]⟩,
  ⟨.times_col, [.obj (.viewTDense .mat) .s true, .obj (.view1D .ten) .s true, .obj .tdense .s false], .times_col, (some .s), [0, 1, 2]⟩,
  ⟨.times_col, [.obj (.viewTDense .mat) .s true, .obj (.view1D .ten) .s true, .obj (.viewTDense .vec) .s false], .times_col, (some .s), [0, 1, 2]⟩,
  ⟨.times_col, [.obj (.viewTDense .mat) .s true, .obj (.view1D .ten) .s true, .obj (.viewTDense .mat) .s false], .times_col, (some .s), [0, 1, 2]⟩,
  ⟨.times_col, [.obj (.viewTDense .mat) .s true, .obj (.view1D .ten) .s true, .obj (.viewTDense .ten) .s false], .times_col, (some .s), [0, 1, 2]⟩,
  ⟨.times_col, [.obj (.viewTDense .ten) .s true, .obj .vector .s true, .obj .tdense .s false], .times_col, (some .s), [0, 1, 2]⟩,
  ⟨.times_col, [.obj (.viewTDense .ten) .s true, .obj .vector .s true, .obj (.viewTDense .vec) .s false], .times_col, (some .s), [0, 1, 2]⟩,
  ⟨.times_col, [.obj (.viewTDense .ten) .s true, .obj .vector .s true, .obj (.viewTDense .mat) .s false], .times_col, (some .s), [0, 1, 2]⟩,
  ⟨.times_col, [.obj (.viewTDense .ten) .s true, .obj .vector .s true, .obj (.viewTDense .ten) .s false], .times_col, (some .s), [0, 1, 2]⟩,
  ⟨.times_col, [.obj (.viewTDense .ten) .s true, .obj (.view1D .vec) .s true, .obj .tdense .s false], .times_col, (some .s), [0, 1, 2]⟩,
  ⟨.times_col, [.obj (.viewTDense .ten) .s true, .obj (.view1D .vec) .s true, .obj (.viewTDense .vec) .s false], .times_col, (some .s), [0, 1, 2]⟩,
  ⟨.times_col, [.obj (.viewTDense .ten) .s true, .obj (.view1D .vec) .s true, .obj (.viewTDense .mat) .s false], .times_col, (some .s), [0, 1, 2]⟩,
  ⟨.times_col, [.obj (.viewTDense .ten) .s true, .obj (.view1D .vec) .s true, .obj (.viewTDense .ten) .s false], .times_col, (some .s), [0, 1, 2]⟩,
  ⟨.times_col, [.obj (.viewTDense .ten) .s true, .obj (.view1D .mat) .s true, .obj .tdense .s false], .times_col, (some .s), [0, 1, 2]⟩,
  ⟨.times_col, [.obj (.viewTDense .ten) .s true, .obj (.view1D .mat) .s true, .obj (.viewTDense .vec) .s false], .times_col, (some .s), [0, 1, 2]⟩,
  ⟨.times_col, [.obj (.viewTDense .ten) .s true, .obj (.view1D .mat) .s true, .obj (.viewTDense .mat) .s false], .times_col, (some .s), [0, 1, 2]⟩,
  ⟨.times_col, [.obj (.viewTDense .ten) .s true, .obj (.view1D .mat) .s true, .obj (.viewTDense .ten) .s false], .times_col, (some .s), [0, 1, 2]⟩,
  ⟨.times_col, [.obj (.viewTDense .ten) .s true, .obj (.view1D .ten) .s true, .obj .tdense .s false], .times_col, (some .s), [0, 1, 2]⟩,
  ⟨.times_col, [.obj (.viewTDense .ten) .s true, .obj (.view1D .ten) .s true, .obj (.viewTDense .vec) .s false], .times_col, (some .s), [0, 1, 2]⟩,
  ⟨.times_col, [.obj (.viewTDense .ten) .s true, .obj (.view1D .ten) .s true, .obj (.viewTDense .mat) .s false], .times_col, (some .s), [0, 1, 2]⟩,
  ⟨.times_col, [.obj (.viewTDense .ten) .s true, .obj (.view1D .ten) .s true, .obj (.viewTDense .ten) .s false], .times_col, (some .s), [0, 1, 2]⟩,
  ⟨.times_row, [.obj .tdense .d true, .num, .obj .vector .d true, .obj .tdense .d false], .times_row, (some .d), [0, 1, 2, 3]⟩,
  ⟨.times_row, [.obj .tdense .d true, .num, .obj .vector .d true, .obj (.viewTDense .vec) .d false], .times_row, (some .d), [0, 1, 2, 3]⟩,
  ⟨.times_row, [.obj .tdense .d true, .num, .obj .vector .d true, .obj (.viewTDense .mat) .d false], .times_row, (some .d), [0, 1, 2, 3]⟩,
  ⟨.times_row, [.obj .tdense .d true, .num, .obj .vector .d true, .obj (.viewTDense .ten) .d false], .times_row, (some .d), [0, 1, 2, 3]⟩,
  ⟨.times_row, [.obj .tdense .d true, .num, .obj (.view1D .vec) .d true, .obj .tdense .d false], .times_row, (some .d), [0, 1, 2, 3]⟩,
  ⟨.times_row, [.obj .tdense .d true, .num, .obj (.view1D .vec) .d true, .obj (.viewTDense .vec) .d false], .times_row, (some .d), [0, 1, 2, 3]⟩,
  ⟨.times_row, [.obj .tdense .d true, .num, .obj (.view1D .vec) .d true, .obj (.viewTDense .mat) .d false], .times_row, (some .d), [0, 1, 2, 3]⟩,
  ⟨.times_row, [.obj .tdense .d true, .num, .obj (.view1D .vec) .d true, .obj (.viewTDense .ten) .d false], .times_row, (some .d), [0, 1, 2, 3]⟩,
  ⟨.times_row, [.obj .tdense .d true, .num, .obj (.view1D .mat) .d true, .obj .tdense .d false], .times_row, (some .d), [0, 1, 2, 3]⟩,
  ⟨.times_row, [.obj .tdense .d true, .num, .obj (.view1D .mat) .d true, .obj (.viewTDense .vec) .d false], .times_row, (some .d), [0, 1, 2, 3]⟩,
  ⟨.times_row, [.obj .tdense .d true, .num, .obj (.view1D .mat) .d true, .obj (.viewTDense .mat) .d false], .times_row, (some .d), [0, 1, 2, 3]⟩,
  ⟨.times_row, [.obj .tdense .d true, .num, .obj (.view1D .mat) .d true, .obj (.viewTDense .ten) .d false], .times_row, (some .d), [0, 1, 2, 3]⟩,
  ⟨.times_row, [.obj .tdense .d true, .num, .obj (.view1D .ten) .d true, .obj .tdense .d false], .times_row, (some .d), [0, 1, 2, 3]⟩,
  ⟨.times_row, [.obj .tdense .d true, .num, .obj (.view1D .ten) .d true, .obj (.viewTDense .vec) .d false], .times_row, (some .d), [0, 1, 2, 3]⟩,
  ⟨.times_row, [.obj .tdense .d true, .num, .obj (.view1D .ten) .d true, .obj (.viewTDense .mat) .d false], .times_row, (some .d), [0, 1, 2, 3]⟩,
  ⟨.times_row, [.obj .tdense .d true, .num, .obj (.view1D .ten) .d true, .obj (.viewTDense .ten) .d false], .times_row, (some .d), [0, 1, 2, 3]⟩,
  ⟨.times_row, [.obj (.viewTDense .vec) .d true, .num, .obj .vector .d true, .obj .tdense .d false], .times_row, (some .d), [0, 1, 2, 3]⟩,
  ⟨.times_row, [.obj (.viewTDense .vec) .d true, .num, .obj .vector .d true, .obj (.viewTDense .vec) .d false], .times_row, (some .d), [0, 1, 2, 3]⟩,
  ⟨.times_row, [.obj (.viewTDense .vec) .d true, .num, .obj .vector .d true, .obj (.viewTDense .mat) .d false], .times_row, (some .d), [0, 1, 2, 3]⟩,
  ⟨.times_row, [.obj (.viewTDense .vec) .d true, .num, .obj .vector .d true, .obj (.viewTDense .ten) .d false], .times_row, (some .d), [0, 1, 2, 3]⟩,
  ⟨.times_row, [.obj (.viewTDense .vec) .d true, .num, .obj (.view1D .vec) .d true, .obj .tdense .d false], .times_row, (some .d), [0, 1, 2, 3]⟩,
  ⟨.times_row, [.obj (.viewTDense .vec) .d true, .num, .obj (.view1D .vec) .d true, .obj (.viewTDense .vec) .d false], .times_row, (some .d), [0, 1, 2, 3]⟩,
  ⟨.times_row, [.obj (.viewTDense .vec) .d true, .num, .obj (.view1D .vec) .d true, .obj (.viewTDense .mat) .d false], .times_row, (some .d), [0, 1, 2, 3]⟩,
  ⟨.times_row, [.obj (.viewTDense .vec) .d true, .num, .obj (.view1D .vec) .d true, .obj (.viewTDense .ten) .d false], .times_row, (some .d), [0, 1, 2, 3]⟩,
  ⟨.times_row, [.obj (.viewTDense .vec) .d true, .num, .obj (.view1D .mat) .d true, .obj .tdense .d false], .times_row, (some .d), [0, 1, 2, 3]⟩,
  ⟨.times_row, [.obj (.viewTDense .vec) .d true, .num, .obj (.view1D .mat) .d true, .obj (.viewTDense .vec) .d false], .times_row, (some .d), [0, 1, 2, 3]⟩,
  ⟨.times_row, [.obj (.viewTDense .vec) .d true, .num, .obj (.view1D .mat) .d true, .obj (.viewTDense .mat) .d false], .times_row, (some .d), [0, 1, 2, 3]⟩,
  ⟨.times_row, [.obj (.viewTDense .vec) .d true, .num, .obj (.view1D .mat) .d true, .obj (.viewTDense .ten) .d false], .times_row, (some .d), [0, 1, 2, 3]⟩,
  ⟨.times_row, [.obj (.viewTDense .vec) .d true, .num, .obj (.view1D .ten) .d true, .obj .tdense .d false], .times_row, (some .d), [0, 1, 2, 3]⟩,
  ⟨.times_row, [.obj (.viewTDense .vec) .d true, .num, .obj (.view1D .ten) .d true, .obj (.viewTDense .vec) .d false], .times_row, (some .d), [0, 1, 2, 3]⟩,
  ⟨.times_row, [.obj (.viewTDense .vec) .d true, .num, .obj (.view1D .ten) .d true, .obj (.viewTDense .mat) .d false], .times_row, (some .d), [0, 1, 2, 3]⟩,
  ⟨.times_row, [.obj (.viewTDense .vec) .d true, .num, .obj (.view1D .ten) .d true, .obj (.viewTDense .ten) .d false], .times_row, (some .d), [0, 1, 2, 3]⟩,
  ⟨.times_row, [.obj (.viewTDense .mat) .d true, .num, .obj .vector .d true, .obj .tdense .d false], .times_row, (some .d), [0, 1, 2, 3]⟩,
  ⟨.times_row, [.obj (.viewTDense .mat) .d true, .num, .obj .vector .d true, .obj (.viewTDense .vec) .d false], .times_row, (some .d), [0, 1, 2, 3]⟩,
  ⟨.times_row, [.obj (.viewTDense .mat) .d true, .num, .obj .vector .d true, .obj (.viewTDense .mat) .d false], .times_row, (some .d), [0, 1, 2, 3]⟩,
  ⟨.times_row, [.obj (.viewTDense .mat) .d true, .num, .obj .vector .d true, .obj (.viewTDense .ten) .d false], .times_row, (some .d), [0, 1, 2, 3]⟩,
  ⟨.times_row, [.obj (.viewTDense .mat) .d true, .num, .obj (.view1D .vec) .d true, .obj .tdense .d false], .times_row, (some .d), [0, 1, 2, 3]⟩,
  ⟨.times_row, [.obj (.viewTDense .mat) .d true, .num, .obj (.view1D .vec) .d true, .obj (.viewTDense .vec) .d false], .times_row, (some .d), [0, 1, 2, 3]⟩,
  ⟨.times_row, [.obj (.viewTDense .mat) .d true, .num, .obj (.view1D .vec) .d true, .obj (.viewTDense .mat) .d false], .times_row, (some .d), [0, 1, 2, 3]⟩,
  ⟨.times_row, [.obj (.viewTDense .mat) .d true, .num, .obj (.view1D .vec) .d true, .obj (.viewTDense .ten) .d false], .times_row, (some .d), [0, 1, 2, 3]⟩,
  ⟨.times_row, [.obj (.viewTDense .mat) .d true, .num, .obj (.view1D .mat) .d true, .obj .tdense .d false], .times_row, (some .d), [0, 1, 2, 3]⟩,
  ⟨.times_row, [.obj (.viewTDense .mat) .d true, .num, .obj (.view1D .mat) .d true, .obj (.viewTDense .vec) .d false], .times_row, (some .d), [0, 1, 2, 3]⟩,
  ⟨.times_row, [.obj (.viewTDense .mat) .d true, .num, .obj (.view1D .mat) .d true, .obj (.viewTDense .mat) .d false], .times_row, (some .d), [0, 1, 2, 3]⟩,
  ⟨.times_row, [.obj (.viewTDense .mat) .d true, .num, .obj (.view1D .mat) .d true, .obj (.viewTDense .ten) .d false], .times_row, (some .d), [0, 1, 2, 3]⟩,
  ⟨.times_row, [.obj (.viewTDense .mat) .d true, .num, .obj (.view1D .ten) .d true, .obj .tdense .d false], .times_row, (some .d), [0, 1, 2, 3]⟩,
  ⟨.times_row, [.obj (.viewTDense .mat) .d true, .num, .obj (.view1D .ten) .d true, .obj (.viewTDense .vec) .d false], .times_row, (some .d), [0, 1, 2, 3]⟩,
  ⟨.times_row, [.obj (.viewTDense .mat) .d true, .num, .obj (.view1D .ten) .d true, .obj (.viewTDense .mat) .d false], .times_row, (some .d), [0, 1, 2, 3]⟩,
  ⟨.times_row, [.obj (.viewTDense .mat) .d true, .num, .obj (.view1D .ten) .d true, .obj (.viewTDense .ten) .d false], .times_row, (some .d), [0, 1, 2, 3]⟩,
  ⟨.times_row, [.obj (.viewTDense .ten) .d true, .num, .obj .vector .d true, .obj .tdense .d false], .times_row, (some .d), [0, 1, 2, 3]⟩,
  ⟨.times_row, [.obj (.viewTDense .ten) .d true, .num, .obj .vector .d true, .obj (.viewTDense .vec) .d false], .times_row, (some .d), [0, 1, 2, 3]⟩,
  ⟨.times_row, [.obj (.viewTDense .ten) .d true, .num, .obj .vector .d true, .obj (.viewTDense .mat) .d false], .times_row, (some .d), [0, 1, 2, 3]⟩,
  ⟨.times_row, [.obj (.viewTDense .ten) .d true, .num, .obj .vector .d true, .obj (.viewTDense .ten) .d false], .times_row, (some .d), [0, 1, 2, 3]⟩,
  ⟨.times_row, [.obj (.viewTDense .ten) .d true, .num, .obj (.view1D .vec) .d true, .obj .tdense .d false], .times_row, (some .d), [0, 1, 2, 3]⟩,
  ⟨.times_row, [.obj (.viewTDense .ten) .d true, .num, .obj (.view1D .vec) .d true, .obj (.viewTDense .vec) .d false], .times_row, (some .d), [0, 1, 2, 3]⟩,
  ⟨.times_row, [.obj (.viewTDense .ten) .d true, .num, .obj (.view1D .vec) .d true, .obj (.viewTDense .mat) .d false], .times_row, (some .d), [0, 1, 2, 3]⟩,
  ⟨.times_row, [.obj (.viewTDense .ten) .d true, .num, .obj (.view1D .vec) .d true, .obj (.viewTDense .ten) .d false], .times_row, (some .d), [0, 1, 2, 3]⟩]

/-- src/blas/tensor/times/times.cpp:1744-2158 -/
def tTenTimes_4 : List Overload := [
  ⟨.times_row, [.obj (.viewTDense .ten) .d true, .num, .obj (.view1D .mat) .d true, .obj .tdense .d false], .times_row, (some .d), [0, 1, 2, 3]⟩,
  ⟨.times_row, [.obj (.viewTDense .ten) .d true, .num, .obj (.view1D .mat) .d true, .obj (.viewTDense .vec) .d false], .times_row, (some .d), [0, 1, 2, 3]⟩,
  ⟨.times_row, [.obj (.viewTDense .ten) .d true, .num, .obj (.view1D .mat) .d true, .obj (.viewTDense .mat) .d false], .times_row, (some .d), [0, 1, 2, 3]⟩,
  ⟨.times_row, [.obj (.viewTDense .ten) .d true, .num, .obj (.view1D .mat) .d true, .obj (.viewTDense .ten) .d false], .times_row, (some .d), [0, 1, 2, 3]⟩,
  ⟨.times_row, [.obj (.viewTDense .ten) .d true, .num, .obj (.view1D .ten) .d true, .obj .tdense .d false], .times_row, (some .d), [0, 1, 2, 3]⟩,
  ⟨.times_row, [.obj (.viewTDense .ten) .d true, .num, .obj (.view1D .ten) .d true, .obj (.viewTDense .vec) .d false], .times_row, (some .d), [0, 1, 2, 3]⟩,
  ⟨.times_row, [.obj (.viewTDense .ten) .d true, .num, .obj (.view1D .ten) .d true, .obj (.viewTDense .mat) .d false], .times_row, (some .d), [0, 1, 2, 3]⟩,
  ⟨.times_row, [.obj (.viewTDense .ten) .d true, .num, .obj (.view1D .ten) .d true, .obj (.viewTDense .ten) .d false], .times_row, (some .d), [0, 1, 2, 3]⟩,
  ⟨.times_row, [.obj .tdense .s true, .num, .obj .vector .s true, .obj .tdense .s false], .times_row, (some .s), [0, 1, 2, 3]⟩,
  ⟨.times_row, [.obj .tdense .s true, .num, .obj .vector .s true, .obj (.viewTDense .vec) .s false], .times_row, (some .s), [0, 1, 2, 3]⟩,
  ⟨.times_row, [.obj .tdense .s true, .num, .obj .vector .s true, .obj (.viewTDense .mat) .s false], .times_row, (some .s), [0, 1, 2, 3]⟩,
  ⟨.times_row, [.obj .tdense .s true, .num, .obj .vector .s true, .obj (.viewTDense .ten) .s false], .times_row, (some .s), [0, 1, 2, 3]⟩,
  ⟨.times_row, [.obj .tdense .s true, .num, .obj (.view1D .vec) .s true, .obj .tdense .s false], .times_row, (some .s), [0, 1, 2, 3]⟩,
  ⟨.times_row, [.obj .tdense .s true, .num, .obj (.view1D .vec) .s true, .obj (.viewTDense .vec) .s false], .times_row, (some .s), [0, 1, 2, 3]⟩,
  ⟨.times_row, [.obj .tdense .s true, .num, .obj (.view1D .vec) .s true, .obj (.viewTDense .mat) .s false], .times_row, (some .s), [0, 1, 2, 3]⟩,
  ⟨.times_row, [.obj .tdense .s true, .num, .obj (.view1D .vec) .s true, .obj (.viewTDense .ten) .s false], .times_row, (some .s), [0, 1, 2, 3]⟩,
  ⟨.times_row, [.obj .tdense .s true, .num, .obj (.view1D .mat) .s true, .obj .tdense .s false], .times_row, (some .s), [0, 1, 2, 3]⟩,
  ⟨.times_row, [.obj .tdense .s true, .num, .obj (.view1D .mat) .s true, .obj (.viewTDense .vec) .s false], .times_row, (some .s), [0, 1, 2, 3]⟩,
  ⟨.times_row, [.obj .tdense .s true, .num, .obj (.view1D .mat) .s true, .obj (.viewTDense .mat) .s false], .times_row, (some .s), [0, 1, 2, 3]⟩,
  ⟨.times_row, [.obj .tdense .s true, .num, .obj (.view1D .mat) .s true, .obj (.viewTDense .ten) .s false], .times_row, (some .s), [0, 1, 2, 3]⟩,
  ⟨.times_row, [.obj .tdense .s true, .num, .obj (.view1D .ten) .s true, .obj .tdense .s false], .times_row, (some .s), [0, 1, 2, 3]⟩,
  ⟨.times_row, [.obj .tdense .s true, .num, .obj (.view1D .ten) .s true, .obj (.viewTDense .vec) .s false], .times_row, (some .s), [0, 1, 2, 3]⟩,
  ⟨.times_row, [.obj .tdense .s true, .num, .obj (.view1D .ten) .s true, .obj (.viewTDense .mat) .s false], .times_row, (some .s), [0, 1, 2, 3]⟩,
  ⟨.times_row, [.obj .tdense .s true, .num, .obj (.view1D .ten) .s true, .obj (.viewTDense .ten) .s false], .times_row, (some .s), [0, 1, 2, 3]⟩,
  ⟨.times_row, [.obj (.viewTDense .vec) .s true, .num, .obj .vector .s true, .obj .tdense .s false], .times_row, (some .s), [0, 1, 2, 3]⟩,
  ⟨.times_row, [.obj (.viewTDense .vec) .s true, .num, .obj .vector .s true, .obj (.viewTDense .vec) .s false], .times_row, (some .s), [0, 1, 2, 3]⟩,
  ⟨.times_row, [.obj (.viewTDense .vec) .s true, .num, .obj .vector .s true, .obj (.viewTDense .mat) .s false], .times_row, (some .s), [0, 1, 2, 3]⟩,
  ⟨.times_row, [.obj (.viewTDense .vec) .s true, .num, .obj .vector .s true, .obj (.viewTDense .ten) .s false], .times_row, (some .s), [0, 1, 2, 3]⟩,
  ⟨.times_row, [.obj (.viewTDense .vec) .s true, .num, .obj (.view1D .vec) .s true, .obj .tdense .s false], .times_row, (some .s), [0, 1, 2, 3]⟩,
  ⟨.times_row, [.obj (.viewTDense .vec) .s true, .num, .obj (.view1D .vec) .s true, .obj (.viewTDense .vec) .s false], .times_row, (some .s), [0, 1, 2, 3]⟩,
  ⟨.times_row, [.obj (.viewTDense .vec) .s true, .num, .obj (.view1D .vec) .s true, .obj (.viewTDense .mat) .s false], .times_row, (some .s), [0, 1, 2, 3]⟩,
  ⟨.times_row, [.obj (.viewTDense .vec) .s true, .num, .obj (.view1D .vec) .s true, .obj (.viewTDense .ten) .s false], .times_row, (some .s), [0, 1, 2, 3]⟩,
  ⟨.times_row, [.obj (.viewTDense .vec) .s true, .num, .obj (.view1D .mat) .s true, .obj .tdense .s false], .times_row, (some .s), [0, 1, 2, 3]⟩,
  ⟨.times_row, [.obj (.viewTDense .vec) .s true, .num, .obj (.view1D .mat) .s true, .obj (.viewTDense .vec) .s false], .times_row, (some .s), [0, 1, 2, 3]⟩,
  ⟨.times_row, [.obj (.viewTDense .vec) .s true, .num, .obj (.view1D .mat) .s true, .obj (.viewTDense .mat) .s false], .times_row, (some .s), [0, 1, 2, 3]⟩,
  ⟨.times_row, [.obj (.viewTDense .vec) .s true, .num, .obj (.view1D .mat) .s true, .obj (.viewTDense .ten) .s false], .times_row, (some .s), [0, 1, 2, 3]⟩,
  ⟨.times_row, [.obj (.viewTDense .vec) .s true, .num, .obj (.view1D .ten) .s true, .obj .tdense .s false], .times_row, (some .s), [0, 1, 2, 3]⟩,
  ⟨.times_row, [.obj (.viewTDense .vec) .s true, .num, .obj (.view1D .ten) .s true, .obj (.viewTDense .vec) .s false], .times_row, (some .s), [0, 1, 2, 3]⟩,
  ⟨.times_row, [.obj (.viewTDense .vec) .s true, .num, .obj (.view1D .ten) .s true, .obj (.viewTDense .mat) .s false], .times_row, (some .s), [0, 1, 2, 3]⟩,
  ⟨.times_row, [.obj (.viewTDense .vec) .s true, .num, .obj (.view1D .ten) .s true, .obj (.viewTDense .ten) .s false], .times_row, (some .s), [0, 1, 2, 3]⟩,
  ⟨.times_row, [.obj (.viewTDense .mat) .s true, .num, .obj .vector .s true, .obj .tdense .s false], .times_row, (some .s), [0, 1, 2, 3]⟩,
  ⟨.times_row, [.obj (.viewTDense .mat) .s true, .num, .obj .vector .s true, .obj (.viewTDense .vec) .s false], .times_row, (some .s), [0, 1, 2, 3]⟩,
  ⟨.times_row, [.obj (.viewTDense .mat) .s true, .num, .obj .vector .s true, .obj (.viewTDense .mat) .s false], .times_row, (some .s), [0, 1, 2, 3]⟩,
  ⟨.times_row, [.obj (.viewTDense .mat) .s true, .num, .obj .vector .s true, .obj (.viewTDense .ten) .s false], .times_row, (some .s), [0, 1, 2, 3]⟩,
  ⟨.times_row, [.obj (.viewTDense .mat) .s true, .num, .obj (.view1D .vec) .s true, .obj .tdense .s false], .times_row, (some .s), [0, 1, 2, 3]⟩,
  ⟨.times_row, [.obj (.viewTDense .mat) .s true, .num, .obj (.view1D .vec) .s true, .obj (.viewTDense .vec) .s false], .times_row, (some .s), [0, 1, 2, 3]⟩,
  ⟨.times_row, [.obj (.viewTDense .mat) .s true, .num, .obj (.view1D .vec) .s true, .obj (.viewTDense .mat) .s false], .times_row, (some .s), [0, 1, 2, 3]⟩,
  ⟨.times_row, [.obj (.viewTDense .mat) .s true, .num, .obj (.view1D .vec) .s true, .obj (.viewTDense .ten) .s false], .times_row, (some .s), [0, 1, 2, 3]⟩,
  ⟨.times_row, [.obj (.viewTDense .mat) .s true, .num, .obj (.view1D .mat) .s true, .obj .tdense .s false], .times_row, (some .s), [0, 1, 2, 3]⟩,
  ⟨.times_row, [.obj (.viewTDense .mat) .s true, .num, .obj (.view1D .mat) .s true, .obj (.viewTDense .vec) .s false], .times_row, (some .s), [0, 1, 2, 3]⟩,
  ⟨.times_row, [.obj (.viewTDense .mat) .s true, .num, .obj (.view1D .mat) .s true, .obj (.viewTDense .mat) .s false], .times_row, (some .s), [0, 1, 2, 3]⟩,
  ⟨.times_row, [.obj (.viewTDense .mat) .s true, .num, .obj (.view1D .mat) .s true, .obj (.viewTDense .ten) .s false], .times_row, (some .s), [0, 1, 2, 3]⟩,
  ⟨.times_row, [.obj (.viewTDense .mat) .s true, .num, .obj (.view1D .ten) .s true, .obj .tdense .s false], .times_row, (some .s), [0, 1, 2, 3]⟩,
  ⟨.times_row, [.obj (.viewTDense .mat) .s true, .num, .obj (.view1D .ten) .s true, .obj (.viewTDense .vec) .s false], .times_row, (some .s), [0, 1, 2, 3]⟩,
  ⟨.times_row, [.obj (.viewTDense .mat) .s true, .num, .obj (.view1D .ten) .s true, .obj (.viewTDense .mat) .s false], .times_row, (some .s), [0, 1, 2, 3]⟩,
  ⟨.times_row, [.obj (.viewTDense .mat) .s true, .num, .obj (.view1D .ten) .s true, .obj (.viewTDense .ten) .s false], .times_row, (some .s), [0, 1, 2, 3]⟩,
  ⟨.times_row, [.obj (.viewTDense .ten) .s true, .num, .obj .vector .s true, .obj .tdense .s false], .times_row, (some .s), [0, 1, 2, 3]⟩,
  ⟨.times_row, [.obj (.viewTDense .ten) .s true, .num, .obj .vector .s true, .obj (.viewTDense .vec) .s false], .times_row, (some .s), [0, 1, 2, 3]⟩,
  ⟨.times_row, [.obj (.viewTDense .ten) .s true, .num, .obj .vector .s true, .obj (.viewTDense .mat) .s false], .times_row, (some .s), [0, 1, 2, 3]⟩,
  ⟨.times_row, [.obj (.viewTDense .ten) .s true, .num, .obj .vector .s true, .obj (.viewTDense .ten) .s false], .times_row, (some .s), [0, 1, 2, 3]⟩,
  ⟨.times_row, [.obj (.viewTDense .ten) .s true, .num, .obj (.view1D .vec) .s true, .obj .tdense .s false], .times_row, (some .s), [0, 1, 2, 3]⟩,
  ⟨.times_row, [.obj (.viewTDense .ten) .s true, .num, .obj (.view1D .vec) .s true, .obj (.viewTDense .vec) .s false], .times_row, (some .s), [0, 1, 2, 3]⟩,
  ⟨.times_row, [.obj (.viewTDense .ten) .s true, .num, .obj (.view1D .vec) .s true, .obj (.viewTDense .mat) .s false], .times_row, (some .s), [0, 1, 2, 3]⟩,
  ⟨.times_row, [.obj (.viewTDense .ten) .s true, .num, .obj (.view1D .vec) .s true, .obj (.viewTDense .ten) .s false], .times_row, (some .s), [0, 1, 2, 3]⟩,
  ⟨.times_row, [.obj (.viewTDense .ten) .s true, .num, .obj (.view1D .mat) .s true, .obj .tdense .s false], .times_row, (some .s), [0, 1, 2, 3]⟩,
  ⟨.times_row, [.obj (.viewTDense .ten) .s true, .num, .obj (.view1D .mat) .s true, .obj (.viewTDense .vec) .s false], .times_row, (some .s), [0, 1, 2, 3]⟩,
  ⟨.times_row, [.obj (.viewTDense .ten) .s true, .num, .obj (.view1D .mat) .s true, .obj (.viewTDense .mat) .s false], .times_row, (some .s), [0, 1, 2, 3]⟩,
  ⟨.times_row, [.obj (.viewTDense .ten) .s true, .num, .obj (.view1D .mat) .s true, .obj (.viewTDense .ten) .s false], .times_row, (some .s), [0, 1, 2, 3]⟩,
  ⟨.times_row, [.obj (.viewTDense .ten) .s true, .num, .obj (.view1D .ten) .s true, .obj .tdense .s false], .times_row, (some .s), [0, 1, 2, 3]⟩,
  ⟨.times_row, [.obj (.viewTDense .ten) .s true, .num, .obj (.view1D .ten) .s true, .obj (.viewTDense .vec) .s false], .times_row, (some .s), [0, 1, 2, 3]⟩,
  ⟨.times_row, [.obj (.viewTDense .ten) .s true, .num, .obj (.view1D .ten) .s true, .obj (.viewTDense .mat) .s false], .times_row, (some .s), [0, 1, 2, 3]⟩,
  ⟨.times_row, [.obj (.viewTDense .ten) .s true, .num, .obj (.view1D .ten) .s true, .obj (.viewTDense .ten) .s false], .times_row, (some .s), [0, 1, 2, 3]⟩,
  ⟨.times_col, [.obj .tdense .d true, .num, .obj .vector .d true, .obj .tdense .d false], .times_col, (some .d), [0, 1, 2, 3]⟩,
  ⟨.times_col, [.obj .tdense .d true, .num, .obj .vector .d true, .obj (.viewTDense .vec) .d false], .times_col, (some .d), [0, 1, 2, 3]⟩,
  ⟨.times_col, [.obj .tdense .d true, .num, .obj .vector .d true, .obj (.viewTDense .mat) .d false], .times_col, (some .d), [0, 1, 2, 3]⟩,
  ⟨.times_col, [.obj .tdense .d true, .num, .obj .vector .d true, .obj (.viewTDense .ten) .d false], .times_col, (some .d), [0, 1, 2, 3]⟩,
  ⟨.times_col, [.obj .tdense .d true, .num, .obj (.view1D .vec) .d true, .obj .tdense .d false], .times_col, (some .d), [0, 1, 2, 3]⟩,
  ⟨.times_col, [.obj .tdense .d true, .num, .obj (.view1D .vec) .d true, .obj (.viewTDense .vec) .d false], .times_col, (some .d), [0, 1, 2, 3]⟩,
  ⟨.times_col, [.obj .tdense .d true, .num, .obj (.view1D .vec) .d true, .obj (.viewTDense .mat) .d false], .times_col, (some .d), [0, 1, 2, 3]⟩,
  ⟨.times_col, [.obj .tdense .d true, .num, .obj (.view1D .vec) .d true, .obj (.viewTDense .ten) .d false], .times_col, (some .d), [0, 1, 2, 3]⟩]

/-- src/blas/tensor/times/times.cpp:2159-2569 -/
def tTenTimes_5 : List Overload := [
  ⟨.times_col, [.obj .tdense .d true, .num, .obj (.view1D .mat) .d true, .obj .tdense .d false], .times_col, (some .d), [0, 1, 2, 3]⟩,
  ⟨.times_col, [.obj .tdense .d true, .num, .obj (.view1D .mat) .d true, .obj (.viewTDense .vec) .d false], .times_col, (some .d), [0, 1, 2, 3]⟩,
  ⟨.times_col, [.obj .tdense .d true, .num, .obj (.view1D .mat) .d true, .obj (.viewTDense .mat) .d false], .times_col, (some .d), [0, 1, 2, 3]⟩,
  ⟨.times_col, [.obj .tdense .d true, .num, .obj (.view1D .mat) .d true, .obj (.viewTDense .ten) .d false], .times_col, (some .d), [0, 1, 2, 3]⟩,
  ⟨.times_col, [.obj .tdense .d true, .num, .obj (.view1D .ten) .d true, .obj .tdense .d false], .times_col, (some .d), [0, 1, 2, 3]⟩,
  ⟨.times_col, [.obj .tdense .d true, .num, .obj (.view1D .ten) .d true, .obj (.viewTDense .vec) .d false], .times_col, (some .d), [0, 1, 2, 3]⟩,
  ⟨.times_col, [.obj .tdense .d true, .num, .obj (.view1D .ten) .d true, .obj (.viewTDense .mat) .d false], .times_col, (some .d), [0, 1, 2, 3]⟩,
  ⟨.times_col, [.obj .tdense .d true, .num, .obj (.view1D .ten) .d true, .obj (.viewTDense .ten) .d false], .times_col, (some .d), [0, 1, 2, 3]⟩,
  ⟨.times_col, [.obj (.viewTDense .vec) .d true, .num, .obj .vector .d true, .obj .tdense .d false], .times_col, (some .d), [0, 1, 2, 3]⟩,
  ⟨.times_col, [.obj (.viewTDense .vec) .d true, .num, .obj .vector .d true, .obj (.viewTDense .vec) .d false], .times_col, (some .d), [0, 1, 2, 3]⟩,
  ⟨.times_col, [.obj (.viewTDense .vec) .d true, .num, .obj .vector .d true, .obj (.viewTDense .mat) .d false], .times_col, (some .d), [0, 1, 2, 3]⟩,
  ⟨.times_col, [.obj (.viewTDense .vec) .d true, .num, .obj .vector .d true, .obj (.viewTDense .ten) .d false], .times_col, (some .d), [0, 1, 2, 3]⟩,
  ⟨.times_col, [.obj (.viewTDense .vec) .d true, .num, .obj (.view1D .vec) .d true, .obj .tdense .d false], .times_col, (some .d), [0, 1, 2, 3]⟩,
  ⟨.times_col, [.obj (.viewTDense .vec) .d true, .num, .obj (.view1D .vec) .d true, .obj (.viewTDense .vec) .d false], .times_col, (some .d), [0, 1, 2, 3]⟩,
  ⟨.times_col, [.obj (.viewTDense .vec) .d true, .num, .obj (.view1D .vec) .d true, .obj (.viewTDense .mat) .d false], .times_col, (some .d), [0, 1, 2, 3]⟩,
  ⟨.times_col, [.obj (.viewTDense .vec) .d true, .num, .obj (.view1D .vec) .d true, .obj (.viewTDense .ten) .d false], .times_col, (some .d), [0, 1, 2, 3]⟩,
  ⟨.times_col, [.obj (.viewTDense .vec) .d true, .num, .obj (.view1D .mat) .d true, .obj .tdense .d false], .times_col, (some .d), [0, 1, 2, 3]⟩,
  ⟨.times_col, [.obj (.viewTDense .vec) .d true, .num, .obj (.view1D .mat) .d true, .obj (.viewTDense .vec) .d false], .times_col, (some .d), [0, 1, 2, 3]⟩,
  ⟨.times_col, [.obj (.viewTDense .vec) .d true, .num, .obj (.view1D .mat) .d true, .obj (.viewTDense .mat) .d false], .times_col, (some .d), [0, 1, 2, 3]⟩,
  ⟨.times_col, [.obj (.viewTDense .vec) .d true, .num, .obj (.view1D .mat) .d true, .obj (.viewTDense .ten) .d false], .times_col, (some .d), [0, 1, 2, 3]⟩,
  ⟨.times_col, [.obj (.viewTDense .vec) .d true, .num, .obj (.view1D .ten) .d true, .obj .tdense .d false], .times_col, (some .d), [0, 1, 2, 3]⟩,
  ⟨.times_col, [.obj (.viewTDense .vec) .d true, .num, .obj (.view1D .ten) .d true, .obj (.viewTDense .vec) .d false], .times_col, (some .d), [0, 1, 2, 3]⟩,
  ⟨.times_col, [.obj (.viewTDense .vec) .d true, .num, .obj (.view1D .ten) .d true, .obj (.viewTDense .mat) .d false], .times_col, (some .d), [0, 1, 2, 3]⟩,
  ⟨.times_col, [.obj (.viewTDense .vec) .d true, .num, .obj (.view1D .ten) .d true, .obj (.viewTDense .ten) .d false], .times_col, (some .d), [0, 1, 2, 3]⟩,
  ⟨.times_col, [.obj (.viewTDense .mat) .d true, .num, .obj .vector .d true, .obj .tdense .d false], .times_col, (some .d), [0, 1, 2, 3]⟩,
  ⟨.times_col, [.obj (.viewTDense .mat) .d true, .num, .obj .vector .d true, .obj (.viewTDense .vec) .d false], .times_col, (some .d), [0, 1, 2, 3]⟩,
  ⟨.times_col, [.obj (.viewTDense .mat) .d true, .num, .obj .vector .d true, .obj (.viewTDense .mat) .d false], .times_col, (some .d), [0, 1, 2, 3]⟩,
  ⟨.times_col, [.obj (.viewTDense .mat) .d true, .num, .obj .vector .d true, .obj (.viewTDense .ten) .d false], .times_col, (some .d), [0, 1, 2, 3]⟩,
  ⟨.times_col, [.obj (.viewTDense .mat) .d true, .num, .obj (.view1D .vec) .d true, .obj .tdense .d false], .times_col, (some .d), [0, 1, 2, 3]⟩,
  ⟨.times_col, [.obj (.viewTDense .mat) .d true, .num, .obj (.view1D .vec) .d true, .obj (.viewTDense .vec) .d false], .times_col, (some .d), [0, 1, 2, 3]⟩,
  ⟨.times_col, [.obj (.viewTDense .mat) .d true, .num, .obj (.view1D .vec) .d true, .obj (.viewTDense .mat) .d false], .times_col, (some .d), [0, 1, 2, 3]⟩,
  ⟨.times_col, [.obj (.viewTDense .mat) .d true, .num, .obj (.view1D .vec) .d true, .obj (.viewTDense .ten) .d false], .times_col, (some .d), [0, 1, 2, 3]⟩,
  ⟨.times_col, [.obj (.viewTDense .mat) .d true, .num, .obj (.view1D .mat) .d true, .obj .tdense .d false], .times_col, (some .d), [0, 1, 2, 3]⟩,
  ⟨.times_col, [.obj (.viewTDense .mat) .d true, .num, .obj (.view1D .mat) .d true, .obj (.viewTDense .vec) .d false], .times_col, (some .d), [0, 1, 2, 3]⟩,
  ⟨.times_col, [.obj (.viewTDense .mat) .d true, .num, .obj (.view1D .mat) .d true, .obj (.viewTDense .mat) .d false], .times_col, (some .d), [0, 1, 2, 3]⟩,
  ⟨.times_col, [.obj (.viewTDense .mat) .d true, .num, .obj (.view1D .mat) .d true, .obj (.viewTDense .ten) .d false], .times_col, (some .d), [0, 1, 2, 3]⟩,
  ⟨.times_col, [.obj (.viewTDense .mat) .d true, .num, .obj (.view1D .ten) .d true, .obj .tdense .d false], .times_col, (some .d), [0, 1, 2, 3]⟩,
  ⟨.times_col, [.obj (.viewTDense .mat) .d true, .num, .obj (.view1D .ten) .d true, .obj (.viewTDense .vec) .d false], .times_col, (some .d), [0, 1, 2, 3]⟩,
  ⟨.times_col, [.obj (.viewTDense .mat) .d true, .num, .obj (.view1D .ten) .d true, .obj (.viewTDense .mat) .d false], .times_col, (some .d), [0, 1, 2, 3]⟩,
  ⟨.times_col, [.obj (.viewTDense .mat) .d true, .num, .obj (.view1D .ten) .d true, .obj (.viewTDense .ten) .d false], .times_col, (some .d), [0, 1, 2, 3]⟩,
  ⟨.times_col, [.obj (.viewTDense .ten) .d true, .num, .obj .vector .d true, .obj .tdense .d false], .times_col, (some .d), [0, 1, 2, 3]⟩,
  ⟨.times_col, [.obj (.viewTDense .ten) .d true, .num, .obj .vector .d true, .obj (.viewTDense .vec) .d false], .times_col, (some .d), [0, 1, 2, 3]⟩,
  ⟨.times_col, [.obj (.viewTDense .ten) .d true, .num, .obj .vector .d true, .obj (.viewTDense .mat) .d false], .times_col, (some .d), [0, 1, 2, 3]⟩,
  ⟨.times_col, [.obj (.viewTDense .ten) .d true, .num, .obj .vector .d true, .obj (.viewTDense .ten) .d false], .times_col, (some .d), [0, 1, 2, 3]⟩,
  ⟨.times_col, [.obj (.viewTDense .ten) .d true, .num, .obj (.view1D .vec) .d true, .obj .tdense .d false], .times_col, (some .d), [0, 1, 2, 3]⟩,
  ⟨.times_col, [.obj (.viewTDense .ten) .d true, .num, .obj (.view1D .vec) .d true, .obj (.viewTDense .vec) .d false], .times_col, (some .d), [0, 1, 2, 3]⟩,
  ⟨.times_col, [.obj (.viewTDense .ten) .d true, .num, .obj (.view1D .vec) .d true, .obj (.viewTDense .mat) .d false], .times_col, (some .d), [0, 1, 2, 3]⟩,
  ⟨.times_col, [.obj (.viewTDense .ten) .d true, .num, .obj (.view1D .vec) .d true, .obj (.viewTDense .ten) .d false], .times_col, (some .d), [0, 1, 2, 3]⟩,
  ⟨.times_col, [.obj (.viewTDense .ten) .d true, .num, .obj (.view1D .mat) .d true, .obj .tdense .d false], .times_col, (some .d), [0, 1, 2, 3]⟩,
  ⟨.times_col, [.obj (.viewTDense .ten) .d true, .num, .obj (.view1D .mat) .d true, .obj (.viewTDense .vec) .d false], .times_col, (some .d), [0, 1, 2, 3]⟩,
  ⟨.times_col, [.obj (.viewTDense .ten) .d true, .num, .obj (.view1D .mat) .d true, .obj (.viewTDense .mat) .d false], .times_col, (some .d), [0, 1, 2, 3]⟩,
  ⟨.times_col, [.obj (.viewTDense .ten) .d true, .num, .obj (.view1D .mat) .d true, .obj (.viewTDense .ten) .d false], .times_col, (some .d), [0, 1, 2, 3]⟩,
  ⟨.times_col, [.obj (.viewTDense .ten) .d true, .num, .obj (.view1D .ten) .d true, .obj .tdense .d false], .times_col, (some .d), [0, 1, 2, 3]⟩,
  ⟨.times_col, [.obj (.viewTDense .ten) .d true, .num, .obj (.view1D .ten) .d true, .obj (.viewTDense .vec) .d false], .times_col, (some .d), [0, 1, 2, 3]⟩,
  ⟨.times_col, [.obj (.viewTDense .ten) .d true, .num, .obj (.view1D .ten) .d true, .obj (.viewTDense .mat) .d false], .times_col, (some .d), [0, 1, 2, 3]⟩,
  ⟨.times_col, [.obj (.viewTDense .ten) .d true, .num, .obj (.view1D .ten) .d true, .obj (.viewTDense .ten) .d false], .times_col, (some .d), [0, 1, 2, 3]⟩,
  ⟨.times_col, [.obj .tdense .s true, .num, .obj .vector .s true, .obj .tdense .s false], .times_col, (some .s), [0, 1, 2, 3]⟩,
  ⟨.times_col, [.obj .tdense .s true, .num, .obj .vector .s true, .obj (.viewTDense .vec) .s false], .times_col, (some .s), [0, 1, 2, 3]⟩,
  ⟨.times_col, [.obj .tdense .s true, .num, .obj .vector .s true, .obj (.viewTDense .mat) .s false], .times_col, (some .s), [0, 1, 2, 3]⟩,
  ⟨.times_col, [.obj .tdense .s true, .num, .obj .vector .s true, .obj (.viewTDense .ten) .s false], .times_col, (some .s), [0, 1, 2, 3]⟩,
  ⟨.times_col, [.obj .tdense .s true, .num, .obj (.view1D .vec) .s true, .obj .tdense .s false], .times_col, (some .s), [0, 1, 2, 3]⟩,
  ⟨.times_col, [.obj .tdense .s true, .num, .obj (.view1D .vec) .s true, .obj (.viewTDense .vec) .s false], .times_col, (some .s), [0, 1, 2, 3]⟩,
  ⟨.times_col, [.obj .tdense .s true, .num, .obj (.view1D .vec) .s true, .obj (.viewTDense .mat) .s false], .times_col, (some .s), [0, 1, 2, 3]⟩,
  ⟨.times_col, [.obj .tdense .s true, .num, .obj (.view1D .vec) .s true, .obj (.viewTDense .ten) .s false], .times_col, (some .s), [0, 1, 2, 3]⟩,
  ⟨.times_col, [.obj .tdense .s true, .num, .obj (.view1D .mat) .s true, .obj .tdense .s false], .times_col, (some .s), [0, 1, 2, 3]⟩,
  ⟨.times_col, [.obj .tdense .s true, .num, .obj (.view1D .mat) .s true, .obj (.viewTDense .vec) .s false], .times_col, (some .s), [0, 1, 2, 3]⟩,
  ⟨.times_col, [.obj .tdense .s true, .num, .obj (.view1D .mat) .s true, .obj (.viewTDense .mat) .s false], .times_col, (some .s), [0, 1, 2, 3]⟩,
  ⟨.times_col, [.obj .tdense .s true, .num, .obj (.view1D .mat) .s true, .obj (.viewTDense .ten) .s false], .times_col, (some .s), [0, 1, 2, 3]⟩,
  ⟨.times_col, [.obj .tdense .s true, .num, .obj (.view1D .ten) .s true, .obj .tdense .s false], .times_col, (some .s), [0, 1, 2, 3]⟩,
  ⟨.times_col, [.obj .tdense .s true, .num, .obj (.view1D .ten) .s true, .obj (.viewTDense .vec) .s false], .times_col, (some .s), [0, 1, 2, 3]⟩,
  ⟨.times_col, [.obj .tdense .s true, .num, .obj (.view1D .ten) .s true, .obj (.viewTDense .mat) .s false], .times_col, (some .s), [0, 1, 2, 3]⟩,
  ⟨.times_col, [.obj .tdense .s true, .num, .obj (.view1D .ten) .s true, .obj (.viewTDense .ten) .s false], .times_col, (some .s), [0, 1, 2, 3]⟩,
  ⟨.times_col, [.obj (.viewTDense .vec) .s true, .num, .obj .vector .s true, .obj .tdense .s false], .times_col, (some .s), [0, 1, 2, 3]⟩,
  ⟨.times_col, [.obj (.viewTDense .vec) .s true, .num, .obj .vector .s true, .obj (.viewTDense .vec) .s false], .times_col, (some .s), [0, 1, 2, 3]⟩,
  ⟨.times_col, [.obj (.viewTDense .vec) .s true, .num, .obj .vector .s true, .obj (.viewTDense .mat) .s false], .times_col, (some .s), [0, 1, 2, 3]⟩,
  ⟨.times_col, [.obj (.viewTDense .vec) .s true, .num, .obj .vector .s true, .obj (.viewTDense .ten) .s false], .times_col, (some .s), [0, 1, 2, 3]⟩,
  ⟨.times_col, [.obj (.viewTDense .vec) .s true, .num, .obj (.view1D .vec) .s true, .obj .tdense .s false], .times_col, (some .s), [0, 1, 2, 3]⟩,
  ⟨.times_col, [.obj (.viewTDense .vec) .s true, .num, .obj (.view1D .vec) .s true, .obj (.viewTDense .vec) .s false], .times_col, (some .s), [0, 1, 2, 3]⟩,
  ⟨.times_col, [.obj (.viewTDense .vec) .s true, .num, .obj (.view1D .vec) .s true, .obj (.viewTDense .mat) .s false], .times_col, (some .s), [0, 1, 2, 3]⟩,
  ⟨.times_col, [.obj (.viewTDense .vec) .s true, .num, .obj (.view1D .vec) .s true, .obj (.viewTDense .ten) .s false], .times_col, (some .s), [0, 1, 2, 3]⟩]

/-- src/blas/tensor/times/times.cpp:2570-2781 -/
def tTenTimes_6 : List Overload := [
  ⟨.times_col, [.obj (.viewTDense .vec) .s true, .num, .obj (.view1D .mat) .s true, .obj .tdense .s false], .times_col, (some .s), [0, 1, 2, 3]⟩,
  ⟨.times_col, [.obj (.viewTDense .vec) .s true, .num, .obj (.view1D .mat) .s true, .obj (.viewTDense .vec) .s false], .times_col, (some .s), [0, 1, 2, 3]⟩,
  ⟨.times_col, [.obj (.viewTDense .vec) .s true, .num, .obj (.view1D .mat) .s true, .obj (.viewTDense .mat) .s false], .times_col, (some .s), [0, 1, 2, 3]⟩,
  ⟨.times_col, [.obj (.viewTDense .vec) .s true, .num, .obj (.view1D .mat) .s true, .obj (.viewTDense .ten) .s false], .times_col, (some .s), [0, 1, 2, 3]⟩,
  ⟨.times_col, [.obj (.viewTDense .vec) .s true, .num, .obj (.view1D .ten) .s true, .obj .tdense .s false], .times_col, (some .s), [0, 1, 2, 3]⟩,
  ⟨.times_col, [.obj (.viewTDense .vec) .s true, .num, .obj (.view1D .ten) .s true, .obj (.viewTDense .vec) .s false], .times_col, (some .s), [0, 1, 2, 3]⟩,
  ⟨.times_col, [.obj (.viewTDense .vec) .s true, .num, .obj (.view1D .ten) .s true, .obj (.viewTDense .mat) .s false], .times_col, (some .s), [0, 1, 2, 3]⟩,
  ⟨.times_col, [.obj (.viewTDense .vec) .s true, .num, .obj (.view1D .ten) .s true, .obj (.viewTDense .ten) .s false], .times_col, (some .s), [0, 1, 2, 3]⟩,
  ⟨.times_col, [.obj (.viewTDense .mat) .s true, .num, .obj .vector .s true, .obj .tdense .s false], .times_col, (some .s), [0, 1, 2, 3]⟩,
  ⟨.times_col, [.obj (.viewTDense .mat) .s true, .num, .obj .vector .s true, .obj (.viewTDense .vec) .s false], .times_col, (some .s), [0, 1, 2, 3]⟩,
  ⟨.times_col, [.obj (.viewTDense .mat) .s true, .num, .obj .vector .s true, .obj (.viewTDense .mat) .s false], .times_col, (some .s), [0, 1, 2, 3]⟩,
  ⟨.times_col, [.obj (.viewTDense .mat) .s true, .num, .obj .vector .s true, .obj (.viewTDense .ten) .s false], .times_col, (some .s), [0, 1, 2, 3]⟩,
  ⟨.times_col, [.obj (.viewTDense .mat) .s true, .num, .obj (.view1D .vec) .s true, .obj .tdense .s false], .times_col, (some .s), [0, 1, 2, 3]⟩,
  ⟨.times_col, [.obj (.viewTDense .mat) .s true, .num, .obj (.view1D .vec) .s true, .obj (.viewTDense .vec) .s false], .times_col, (some .s), [0, 1, 2, 3]⟩,
  ⟨.times_col, [.obj (.viewTDense .mat) .s true, .num, .obj (.view1D .vec) .s true, .obj (.viewTDense .mat) .s false], .times_col, (some .s), [0, 1, 2, 3]⟩,
  ⟨.times_col, [.obj (.viewTDense .mat) .s true, .num, .obj (.view1D .vec) .s true, .obj (.viewTDense .ten) .s false], .times_col, (some .s), [0, 1, 2, 3]⟩,
  ⟨.times_col, [.obj (.viewTDense .mat) .s true, .num, .obj (.view1D .mat) .s true, .obj .tdense .s false], .times_col, (some .s), [0, 1, 2, 3]⟩,
  ⟨.times_col, [.obj (.viewTDense .mat) .s true, .num, .obj (.view1D .mat) .s true, .obj (.viewTDense .vec) .s false], .times_col, (some .s), [0, 1, 2, 3]⟩,
  ⟨.times_col, [.obj (.viewTDense .mat) .s true, .num, .obj (.view1D .mat) .s true, .obj (.viewTDense .mat) .s false], .times_col, (some .s), [0, 1, 2, 3]⟩,
  ⟨.times_col, [.obj (.viewTDense .mat) .s true, .num, .obj (.view1D .mat) .s true, .obj (.viewTDense .ten) .s false], .times_col, (some .s), [0, 1, 2, 3]⟩,
  ⟨.times_col, [.obj (.viewTDense .mat) .s true, .num, .obj (.view1D .ten) .s true, .obj .tdense .s false], .times_col, (some .s), [0, 1, 2, 3]⟩,
  ⟨.times_col, [.obj (.viewTDense .mat) .s true, .num, .obj (.view1D .ten) .s true, .obj (.viewTDense .vec) .s false], .times_col, (some .s), [0, 1, 2, 3]⟩,
  ⟨.times_col, [.obj (.viewTDense .mat) .s true, .num, .obj (.view1D .ten) .s true, .obj (.viewTDense .mat) .s false], .times_col, (some .s), [0, 1, 2, 3]⟩,
  ⟨.times_col, [.obj (.viewTDense .mat) .s true, .num, .obj (.view1D .ten) .s true, .obj (.viewTDense .ten) .s false], .times_col, (some .s), [0, 1, 2, 3]⟩,
  ⟨.times_col, [.obj (.viewTDense .ten) .s true, .num, .obj .vector .s true, .obj .tdense .s false], .times_col, (some .s), [0, 1, 2, 3]⟩,
  ⟨.times_col, [.obj (.viewTDense .ten) .s true, .num, .obj .vector .s true, .obj (.viewTDense .vec) .s false], .times_col, (some .s), [0, 1, 2, 3]⟩,
  ⟨.times_col, [.obj (.viewTDense .ten) .s true, .num, .obj .vector .s true, .obj (.viewTDense .mat) .s false], .times_col, (some .s), [0, 1, 2, 3]⟩,
  ⟨.times_col, [.obj (.viewTDense .ten) .s true, .num, .obj .vector .s true, .obj (.viewTDense .ten) .s false], .times_col, (some .s), [0, 1, 2, 3]⟩,
  ⟨.times_col, [.obj (.viewTDense .ten) .s true, .num, .obj (.view1D .vec) .s true, .obj .tdense .s false], .times_col, (some .s), [0, 1, 2, 3]⟩,
  ⟨.times_col, [.obj (.viewTDense .ten) .s true, .num, .obj (.view1D .vec) .s true, .obj (.viewTDense .vec) .s false], .times_col, (some .s), [0, 1, 2, 3]⟩,
  ⟨.times_col, [.obj (.viewTDense .ten) .s true, .num, .obj (.view1D .vec) .s true, .obj (.viewTDense .mat) .s false], .times_col, (some .s), [0, 1, 2, 3]⟩,
  ⟨.times_col, [.obj (.viewTDense .ten) .s true, .num, .obj (.view1D .vec) .s true, .obj (.viewTDense .ten) .s false], .times_col, (some .s), [0, 1, 2, 3]⟩,
  ⟨.times_col, [.obj (.viewTDense .ten) .s true, .num, .obj (.view1D .mat) .s true, .obj .tdense .s false], .times_col, (some .s), [0, 1, 2, 3]⟩,
  ⟨.times_col, [.obj (.viewTDense .ten) .s true, .num, .obj (.view1D .mat) .s true, .obj (.viewTDense .vec) .s false], .times_col, (some .s), [0, 1, 2, 3]⟩,
  ⟨.times_col, [.obj (.viewTDense .ten) .s true, .num, .obj (.view1D .mat) .s true, .obj (.viewTDense .mat) .s false], .times_col, (some .s), [0, 1, 2, 3]⟩,
  ⟨.times_col, [.obj (.viewTDense .ten) .s true, .num, .obj (.view1D .mat) .s true, .obj (.viewTDense .ten) .s false], .times_col, (some .s), [0, 1, 2, 3]⟩,
  ⟨.times_col, [.obj (.viewTDense .ten) .s true, .num, .obj (.view1D .ten) .s true, .obj .tdense .s false], .times_col, (some .s), [0, 1, 2, 3]⟩,
  ⟨.times_col, [.obj (.viewTDense .ten) .s true, .num, .obj (.view1D .ten) .s true, .obj (.viewTDense .vec) .s false], .times_col, (some .s), [0, 1, 2, 3]⟩,
  ⟨.times_col, [.obj (.viewTDense .ten) .s true, .num, .obj (.view1D .ten) .s true, .obj (.viewTDense .mat) .s false], .times_col, (some .s), [0, 1, 2, 3]⟩,
  ⟨.times_col, [.obj (.viewTDense .ten) .s true, .num, .obj (.view1D .ten) .s true, .obj (.viewTDense .ten) .s false], .times_col, (some .s), [0, 1, 2, 3]⟩]

/-- the row and column operations of src/blas/tensor/times/times.cpp (520 overloads) -/
def tTenTimes : List (List Overload) :=
  [tTenTimes_0, tTenTimes_1, tTenTimes_2, tTenTimes_3, tTenTimes_4, tTenTimes_5, tTenTimes_6]

/-- src/blas/tensor/adds/adds.cpp:156-544 -/
def tTenAdds_0 : List Overload := [
  ⟨.adds_row, [.obj .tdense .d true, .obj .vector .d true, .obj .tdense .d false], .adds_row, (some .d), [0, 1, 2]⟩,
  ⟨.adds_row, [.obj .tdense .d true, .obj .vector .d true, .obj (.viewTDense .vec) .d false], .adds_row, (some .d), [0, 1, 2]⟩,
  ⟨.adds_row, [.obj .tdense .d true, .obj .vector .d true, .obj (.viewTDense .mat) .d false], .adds_row, (some .d), [0, 1, 2]⟩,
  ⟨.adds_row, [.obj .tdense .d true, .obj .vector .d true, .obj (.viewTDense .ten) .d false], .adds_row, (some .d), [0, 1, 2]⟩,
  ⟨.adds_row, [.obj .tdense .d true, .obj (.view1D .vec) .d true, .obj .tdense .d false], .adds_row, (some .d), [0, 1, 2]⟩,
  ⟨.adds_row, [.obj .tdense .d true, .obj (.view1D .vec) .d true, .obj (.viewTDense .vec) .d false], .adds_row, (some .d), [0, 1, 2]⟩,
  ⟨.adds_row, [.obj .tdense .d true, .obj (.view1D .vec) .d true, .obj (.viewTDense .mat) .d false], .adds_row, (some .d), [0, 1, 2]⟩,
  ⟨.adds_row, [.obj .tdense .d true, .obj (.view1D .vec) .d true, .obj (.viewTDense .ten) .d false], .adds_row, (some .d), [0, 1, 2]⟩,
  ⟨.adds_row, [.obj .tdense .d true, .obj (.view1D .mat) .d true, .obj .tdense .d false], .adds_row, (some .d), [0, 1, 2]⟩,
  ⟨.adds_row, [.obj .tdense .d true, .obj (.view1D .mat) .d true, .obj (.viewTDense .vec) .d false], .adds_row, (some .d), [0, 1, 2]⟩,
  ⟨.adds_row, [.obj .tdense .d true, .obj (.view1D .mat) .d true, .obj (.viewTDense .mat) .d false], .adds_row, (some .d), [0, 1, 2]⟩,
  ⟨.adds_row, [.obj .tdense .d true, .obj (.view1D .mat) .d true, .obj (.viewTDense .ten) .d false], .adds_row, (some .d), [0, 1, 2]⟩,
  ⟨.adds_row, [.obj .tdense .d true, .obj (.view1D .ten) .d true, .obj .tdense .d false], .adds_row, (some .d), [0, 1, 2]⟩,
  ⟨.adds_row, [.obj .tdense .d true, .obj (.view1D .ten) .d true, .obj (.viewTDense .vec) .d false], .adds_row, (some .d), [0, 1, 2]⟩,
  ⟨.adds_row, [.obj .tdense .d true, .obj (.view1D .ten) .d true, .obj (.viewTDense .mat) .d false], .adds_row, (some .d), [0, 1, 2]⟩,
  ⟨.adds_row, [.obj .tdense .d true, .obj (.view1D .ten) .d true, .obj (.viewTDense .ten) .d false], .adds_row, (some .d), [0, 1, 2]⟩,
  ⟨.adds_row, [.obj (.viewTDense .vec) .d true, .obj .vector .d true, .obj .tdense .d false], .adds_row, (some .d), [0, 1, 2]⟩,
  ⟨.adds_row, [.obj (.viewTDense .vec) .d true, .obj .vector .d true, .obj (.viewTDense .vec) .d false], .adds_row, (some .d), [0, 1, 2]⟩,
  ⟨.adds_row, [.obj (.viewTDense .vec) .d true, .obj .vector .d true, .obj (.viewTDense .mat) .d false], .adds_row, (some .d), [0, 1, 2]⟩,
  ⟨.adds_row, [.obj (.viewTDense .vec) .d true, .obj .vector .d true, .obj (.viewTDense .ten) .d false], .adds_row, (some .d), [0, 1, 2]⟩,
  ⟨.adds_row, [.obj (.viewTDense .vec) .d true, .obj (.view1D .vec) .d true, .obj .tdense .d false], .adds_row, (some .d), [0, 1, 2]⟩,
  ⟨.adds_row, [.obj (.viewTDense .vec) .d true, .obj (.view1D .vec) .d true, .obj (.viewTDense .vec) .d false], .adds_row, (some .d), [0, 1, 2]⟩,
  ⟨.adds_row, [.obj (.viewTDense .vec) .d true, .obj (.view1D .vec) .d true, .obj (.viewTDense .mat) .d false], .adds_row, (some .d), [0, 1, 2]⟩,
  ⟨.adds_row, [.obj (.viewTDense .vec) .d true, .obj (.view1D .vec) .d true, .obj (.viewTDense .ten) .d false], .adds_row, (some .d), [0, 1, 2]⟩,
  ⟨.adds_row, [.obj (.viewTDense .vec) .d true, .obj (.view1D .mat) .d true, .obj .tdense .d false], .adds_row, (some .d), [0, 1, 2]⟩,
  ⟨.adds_row, [.obj (.viewTDense .vec) .d true, .obj (.view1D .mat) .d true, .obj (.viewTDense .vec) .d false], .adds_row, (some .d), [0, 1, 2]⟩,
  ⟨.adds_row, [.obj (.viewTDense .vec) .d true, .obj (.view1D .mat) .d true, .obj (.viewTDense .mat) .d false], .adds_row, (some .d), [0, 1, 2]⟩,
  ⟨.adds_row, [.obj (.viewTDense .vec) .d true, .obj (.view1D .mat) .d true, .obj (.viewTDense .ten) .d false], .adds_row, (some .d), [0, 1, 2]⟩,
  ⟨.adds_row, [.obj (.viewTDense .vec) .d true, .obj (.view1D .ten) .d true, .obj .tdense .d false], .adds_row, (some .d), [0, 1, 2]⟩,
  ⟨.adds_row, [.obj (.viewTDense .vec) .d true, .obj (.view1D .ten) .d true, .obj (.viewTDense .vec) .d false], .adds_row, (some .d), [0, 1, 2]⟩,
  ⟨.adds_row, [.obj (.viewTDense .vec) .d true, .obj (.view1D .ten) .d true, .obj (.viewTDense .mat) .d false], .adds_row, (some .d), [0, 1, 2]⟩,
  ⟨.adds_row, [.obj (.viewTDense .vec) .d true, .obj (.view1D .ten) .d true, .obj (.viewTDense .ten) .d false], .adds_row, (some .d), [0, 1, 2]⟩,
  ⟨.adds_row, [.obj (.viewTDense .mat) .d true, .obj .vector .d true, .obj .tdense .d false], .adds_row, (some .d), [0, 1, 2]⟩,
  ⟨.adds_row, [.obj (.viewTDense .mat) .d true, .obj .vector .d true, .obj (.viewTDense .vec) .d false], .adds_row, (some .d), [0, 1, 2]⟩,
  ⟨.adds_row, [.obj (.viewTDense .mat) .d true, .obj .vector .d true, .obj (.viewTDense .mat) .d false], .adds_row, (some .d), [0, 1, 2]⟩,
  ⟨.adds_row, [.obj (.viewTDense .mat) .d true, .obj .vector .d true, .obj (.viewTDense .ten) .d false], .adds_row, (some .d), [0, 1, 2]⟩,
  ⟨.adds_row, [.obj (.viewTDense .mat) .d true, .obj (.view1D .vec) .d true, .obj .tdense .d false], .adds_row, (some .d), [0, 1, 2]⟩,
  ⟨.adds_row, [.obj (.viewTDense .mat) .d true, .obj (.view1D .vec) .d true, .obj (.viewTDense .vec) .d false], .adds_row, (some .d), [0, 1, 2]⟩,
  ⟨.adds_row, [.obj (.viewTDense .mat) .d true, .obj (.view1D .vec) .d true, .obj (.viewTDense .mat) .d false], .adds_row, (some .d), [0, 1, 2]⟩,
  ⟨.adds_row, [.obj (.viewTDense .mat) .d true, .obj (.view1D .vec) .d true, .obj (.viewTDense .ten) .d false], .adds_row, (some .d), [0, 1, 2]⟩,
  ⟨.adds_row, [.obj (.viewTDense .mat) .d true, .obj (.view1D .mat) .d true, .obj .tdense .d false], .adds_row, (some .d), [0, 1, 2]⟩,
  ⟨.adds_row, [.obj (.viewTDense .mat) .d true, .obj (.view1D .mat) .d true, .obj (.viewTDense .vec) .d false], .adds_row, (some .d), [0, 1, 2]⟩,
  ⟨.adds_row, [.obj (.viewTDense .mat) .d true, .obj (.view1D .mat) .d true, .obj (.viewTDense .mat) .d false], .adds_row, (some .d), [0, 1, 2]⟩,
  ⟨.adds_row, [.obj (.viewTDense .mat) .d true, .obj (.view1D .mat) .d true, .obj (.viewTDense .ten) .d false], .adds_row, (some .d), [0, 1, 2]⟩,
  ⟨.adds_row, [.obj (.viewTDense .mat) .d true, .obj (.view1D .ten) .d true, .obj .tdense .d false], .adds_row, (some .d), [0, 1, 2]⟩,
  ⟨.adds_row, [.obj (.viewTDense .mat) .d true, .obj (.view1D .ten) .d true, .obj (.viewTDense .vec) .d false], .adds_row, (some .d), [0, 1, 2]⟩,
  ⟨.adds_row, [.obj (.viewTDense .mat) .d true, .obj (.view1D .ten) .d true, .obj (.viewTDense .mat) .d false], .adds_row, (some .d), [0, 1, 2]⟩,
  ⟨.adds_row, [.obj (.viewTDense .mat) .d true, .obj (.view1D .ten) .d true, .obj (.viewTDense .ten) .d false], .adds_row, (some .d), [0, 1, 2]⟩,
  ⟨.adds_row, [.obj (.viewTDense .ten) .d true, .obj .vector .d true, .obj .tdense .d false], .adds_row, (some .d), [0, 1, 2]⟩,
  ⟨.adds_row, [.obj (.viewTDense .ten) .d true, .obj .vector .d true, .obj (.viewTDense .vec) .d false], .adds_row, (some .d), [0, 1, 2]⟩,
  ⟨.adds_row, [.obj (.viewTDense .ten) .d true, .obj .vector .d true, .obj (.viewTDense .mat) .d false], .adds_row, (some .d), [0, 1, 2]⟩,
  ⟨.adds_row, [.obj (.viewTDense .ten) .d true, .obj .vector .d true, .obj (.viewTDense .ten) .d false], .adds_row, (some .d), [0, 1, 2]⟩,
  ⟨.adds_row, [.obj (.viewTDense .ten) .d true, .obj (.view1D .vec) .d true, .obj .tdense .d false], .adds_row, (some .d), [0, 1, 2]⟩,
  ⟨.adds_row, [.obj (.viewTDense .ten) .d true, .obj (.view1D .vec) .d true, .obj (.viewTDense .vec) .d false], .adds_row, (some .d), [0, 1, 2]⟩,
  ⟨.adds_row, [.obj (.viewTDense .ten) .d true, .obj (.view1D .vec) .d true, .obj (.viewTDense .mat) .d false], .adds_row, (some .d), [0, 1, 2]⟩,
  ⟨.adds_row, [.obj (.viewTDense .ten) .d true, .obj (.view1D .vec) .d true, .obj (.viewTDense .ten) .d false], .adds_row, (some .d), [0, 1, 2]⟩,
  ⟨.adds_row, [.obj (.viewTDense .ten) .d true, .obj (.view1D .mat) .d true, .obj .tdense .d false], .adds_row, (some .d), [0, 1, 2]⟩,
  ⟨.adds_row, [.obj (.viewTDense .ten) .d true, .obj (.view1D .mat) .d true, .obj (.viewTDense .vec) .d false], .adds_row, (some .d), [0, 1, 2]⟩,
  ⟨.adds_row, [.obj (.viewTDense .ten) .d true, .obj (.view1D .mat) .d true, .obj (.viewTDense .mat) .d false], .adds_row, (some .d), [0, 1, 2]⟩,
  ⟨.adds_row, [.obj (.viewTDense .ten) .d true, .obj (.view1D .mat) .d true, .obj (.viewTDense .ten) .d false], .adds_row, (some .d), [0, 1, 2]⟩,
  ⟨.adds_row, [.obj (.viewTDense .ten) .d true, .obj (.view1D .ten) .d true, .obj .tdense .d false], .adds_row, (some .d), [0, 1, 2]⟩,
  ⟨.adds_row, [.obj (.viewTDense .ten) .d true, .obj (.view1D .ten) .d true, .obj (.viewTDense .vec) .d false], .adds_row, (some .d), [0, 1, 2]⟩,
  ⟨.adds_row, [.obj (.viewTDense .ten) .d true, .obj (.view1D .ten) .d true, .obj (.viewTDense .mat) .d false], .adds_row, (some .d), [0, 1, 2]⟩,
  ⟨.adds_row, [.obj (.viewTDense .ten) .d true, .obj (.view1D .ten) .d true, .obj (.viewTDense .ten) .d false], .adds_row, (some .d), [0, 1, 2]⟩,
  ⟨.adds_row, [.obj .tdense .s true, .obj .vector .s true, .obj .tdense .s false], .adds_row, (some .s), [0, 1, 2]⟩,
  ⟨.adds_row, [.obj .tdense .s true, .obj .vector .s true, .obj (.viewTDense .vec) .s false], .adds_row, (some .s), [0, 1, 2]⟩,
  ⟨.adds_row, [.obj .tdense .s true, .obj .vector .s true, .obj (.viewTDense .mat) .s false], .adds_row, (some .s), [0, 1, 2]⟩,
  ⟨.adds_row, [.obj .tdense .s true, .obj .vector .s true, .obj (.viewTDense .ten) .s false], .adds_row, (some .s), [0, 1, 2]⟩,
  ⟨.adds_row, [.obj .tdense .s true, .obj (.view1D .vec) .s true, .obj .tdense .s false], .adds_row, (some .s), [0, 1, 2]⟩,
  ⟨.adds_row, [.obj .tdense .s true, .obj (.view1D .vec) .s true, .obj (.viewTDense .vec) .s false], .adds_row, (some .s), [0, 1, 2]⟩,
  ⟨.adds_row, [.obj .tdense .s true, .obj (.view1D .vec) .s true, .obj (.viewTDense .mat) .s false], .adds_row, (some .s), [0, 1, 2]⟩,
  ⟨.adds_row, [.obj .tdense .s true, .obj (.view1D .vec) .s true, .obj (.viewTDense .ten) .s false], .adds_row, (some .s), [0, 1, 2]⟩,
  ⟨.adds_row, [.obj .tdense .s true, .obj (.view1D .mat) .s true, .obj .tdense .s false], .adds_row, (some .s), [0, 1, 2]⟩,
  ⟨.adds_row, [.obj .tdense .s true, .obj (.view1D .mat) .s true, .obj (.viewTDense .vec) .s false], .adds_row, (some .s), [0, 1, 2]⟩,
  ⟨.adds_row, [.obj .tdense .s true, .obj (.view1D .mat) .s true, .obj (.viewTDense .mat) .s false], .adds_row, (some .s), [0, 1, 2]⟩,
  ⟨.adds_row, [.obj .tdense .s true, .obj (.view1D .mat) .s true, .obj (.viewTDense .ten) .s false], .adds_row, (some .s), [0, 1, 2]⟩,
  ⟨.adds_row, [.obj .tdense .s true, .obj (.view1D .ten) .s true, .obj .tdense .s false], .adds_row, (some .s), [0, 1, 2]⟩,
  ⟨.adds_row, [.obj .tdense .s true, .obj (.view1D .ten) .s true, .obj (.viewTDense .vec) .s false], .adds_row, (some .s), [0, 1, 2]⟩,
  ⟨.adds_row, [.obj .tdense .s true, .obj (.view1D .ten) .s true, .obj (.viewTDense .mat) .s false], .adds_row, (some .s), [0, 1, 2]⟩,
  ⟨.adds_row, [.obj .tdense .s true, .obj (.view1D .ten) .s true, .obj (.viewTDense .ten) .s false], .adds_row, (some .s), [0, 1, 2]⟩]

/-- src/blas/tensor/adds/adds.cpp:545-937 -/
def tTenAdds_1 : List Overload := [
  ⟨.adds_row, [.obj (.viewTDense .vec) .s true, .obj .vector .s true, .obj .tdense .s false], .adds_row, (some .s), [0, 1, 2]⟩,
  ⟨.adds_row, [.obj (.viewTDense .vec) .s true, .obj .vector .s true, .obj (.viewTDense .vec) .s false], .adds_row, (some .s), [0, 1, 2]⟩,
  ⟨.adds_row, [.obj (.viewTDense .vec) .s true, .obj .vector .s true, .obj (.viewTDense .mat) .s false], .adds_row, (some .s), [0, 1, 2]⟩,
  ⟨.adds_row, [.obj (.viewTDense .vec) .s true, .obj .vector .s true, .obj (.viewTDense .ten) .s false], .adds_row, (some .s), [0, 1, 2]⟩,
  ⟨.adds_row, [.obj (.viewTDense .vec) .s true, .obj (.view1D .vec) .s true, .obj .tdense .s false], .adds_row, (some .s), [0, 1, 2]⟩,
  ⟨.adds_row, [.obj (.viewTDense .vec) .s true, .obj (.view1D .vec) .s true, .obj (.viewTDense .vec) .s false], .adds_row, (some .s), [0, 1, 2]⟩,
  ⟨.adds_row, [.obj (.viewTDense .vec) .s true, .obj (.view1D .vec) .s true, .obj (.viewTDense .mat) .s false], .adds_row, (some .s), [0, 1, 2]⟩,
  ⟨.adds_row, [.obj (.viewTDense .vec) .s true, .obj (.view1D .vec) .s true, .obj (.viewTDense .ten) .s false], .adds_row, (some .s), [0, 1, 2]⟩,
  ⟨.adds_row, [.obj (.viewTDense .vec) .s true, .obj (.view1D .mat) .s true, .obj .tdense .s false], .adds_row, (some .s), [0, 1, 2]⟩,
  ⟨.adds_row, [.obj (.viewTDense .vec) .s true, .obj (.view1D .mat) .s true, .obj (.viewTDense .vec) .s false], .adds_row, (some .s), [0, 1, 2]⟩,
  ⟨.adds_row, [.obj (.viewTDense .vec) .s true, .obj (.view1D .mat) .s true, .obj (.viewTDense .mat) .s false], .adds_row, (some .s), [0, 1, 2]⟩,
  ⟨.adds_row, [.obj (.viewTDense .vec) .s true, .obj (.view1D .mat) .s true, .obj (.viewTDense .ten) .s false], .adds_row, (some .s), [0, 1, 2]⟩,
  ⟨.adds_row, [.obj (.viewTDense .vec) .s true, .obj (.view1D .ten) .s true, .obj .tdense .s false], .adds_row, (some .s), [0, 1, 2]⟩,
  ⟨.adds_row, [.obj (.viewTDense .vec) .s true, .obj (.view1D .ten) .s true, .obj (.viewTDense .vec) .s false], .adds_row, (some .s), [0, 1, 2]⟩,
  ⟨.adds_row, [.obj (.viewTDense .vec) .s true, .obj (.view1D .ten) .s true, .obj (.viewTDense .mat) .s false], .adds_row, (some .s), [0, 1, 2]⟩,
  ⟨.adds_row, [.obj (.viewTDense .vec) .s true, .obj (.view1D .ten) .s true, .obj (.viewTDense .ten) .s false], .adds_row, (some .s), [0, 1, 2]⟩,
  ⟨.adds_row, [.obj (.viewTDense .mat) .s true, .obj .vector .s true, .obj .tdense .s false], .adds_row, (some .s), [0, 1, 2]⟩,
  ⟨.adds_row, [.obj (.viewTDense .mat) .s true, .obj .vector .s true, .obj (.viewTDense .vec) .s false], .adds_row, (some .s), [0, 1, 2]⟩,
  ⟨.adds_row, [.obj (.viewTDense .mat) .s true, .obj .vector .s true, .obj (.viewTDense .mat) .s false], .adds_row, (some .s), [0, 1, 2]⟩,
  ⟨.adds_row, [.obj (.viewTDense .mat) .s true, .obj .vector .s true, .obj (.viewTDense .ten) .s false], .adds_row, (some .s), [0, 1, 2]⟩,
  ⟨.adds_row, [.obj (.viewTDense .mat) .s true, .obj (.view1D .vec) .s true, .obj .tdense .s false], .adds_row, (some .s), [0, 1, 2]⟩,
  ⟨.adds_row, [.obj (.viewTDense .mat) .s true, .obj (.view1D .vec) .s true, .obj (.viewTDense .vec) .s false], .adds_row, (some .s), [0, 1, 2]⟩,
  ⟨.adds_row, [.obj (.viewTDense .mat) .s true, .obj (.view1D .vec) .s true, .obj (.viewTDense .mat) .s false], .adds_row, (some .s), [0, 1, 2]⟩,
  ⟨.adds_row, [.obj (.viewTDense .mat) .s true, .obj (.view1D .vec) .s true, .obj (.viewTDense .ten) .s false], .adds_row, (some .s), [0, 1, 2]⟩,
  ⟨.adds_row, [.obj (.viewTDense .mat) .s true, .obj (.view1D .mat) .s true, .obj .tdense .s false], .adds_row, (some .s), [0, 1, 2]⟩,
  ⟨.adds_row, [.obj (.viewTDense .mat) .s true, .obj (.view1D .mat) .s true, .obj (.viewTDense .vec) .s false], .adds_row, (some .s), [0, 1, 2]⟩,
  ⟨.adds_row, [.obj (.viewTDense .mat) .s true, .obj (.view1D .mat) .s true, .obj (.viewTDense .mat) .s false], .adds_row, (some .s), [0, 1, 2]⟩,
  ⟨.adds_row, [.obj (.viewTDense .mat) .s true, .obj (.view1D .mat) .s true, .obj (.viewTDense .ten) .s false], .adds_row, (some .s), [0, 1, 2]⟩,
  ⟨.adds_row, [.obj (.viewTDense .mat) .s true, .obj (.view1D .ten) .s true, .obj .tdense .s false], .adds_row, (some .s), [0, 1, 2]⟩,
  ⟨.adds_row, [.obj (.viewTDense .mat) .s true, .obj (.view1D .ten) .s true, .obj (.viewTDense .vec) .s false], .adds_row, (some .s), [0, 1, 2]⟩,
  ⟨.adds_row, [.obj (.viewTDense .mat) .s true, .obj (.view1D .ten) .s true, .obj (.viewTDense .mat) .s false], .adds_row, (some .s), [0, 1, 2]⟩,
  ⟨.adds_row, [.obj (.viewTDense .mat) .s true, .obj (.view1D .ten) .s true, .obj (.viewTDense .ten) .s false], .adds_row, (some .s), [0, 1, 2]⟩,
  ⟨.adds_row, [.obj (.viewTDense .ten) .s true, .obj .vector .s true, .obj .tdense .s false], .adds_row, (some .s), [0, 1, 2]⟩,
  ⟨.adds_row, [.obj (.viewTDense .ten) .s true, .obj .vector .s true, .obj (.viewTDense .vec) .s false], .adds_row, (some .s), [0, 1, 2]⟩,
  ⟨.adds_row, [.obj (.viewTDense .ten) .s true, .obj .vector .s true, .obj (.viewTDense .mat) .s false], .adds_row, (some .s), [0, 1, 2]⟩,
  ⟨.adds_row, [.obj (.viewTDense .ten) .s true, .obj .vector .s true, .obj (.viewTDense .ten) .s false], .adds_row, (some .s), [0, 1, 2]⟩,
  ⟨.adds_row, [.obj (.viewTDense .ten) .s true, .obj (.view1D .vec) .s true, .obj .tdense .s false], .adds_row, (some .s), [0, 1, 2]⟩,
  ⟨.adds_row, [.obj (.viewTDense .ten) .s true, .obj (.view1D .vec) .s true, .obj (.viewTDense .vec) .s false], .adds_row, (some .s), [0, 1, 2]⟩,
  ⟨.adds_row, [.obj (.viewTDense .ten) .s true, .obj (.view1D .vec) .s true, .obj (.viewTDense .mat) .s false], .adds_row, (some .s), [0, 1, 2]⟩,
  ⟨.adds_row, [.obj (.viewTDense .ten) .s true, .obj (.view1D .vec) .s true, .obj (.viewTDense .ten) .s false], .adds_row, (some .s), [0, 1, 2]⟩,
  ⟨.adds_row, [.obj (.viewTDense .ten) .s true, .obj (.view1D .mat) .s true, .obj .tdense .s false], .adds_row, (some .s), [0, 1, 2]⟩,
  ⟨.adds_row, [.obj (.viewTDense .ten) .s true, .obj (.view1D .mat) .s true, .obj (.viewTDense .vec) .s false], .adds_row, (some .s), [0, 1, 2]⟩,
  ⟨.adds_row, [.obj (.viewTDense .ten) .s true, .obj (.view1D .mat) .s true, .obj (.viewTDense .mat) .s false], .adds_row, (some .s), [0, 1, 2]⟩,
  ⟨.adds_row, [.obj (.viewTDense .ten) .s true, .obj (.view1D .mat) .s true, .obj (.viewTDense .ten) .s false], .adds_row, (some .s), [0, 1, 2]⟩,
  ⟨.adds_row, [.obj (.viewTDense .ten) .s true, .obj (.view1D .ten) .s true, .obj .tdense .s false], .adds_row, (some .s), [0, 1, 2]⟩,
  ⟨.adds_row, [.obj (.viewTDense .ten) .s true, .obj (.view1D .ten) .s true, .obj (.viewTDense .vec) .s false], .adds_row, (some .s), [0, 1, 2]⟩,
  ⟨.adds_row, [.obj (.viewTDense .ten) .s true, .obj (.view1D .ten) .s true, .obj (.viewTDense .mat) .s false], .adds_row, (some .s), [0, 1, 2]⟩,
  ⟨.adds_row, [.obj (.viewTDense .ten) .s true, .obj (.view1D .ten) .s true, .obj (.viewTDense .ten) .s false], .adds_row, (some .s), [0, 1, 2]⟩,
  ⟨.adds_col, [.obj .tdense .d true, .obj .vector .d true, .obj .tdense .d false], .adds_col, (some .d), [0, 1, 2]⟩,
  ⟨.adds_col, [.obj .tdense .d true, .obj .vector .d true, .obj (.viewTDense .vec) .d false], .adds_col, (some .d), [0, 1, 2]⟩,
  ⟨.adds_col, [.obj .tdense .d true, .obj .vector .d true, .obj (.viewTDense .mat) .d false], .adds_col, (some .d), [0, 1, 2]⟩,
  ⟨.adds_col, [.obj .tdense .d true, .obj .vector .d true, .obj (.viewTDense .ten) .d false], .adds_col, (some .d), [0, 1, 2]⟩,
  ⟨.adds_col, [.obj .tdense .d true, .obj (.view1D .vec) .d true, .obj .tdense .d false], .adds_col, (some .d), [0, 1, 2]⟩,
  ⟨.adds_col, [.obj .tdense .d true, .obj (.view1D .vec) .d true, .obj (.viewTDense .vec) .d false], .adds_col, (some .d), [0, 1, 2]⟩,
  ⟨.adds_col, [.obj .tdense .d true, .obj (.view1D .vec) .d true, .obj (.viewTDense .mat) .d false], .adds_col, (some .d), [0, 1, 2]⟩,
  ⟨.adds_col, [.obj .tdense .d true, .obj (.view1D .vec) .d true, .obj (.viewTDense .ten) .d false], .adds_col, (some .d), [0, 1, 2]⟩,
  ⟨.adds_col, [.obj .tdense .d true, .obj (.view1D .mat) .d true, .obj .tdense .d false], .adds_col, (some .d), [0, 1, 2]⟩,
  ⟨.adds_col, [.obj .tdense .d true, .obj (.view1D .mat) .d true, .obj (.viewTDense .vec) .d false], .adds_col, (some .d), [0, 1, 2]⟩,
  ⟨.adds_col, [.obj .tdense .d true, .obj (.view1D .mat) .d true, .obj (.viewTDense .mat) .d false], .adds_col, (some .d), [0, 1, 2]⟩,
  ⟨.adds_col, [.obj .tdense .d true, .obj (.view1D .mat) .d true, .obj (.viewTDense .ten) .d false], .adds_col, (some .d), [0, 1, 2]⟩,
  ⟨.adds_col, [.obj .tdense .d true, .obj (.view1D .ten) .d true, .obj .tdense .d false], .adds_col, (some .d), [0, 1, 2]⟩,
  ⟨.adds_col, [.obj .tdense .d true, .obj (.view1D .ten) .d true, .obj (.viewTDense .vec) .d false], .adds_col, (some .d), [0, 1, 2]⟩,
  ⟨.adds_col, [.obj .tdense .d true, .obj (.view1D .ten) .d true, .obj (.viewTDense .mat) .d false], .adds_col, (some .d), [0, 1, 2]⟩,
  ⟨.adds_col, [.obj .tdense .d true, .obj (.view1D .ten) .d true, .obj (.viewTDense .ten) .d false], .adds_col, (some .d), [0, 1, 2]⟩,
  ⟨.adds_col, [.obj (.viewTDense .vec) .d true, .obj .vector .d true, .obj .tdense .d false], .adds_col, (some .d), [0, 1, 2]⟩,
  ⟨.adds_col, [.obj (.viewTDense .vec) .d true, .obj .vector .d true, .obj (.viewTDense .vec) .d false], .adds_col, (some .d), [0, 1, 2]⟩,
  ⟨.adds_col, [.obj (.viewTDense .vec) .d true, .obj .vector .d true, .obj (.viewTDense .mat) .d false], .adds_col, (some .d), [0, 1, 2]⟩,
  ⟨.adds_col, [.obj (.viewTDense .vec) .d true, .obj .vector .d true, .obj (.viewTDense .ten) .d false], .adds_col, (some .d), [0, 1, 2]⟩,
  ⟨.adds_col, [.obj (.viewTDense .vec) .d true, .obj (.view1D .vec) .d true, .obj .tdense .d false], .adds_col, (some .d), [0, 1, 2]⟩,
  ⟨.adds_col, [.obj (.viewTDense .vec) .d true, .obj (.view1D .vec) .d true, .obj (.viewTDense .vec) .d false], .adds_col, (some .d), [0, 1, 2]⟩,
  ⟨.adds_col, [.obj (.viewTDense .vec) .d true, .obj (.view1D .vec) .d true, .obj (.viewTDense .mat) .d false], .adds_col, (some .d), [0, 1, 2]⟩,
  ⟨.adds_col, [.obj (.viewTDense .vec) .d true, .obj (.view1D .vec) .d true, .obj (.viewTDense .ten) .d false], .adds_col, (some .d), [0, 1, 2]⟩,
  ⟨.adds_col, [.obj (.viewTDense .vec) .d true, .obj (.view1D .mat) .d true, .obj .tdense .d false], .adds_col, (some .d), [0, 1, 2]⟩,
  ⟨.adds_col, [.obj (.viewTDense .vec) .d true, .obj (.view1D .mat) .d true, .obj (.viewTDense .vec) .d false], .adds_col, (some .d), [0, 1, 2]⟩,
  ⟨.adds_col, [.obj (.viewTDense .vec) .d true, .obj (.view1D .mat) .d true, .obj (.viewTDense .mat) .d false], .adds_col, (some .d), [0, 1, 2]⟩,
  ⟨.adds_col, [.obj (.viewTDense .vec) .d true, .obj (.view1D .mat) .d true, .obj (.viewTDense .ten) .d false], .adds_col, (some .d), [0, 1, 2]⟩,
  ⟨.adds_col, [.obj (.viewTDense .vec) .d true, .obj (.view1D .ten) .d true, .obj .tdense .d false], .adds_col, (some .d), [0, 1, 2]⟩,
  ⟨.adds_col, [.obj (.viewTDense .vec) .d true, .obj (.view1D .ten) .d true, .obj (.viewTDense .vec) .d false], .adds_col, (some .d), [0, 1, 2]⟩,
  ⟨.adds_col, [.obj (.viewTDense .vec) .d true, .obj (.view1D .ten) .d true, .obj (.viewTDense .mat) .d false], .adds_col, (some .d), [0, 1, 2]⟩,
  ⟨.adds_col, [.obj (.viewTDense .vec) .d true, .obj (.view1D .ten) .d true, .obj (.viewTDense .ten) .d false], .adds_col, (some .d), [0, 1, 2]⟩]

/-- src/blas/tensor/adds/adds.cpp:938-1329 -/
def tTenAdds_2 : List Overload := [
  ⟨.adds_col, [.obj (.viewTDense .mat) .d true, .obj .vector .d true, .obj .tdense .d false], .adds_col, (some .d), [0, 1, 2]⟩,
  ⟨.adds_col, [.obj (.viewTDense .mat) .d true, .obj .vector .d true, .obj (.viewTDense .vec) .d false], .adds_col, (some .d), [0, 1, 2]⟩,
  ⟨.adds_col, [.obj (.viewTDense .mat) .d true, .obj .vector .d true, .obj (.viewTDense .mat) .d false], .adds_col, (some .d), [0, 1, 2]⟩,
  ⟨.adds_col, [.obj (.viewTDense .mat) .d true, .obj .vector .d true, .obj (.viewTDense .ten) .d false], .adds_col, (some .d), [0, 1, 2]⟩,
  ⟨.adds_col, [.obj (.viewTDense .mat) .d true, .obj (.view1D .vec) .d true, .obj .tdense .d false], .adds_col, (some .d), [0, 1, 2]⟩,
  ⟨.adds_col, [.obj (.viewTDense .mat) .d true, .obj (.view1D .vec) .d true, .obj (.viewTDense .vec) .d false], .adds_col, (some .d), [0, 1, 2]⟩,
  ⟨.adds_col, [.obj (.viewTDense .mat) .d true, .obj (.view1D .vec) .d true, .obj (.viewTDense .mat) .d false], .adds_col, (some .d), [0, 1, 2]⟩,
  ⟨.adds_col, [.obj (.viewTDense .mat) .d true, .obj (.view1D .vec) .d true, .obj (.viewTDense .ten) .d false], .adds_col, (some .d), [0, 1, 2]⟩,
  ⟨.adds_col, [.obj (.viewTDense .mat) .d true, .obj (.view1D .mat) .d true, .obj .tdense .d false], .adds_col, (some .d), [0, 1, 2]⟩,
  ⟨.adds_col, [.obj (.viewTDense .mat) .d true, .obj (.view1D .mat) .d true, .obj (.viewTDense .vec) .d false], .adds_col, (some .d), [0, 1, 2]⟩,
  ⟨.adds_col, [.obj (.viewTDense .mat) .d true, .obj (.view1D .mat) .d true, .obj (.viewTDense .mat) .d false], .adds_col, (some .d), [0, 1, 2]⟩,
  ⟨.adds_col, [.obj (.viewTDense .mat) .d true, .obj (.view1D .mat) .d true, .obj (.viewTDense .ten) .d false], .adds_col, (some .d), [0, 1, 2]⟩,
  ⟨.adds_col, [.obj (.viewTDense .mat) .d true, .obj (.view1D .ten) .d true, .obj .tdense .d false], .adds_col, (some .d), [0, 1, 2]⟩,
  ⟨.adds_col, [.obj (.viewTDense .mat) .d true, .obj (.view1D .ten) .d true, .obj (.viewTDense .vec) .d false], .adds_col, (some .d), [0, 1, 2]⟩,
  ⟨.adds_col, [.obj (.viewTDense .mat) .d true, .obj (.view1D .ten) .d true, .obj (.viewTDense .mat) .d false], .adds_col, (some .d), [0, 1, 2]⟩,
  ⟨.adds_col, [.obj (.viewTDense .mat) .d true, .obj (.view1D .ten) .d true, .obj (.viewTDense .ten) .d false], .adds_col, (some .d), [0, 1, 2]⟩,
  ⟨.adds_col, [.obj (.viewTDense .ten) .d true, .obj .vector .d true, .obj .tdense .d false], .adds_col, (some .d), [0, 1, 2]⟩,
  ⟨.adds_col, [.obj (.viewTDense .ten) .d true, .obj .vector .d true, .obj (.viewTDense .vec) .d false], .adds_col, (some .d), [0, 1, 2]⟩,
  ⟨.adds_col, [.obj (.viewTDense .ten) .d true, .obj .vector .d true, .obj (.viewTDense .mat) .d false], .adds_col, (some .d), [0, 1, 2]⟩,
  ⟨.adds_col, [.obj (.viewTDense .ten) .d true, .obj .vector .d true, .obj (.viewTDense .ten) .d false], .adds_col, (some .d), [0, 1, 2]⟩,
  ⟨.adds_col, [.obj (.viewTDense .ten) .d true, .obj (.view1D .vec) .d true, .obj .tdense .d false], .adds_col, (some .d), [0, 1, 2]⟩,
  ⟨.adds_col, [.obj (.viewTDense .ten) .d true, .obj (.view1D .vec) .d true, .obj (.viewTDense .vec) .d false], .adds_col, (some .d), [0, 1, 2]⟩,
  ⟨.adds_col, [.obj (.viewTDense .ten) .d true, .obj (.view1D .vec) .d true, .obj (.viewTDense .mat) .d false], .adds_col, (some .d), [0, 1, 2]⟩,
  ⟨.adds_col, [.obj (.viewTDense .ten) .d true, .obj (.view1D .vec) .d true, .obj (.viewTDense .ten) .d false], .adds_col, (some .d), [0, 1, 2]⟩,
  ⟨.adds_col, [.obj (.viewTDense .ten) .d true, .obj (.view1D .mat) .d true, .obj .tdense .d false], .adds_col, (some .d), [0, 1, 2]⟩,
  ⟨.adds_col, [.obj (.viewTDense .ten) .d true, .obj (.view1D .mat) .d true, .obj (.viewTDense .vec) .d false], .adds_col, (some .d), [0, 1, 2]⟩,
  ⟨.adds_col, [.obj (.viewTDense .ten) .d true, .obj (.view1D .mat) .d true, .obj (.viewTDense .mat) .d false], .adds_col, (some .d), [0, 1, 2]⟩,
  ⟨.adds_col, [.obj (.viewTDense .ten) .d true, .obj (.view1D .mat) .d true, .obj (.viewTDense .ten) .d false], .adds_col, (some .d), [0, 1, 2]⟩,
  ⟨.adds_col, [.obj (.viewTDense .ten) .d true, .obj (.view1D .ten) .d true, .obj .tdense .d false], .adds_col, (some .d), [0, 1, 2]⟩,
  ⟨.adds_col, [.obj (.viewTDense .ten) .d true, .obj (.view1D .ten) .d true, .obj (.viewTDense .vec) .d false], .adds_col, (some .d), [0, 1, 2]⟩,
  ⟨.adds_col, [.obj (.viewTDense .ten) .d true, .obj (.view1D .ten) .d true, .obj (.viewTDense .mat) .d false], .adds_col, (some .d), [0, 1, 2]⟩,
  ⟨.adds_col, [.obj (.viewTDense .ten) .d true, .obj (.view1D .ten) .d true, .obj (.viewTDense .ten) .d false], .adds_col, (some .d), [0, 1, 2]⟩,
  ⟨.adds_col, [.obj .tdense .s true, .obj .vector .s true, .obj .tdense .s false], .adds_col, (some .s), [0, 1, 2]⟩,
  ⟨.adds_col, [.obj .tdense .s true, .obj .vector .s true, .obj (.viewTDense .vec) .s false], .adds_col, (some .s), [0, 1, 2]⟩,
  ⟨.adds_col, [.obj .tdense .s true, .obj .vector .s true, .obj (.viewTDense .mat) .s false], .adds_col, (some .s), [0, 1, 2]⟩,
  ⟨.adds_col, [.obj .tdense .s true, .obj .vector .s true, .obj (.viewTDense .ten) .s false], .adds_col, (some .s), [0, 1, 2]⟩,
  ⟨.adds_col, [.obj .tdense .s true, .obj (.view1D .vec) .s true, .obj .tdense .s false], .adds_col, (some .s), [0, 1, 2]⟩,
  ⟨.adds_col, [.obj .tdense .s true, .obj (.view1D .vec) .s true, .obj (.viewTDense .vec) .s false], .adds_col, (some .s), [0, 1, 2]⟩,
  ⟨.adds_col, [.obj .tdense .s true, .obj (.view1D .vec) .s true, .obj (.viewTDense .mat) .s false], .adds_col, (some .s), [0, 1, 2]⟩,
  ⟨.adds_col, [.obj .tdense .s true, .obj (.view1D .vec) .s true, .obj (.viewTDense .ten) .s false], .adds_col, (some .s), [0, 1, 2]⟩,
  ⟨.adds_col, [.obj .tdense .s true, .obj (.view1D .mat) .s true, .obj .tdense .s false], .adds_col, (some .s), [0, 1, 2]⟩,
  ⟨.adds_col, [.obj .tdense .s true, .obj (.view1D .mat) .s true, .obj (.viewTDense .vec) .s false], .adds_col, (some .s), [0, 1, 2]⟩,
  ⟨.adds_col, [.obj .tdense .s true, .obj (.view1D .mat) .s true, .obj (.viewTDense .mat) .s false], .adds_col, (some .s), [0, 1, 2]⟩,
  ⟨.adds_col, [.obj .tdense .s true, .obj (.view1D .mat) .s true, .obj (.viewTDense .ten) .s false], .adds_col, (some .s), [0, 1, 2]⟩,
  ⟨.adds_col, [.obj .tdense .s true, .obj (.view1D .ten) .s true, .obj .tdense .s false], .adds_col, (some .s), [0, 1, 2]⟩,
  ⟨.adds_col, [.obj .tdense .s true, .obj (.view1D .ten) .s true, .obj (.viewTDense .vec) .s false], .adds_col, (some .s), [0, 1, 2]⟩,
  ⟨.adds_col, [.obj .tdense .s true, .obj (.view1D .ten) .s true, .obj (.viewTDense .mat) .s false], .adds_col, (some .s), [0, 1, 2]⟩,
  ⟨.adds_col, [.obj .tdense .s true, .obj (.view1D .ten) .s true, .obj (.viewTDense .ten) .s false], .adds_col, (some .s), [0, 1, 2]⟩,
  ⟨.adds_col, [.obj (.viewTDense .vec) .s true, .obj .vector .s true, .obj .tdense .s false], .adds_col, (some .s), [0, 1, 2]⟩,
  ⟨.adds_col, [.obj (.viewTDense .vec) .s true, .obj .vector .s true, .obj (.viewTDense .vec) .s false], .adds_col, (some .s), [0, 1, 2]⟩,
  ⟨.adds_col, [.obj (.viewTDense .vec) .s true, .obj .vector .s true, .obj (.viewTDense .mat) .s false], .adds_col, (some .s), [0, 1, 2]⟩,
  ⟨.adds_col, [.obj (.viewTDense .vec) .s true, .obj .vector .s true, .obj (.viewTDense .ten) .s false], .adds_col, (some .s), [0, 1, 2]⟩,
  ⟨.adds_col, [.obj (.viewTDense .vec) .s true, .obj (.view1D .vec) .s true, .obj .tdense .s false], .adds_col, (some .s), [0, 1, 2]⟩,
  ⟨.adds_col, [.obj (.viewTDense .vec) .s true, .obj (.view1D .vec) .s true, .obj (.viewTDense .vec) .s false], .adds_col, (some .s), [0, 1, 2]⟩,
  ⟨.adds_col, [.obj (.viewTDense .vec) .s true, .obj (.view1D .vec) .s true, .obj (.viewTDense .mat) .s false], .adds_col, (some .s), [0, 1, 2]⟩,
  ⟨.adds_col, [.obj (.viewTDense .vec) .s true, .obj (.view1D .vec) .s true, .obj (.viewTDense .ten) .s false], .adds_col, (some .s), [0, 1, 2]⟩,
  ⟨.adds_col, [.obj (.viewTDense .vec) .s true, .obj (.view1D .mat) .s true, .obj .tdense .s false], .adds_col, (some .s), [0, 1, 2]⟩,
  ⟨.adds_col, [.obj (.viewTDense .vec) .s true, .obj (.view1D .mat) .s true, .obj (.viewTDense .vec) .s false], .adds_col, (some .s), [0, 1, 2]⟩,
  ⟨.adds_col, [.obj (.viewTDense .vec) .s true, .obj (.view1D .mat) .s true, .obj (.viewTDense .mat) .s false], .adds_col, (some .s), [0, 1, 2]⟩,
  ⟨.adds_col, [.obj (.viewTDense .vec) .s true, .obj (.view1D .mat) .s true, .obj (.viewTDense .ten) .s false], .adds_col, (some .s), [0, 1, 2]⟩,
  ⟨.adds_col, [.obj (.viewTDense .vec) .s true, .obj (.view1D .ten) .s true, .obj .tdense .s false], .adds_col, (some .s), [0, 1, 2]⟩,
  ⟨.adds_col, [.obj (.viewTDense .vec) .s true, .obj (.view1D .ten) .s true, .obj (.viewTDense .vec) .s false], .adds_col, (some .s), [0, 1, 2]⟩,
  ⟨.adds_col, [.obj (.viewTDense .vec) .s true, .obj (.view1D .ten) .s true, .obj (.viewTDense .mat) .s false], .adds_col, (some .s), [0, 1, 2]⟩,
  ⟨.adds_col, [.obj (.viewTDense .vec) .s true, .obj (.view1D .ten) .s true, .obj (.viewTDense .ten) .s false], .adds_col, (some .s), [0, 1, 2]⟩,
  ⟨.adds_col, [.obj (.viewTDense .mat) .s true, .obj .vector .s true, .obj .tdense .s false], .adds_col, (some .s), [0, 1, 2]⟩,
  ⟨.adds_col, [.obj (.viewTDense .mat) .s true, .obj .vector .s true, .obj (.viewTDense .vec) .s false], .adds_col, (some .s), [0, 1, 2]⟩,
  ⟨.adds_col, [.obj (.viewTDense .mat) .s true, .obj .vector .s true, .obj (.viewTDense .mat) .s false], .adds_col, (some .s), [0, 1, 2]⟩,
  ⟨.adds_col, [.obj (.viewTDense .mat) .s true, .obj .vector .s true, .obj (.viewTDense .ten) .s false], .adds_col, (some .s), [0, 1, 2]⟩,
  ⟨.adds_col, [.obj (.viewTDense .mat) .s true, .obj (.view1D .vec) .s true, .obj .tdense .s false], .adds_col, (some .s), [0, 1, 2]⟩,
  ⟨.adds_col, [.obj (.viewTDense .mat) .s true, .obj (.view1D .vec) .s true, .obj (.viewTDense .vec) .s false], .adds_col, (some .s), [0, 1, 2]⟩,
  ⟨.adds_col, [.obj (.viewTDense .mat) .s true, .obj (.view1D .vec) .s true, .obj (.viewTDense .mat) .s false], .adds_col, (some .s), [0, 1, 2]⟩,
  ⟨.adds_col, [.obj (.viewTDense .mat) .s true, .obj (.view1D .vec) .s true, .obj (.viewTDense .ten) .s false], .adds_col, (some .s), [0, 1, 2]⟩,
  ⟨.adds_col, [.obj (.viewTDense .mat) .s true, .obj (.view1D .mat) .s true, .obj .tdense .s false], .adds_col, (some .s), [0, 1, 2]⟩,
  ⟨.adds_col, [.obj (.viewTDense .mat) .s true, .obj (.view1D .mat) .s true, .obj (.viewTDense .vec) .s false], .adds_col, (some .s), [0, 1, 2]⟩,
  ⟨.adds_col, [.obj (.viewTDense .mat) .s true, .obj (.view1D .mat) .s true, .obj (.viewTDense .mat) .s false], .adds_col, (some .s), [0, 1, 2]⟩,
  ⟨.adds_col, [.obj (.viewTDense .mat) .s true, .obj (.view1D .mat) .s true, .obj (.viewTDense .ten) .s false], .adds_col, (some .s), [0, 1, 2]⟩,
  ⟨.adds_col, [.obj (.viewTDense .mat) .s true, .obj (.view1D .ten) .s true, .obj .tdense .s false], .adds_col, (some .s), [0, 1, 2]⟩,
  ⟨.adds_col, [.obj (.viewTDense .mat) .s true, .obj (.view1D .ten) .s true, .obj (.viewTDense .vec) .s false], .adds_col, (some .s), [0, 1, 2]⟩,
  ⟨.adds_col, [.obj (.viewTDense .mat) .s true, .obj (.view1D .ten) .s true, .obj (.viewTDense .mat) .s false], .adds_col, (some .s), [0, 1, 2]⟩,
  ⟨.adds_col, [.obj (.viewTDense .mat) .s true, .obj (.view1D .ten) .s true, .obj (.viewTDense .ten) .s false], .adds_col, (some .s), [0, 1, 2]⟩]

/-- src/blas/tensor/adds/adds.cpp:1330-1740 -/
def tTenAdds_3 : List Overload := [
  ⟨.adds_col, [.obj (.viewTDense .ten) .s true, .obj .vector .s true, .obj .tdense .s false], .adds_col, (some .s), [0, 1, 2]⟩,
  ⟨.adds_col, [.obj (.viewTDense .ten) .s true, .obj .vector .s true, .obj (.viewTDense .vec) .s false], .adds_col, (some .s), [0, 1, 2]⟩,
  ⟨.adds_col, [.obj (.viewTDense .ten) .s true, .obj .vector .s true, .obj (.viewTDense .mat) .s false], .adds_col, (some .s), [0, 1, 2]⟩,
  ⟨.adds_col, [.obj (.viewTDense .ten) .s true, .obj .vector .s true, .obj (.viewTDense .ten) .s false], .adds_col, (some .s), [0, 1, 2]⟩,
  ⟨.adds_col, [.obj (.viewTDense .ten) .s true, .obj (.view1D .vec) .s true, .obj .tdense .s false], .adds_col, (some .s), [0, 1, 2]⟩,
  ⟨.adds_col, [.obj (.viewTDense .ten) .s true, .obj (.view1D .vec) .s true, .obj (.viewTDense .vec) .s false], .adds_col, (some .s), [0, 1, 2]⟩,
  ⟨.adds_col, [.obj (.viewTDense .ten) .s true, .obj (.view1D .vec) .s true, .obj (.viewTDense .mat) .s false], .adds_col, (some .s), [0, 1, 2]⟩,
  ⟨.adds_col, [.obj (.viewTDense .ten) .s true, .obj (.view1D .vec) .s true, .obj (.viewTDense .ten) .s false], .adds_col, (some .s), [0, 1, 2]⟩,
  ⟨.adds_col, [.obj (.viewTDense .ten) .s true, .obj (.view1D .mat) .s true, .obj .tdense .s false], .adds_col, (some .s), [0, 1, 2]⟩,
  ⟨.adds_col, [.obj (.viewTDense .ten) .s true, .obj (.view1D .mat) .s true, .obj (.viewTDense .vec) .s false], .adds_col, (some .s), [0, 1, 2]⟩,
  ⟨.adds_col, [.obj (.viewTDense .ten) .s true, .obj (.view1D .mat) .s true, .obj (.viewTDense .mat) .s false], .adds_col, (some .s), [0, 1, 2]⟩,
  ⟨.adds_col, [.obj (.viewTDense .ten) .s true, .obj (.view1D .mat) .s true, .obj (.viewTDense .ten) .s false], .adds_col, (some .s), [0, 1, 2]⟩,
  ⟨.adds_col, [.obj (.viewTDense .ten) .s true, .obj (.view1D .ten) .s true, .obj .tdense .s false], .adds_col, (some .s), [0, 1, 2]⟩,
  ⟨.adds_col, [.obj (.viewTDense .ten) .s true, .obj (.view1D .ten) .s true, .obj (.viewTDense .vec) .s false], .adds_col, (some .s), [0, 1, 2]⟩,
  ⟨.adds_col, [.obj (.viewTDense .ten) .s true, .obj (.view1D .ten) .s true, .obj (.viewTDense .mat) .s false], .adds_col, (some .s), [0, 1, 2]⟩,
  ⟨.adds_col, [.obj (.viewTDense .ten) .s true, .obj (.view1D .ten) .s true, .obj (.viewTDense .ten) .s false], .adds_col, (some .s), [0, 1, 2]⟩,
  ⟨.adds_row, [.obj .tdense .d true, .num, .obj .vector .d true, .obj .tdense .d false], .adds_row, (some .d), [0, 1, 2, 3]⟩,
  ⟨.adds_row, [.obj .tdense .d true, .num, .obj .vector .d true, .obj (.viewTDense .vec) .d false], .adds_row, (some .d), [0, 1, 2, 3]⟩,
  ⟨.adds_row, [.obj .tdense .d true, .num, .obj .vector .d true, .obj (.viewTDense .mat) .d false], .adds_row, (some .d), [0, 1, 2, 3]⟩,
  ⟨.adds_row, [.obj .tdense .d true, .num, .obj .vector .d true, .obj (.viewTDense .ten) .d false], .adds_row, (some .d), [0, 1, 2, 3]⟩,
  ⟨.adds_row, [.obj .tdense .d true, .num, .obj (.view1D .vec) .d true, .obj .tdense .d false], .adds_row, (some .d), [0, 1, 2, 3]⟩,
  ⟨.adds_row, [.obj .tdense .d true, .num, .obj (.view1D .vec) .d true, .obj (.viewTDense .vec) .d false], .adds_row, (some .d), [0, 1, 2, 3]⟩,
  ⟨.adds_row, [.obj .tdense .d true, .num, .obj (.view1D .vec) .d true, .obj (.viewTDense .mat) .d false], .adds_row, (some .d), [0, 1, 2, 3]⟩,
  ⟨.adds_row, [.obj .tdense .d true, .num, .obj (.view1D .vec) .d true, .obj (.viewTDense .ten) .d false], .adds_row, (some .d), [0, 1, 2, 3]⟩,
  ⟨.adds_row, [.obj .tdense .d true, .num, .obj (.view1D .mat) .d true, .obj .tdense .d false], .adds_row, (some .d), [0, 1, 2, 3]⟩,
  ⟨.adds_row, [.obj .tdense .d true, .num, .obj (.view1D .mat) .d true, .obj (.viewTDense .vec) .d false], .adds_row, (some .d), [0, 1, 2, 3]⟩,
  ⟨.adds_row, [.obj .tdense .d true, .num, .obj (.view1D .mat) .d true, .obj (.viewTDense .mat) .d false], .adds_row, (some .d), [0, 1, 2, 3]⟩,
  ⟨.adds_row, [.obj .tdense .d true, .num, .obj (.view1D .mat) .d true, .obj (.viewTDense .ten) .d false], .adds_row, (some .d), [0, 1, 2, 3]⟩,
  ⟨.adds_row, [.obj .tdense .d true, .num, .obj (.view1D .ten) .d true, .obj .tdense .d false], .adds_row, (some .d), [0, 1, 2, 3]⟩,
  ⟨.adds_row, [.obj .tdense .d true, .num, .obj (.view1D .ten) .d true, .obj (.viewTDense .vec) .d false], .adds_row, (some .d), [0, 1, 2, 3]⟩,
  ⟨.adds_row, [.obj .tdense .d true, .num, .obj (.view1D .ten) .d true, .obj (.viewTDense .mat) .d false], .adds_row, (some .d), [0, 1, 2, 3]⟩,
  ⟨.adds_row, [.obj .tdense .d true, .num, .obj (.view1D .ten) .d true, .obj (.viewTDense .ten) .d false], .adds_row, (some .d), [0, 1, 2, 3]⟩,
  ⟨.adds_row, [.obj (.viewTDense .vec) .d true, .num, .obj .vector .d true, .obj .tdense .d false], .adds_row, (some .d), [0, 1, 2, 3]⟩,
  ⟨.adds_row, [.obj (.viewTDense .vec) .d true, .num, .obj .vector .d true, .obj (.viewTDense .vec) .d false], .adds_row, (some .d), [0, 1, 2, 3]⟩,
  ⟨.adds_row, [.obj (.viewTDense .vec) .d true, .num, .obj .vector .d true, .obj (.viewTDense .mat) .d false], .adds_row, (some .d), [0, 1, 2, 3]⟩,
  ⟨.adds_row, [.obj (.viewTDense .vec) .d true, .num, .obj .vector .d true, .obj (.viewTDense .ten) .d false], .adds_row, (some .d), [0, 1, 2, 3]⟩,
  ⟨.adds_row, [.obj (.viewTDense .vec) .d true, .num, .obj (.view1D .vec) .d true, .obj .tdense .d false], .adds_row, (some .d), [0, 1, 2, 3]⟩,
  ⟨.adds_row, [.obj (.viewTDense .vec) .d true, .num, .obj (.view1D .vec) .d true, .obj (.viewTDense .vec) .d false], .adds_row, (some .d), [0, 1, 2, 3]⟩,
  ⟨.adds_row, [.obj (.viewTDense .vec) .d true, .num, .obj (.view1D .vec) .d true, .obj (.viewTDense .mat) .d false], .adds_row, (some .d), [0, 1, 2, 3]⟩,
  ⟨.adds_row, [.obj (.viewTDense .vec) .d true, .num, .obj (.view1D .vec) .d true, .obj (.viewTDense .ten) .d false], .adds_row, (some .d), [0, 1, 2, 3]⟩,
  ⟨.adds_row, [.obj (.viewTDense .vec) .d true, .num, .obj (.view1D .mat) .d true, .obj .tdense .d false], .adds_row, (some .d), [0, 1, 2, 3]⟩,
  ⟨.adds_row, [.obj (.viewTDense .vec) .d true, .num, .obj (.view1D .mat) .d true, .obj (.viewTDense .vec) .d false], .adds_row, (some .d), [0, 1, 2, 3]⟩,
  ⟨.adds_row, [.obj (.viewTDense .vec) .d true, .num, .obj (.view1D .mat) .d true, .obj (.viewTDense .mat) .d false], .adds_row, (some .d), [0, 1, 2, 3]⟩,
  ⟨.adds_row, [.obj (.viewTDense .vec) .d true, .num, .obj (.view1D .mat) .d true, .obj (.viewTDense .ten) .d false], .adds_row, (some .d), [0, 1, 2, 3]⟩,
  ⟨.adds_row, [.obj (.viewTDense .vec) .d true, .num, .obj (.view1D .ten) .d true, .obj .tdense .d false], .adds_row, (some .d), [0, 1, 2, 3]⟩,
  ⟨.adds_row, [.obj (.viewTDense .vec) .d true, .num, .obj (.view1D .ten) .d true, .obj (.viewTDense .vec) .d false], .adds_row, (some .d), [0, 1, 2, 3]⟩,
  ⟨.adds_row, [.obj (.viewTDense .vec) .d true, .num, .obj (.view1D .ten) .d true, .obj (.viewTDense .mat) .d false], .adds_row, (some .d), [0, 1, 2, 3]⟩,
  ⟨.adds_row, [.obj (.viewTDense .vec) .d true, .num, .obj (.view1D .ten) .d true, .obj (.viewTDense .ten) .d false], .adds_row, (some .d), [0, 1, 2, 3]⟩,
  ⟨.adds_row, [.obj (.viewTDense .mat) .d true, .num, .obj .vector .d true, .obj .tdense .d false], .adds_row, (some .d), [0, 1, 2, 3]⟩,
  ⟨.adds_row, [.obj (.viewTDense .mat) .d true, .num, .obj .vector .d true, .obj (.viewTDense .vec) .d false], .adds_row, (some .d), [0, 1, 2, 3]⟩,
  ⟨.adds_row, [.obj (.viewTDense .mat) .d true, .num, .obj .vector .d true, .obj (.viewTDense .mat) .d false], .adds_row, (some .d), [0, 1, 2, 3]⟩,
  ⟨.adds_row, [.obj (.viewTDense .mat) .d true, .num, .obj .vector .d true, .obj (.viewTDense .ten) .d false], .adds_row, (some .d), [0, 1, 2, 3]⟩,
  ⟨.adds_row, [.obj (.viewTDense .mat) .d true, .num, .obj (.view1D .vec) .d true, .obj .tdense .d false], .adds_row, (some .d), [0, 1, 2, 3]⟩,
  ⟨.adds_row, [.obj (.viewTDense .mat) .d true, .num, .obj (.view1D .vec) .d true, .obj (.viewTDense .vec) .d false], .adds_row, (some .d), [0, 1, 2, 3]⟩,
  ⟨.adds_row, [.obj (.viewTDense .mat) .d true, .num, .obj (.view1D .vec) .d true, .obj (.viewTDense .mat) .d false], .adds_row, (some .d), [0, 1, 2, 3]⟩,
  ⟨.adds_row, [.obj (.viewTDense .mat) .d true, .num, .obj (.view1D .vec) .d true, .obj (.viewTDense .ten) .d false], .adds_row, (some .d), [0, 1, 2, 3]⟩,
  ⟨.adds_row, [.obj (.viewTDense .mat) .d true, .num, .obj (.view1D .mat) .d true, .obj .tdense .d false], .adds_row, (some .d), [0, 1, 2, 3]⟩,
  ⟨.adds_row, [.obj (.viewTDense .mat) .d true, .num, .obj (.view1D .mat) .d true, .obj (.viewTDense .vec) .d false], .adds_row, (some .d), [0, 1, 2, 3]⟩,
  ⟨.adds_row, [.obj (.viewTDense .mat) .d true, .num, .obj (.view1D .mat) .d true, .obj (.viewTDense .mat) .d false], .adds_row, (some .d), [0, 1, 2, 3]⟩,
  ⟨.adds_row, [.obj (.viewTDense .mat) .d true, .num, .obj (.view1D .mat) .d true, .obj (.viewTDense .ten) .d false], .adds_row, (some .d), [0, 1, 2, 3]⟩,
  ⟨.adds_row, [.obj (.viewTDense .mat) .d true, .num, .obj (.view1D .ten) .d true, .obj .tdense .d false], .adds_row, (some .d), [0, 1, 2, 3]⟩,
  ⟨.adds_row, [.obj (.viewTDense .mat) .d true, .num, .obj (.view1D .ten) .d true, .obj (.viewTDense .vec) .d false], .adds_row, (some .d), [0, 1, 2, 3]⟩,
  ⟨.adds_row, [.obj (.viewTDense .mat) .d true, .num, .obj (.view1D .ten) .d true, .obj (.viewTDense .mat) .d false], .adds_row, (some .d), [0, 1, 2, 3]⟩,
  ⟨.adds_row, [.obj (.viewTDense .mat) .d true, .num, .obj (.view1D .ten) .d true, .obj (.viewTDense .ten) .d false], .adds_row, (some .d), [0, 1, 2, 3]⟩,
  ⟨.adds_row, [.obj (.viewTDense .ten) .d true, .num, .obj .vector .d true, .obj .tdense .d false], .adds_row, (some .d), [0, 1, 2, 3]⟩,
  ⟨.adds_row, [.obj (.viewTDense .ten) .d true, .num, .obj .vector .d true, .obj (.viewTDense .vec) .d false], .adds_row, (some .d), [0, 1, 2, 3]⟩,
  ⟨.adds_row, [.obj (.viewTDense .ten) .d true, .num, .obj .vector .d true, .obj (.viewTDense .mat) .d false], .adds_row, (some .d), [0, 1, 2, 3]⟩,
  ⟨.adds_row, [.obj (.viewTDense .ten) .d true, .num, .obj .vector .d true, .obj (.viewTDense .ten) .d false], .adds_row, (some .d), [0, 1, 2, 3]⟩,
  ⟨.adds_row, [.obj (.viewTDense .ten) .d true, .num, .obj (.view1D .vec) .d true, .obj .tdense .d false], .adds_row, (some .d), [0, 1, 2, 3]⟩,
  ⟨.adds_row, [.obj (.viewTDense .ten) .d true, .num, .obj (.view1D .vec) .d true, .obj (.viewTDense .vec) .d false], .adds_row, (some .d), [0, 1, 2, 3]⟩,
  ⟨.adds_row, [.obj (.viewTDense .ten) .d true, .num, .obj (.view1D .vec) .d true, .obj (.viewTDense .mat) .d false], .adds_row, (some .d), [0, 1, 2, 3]⟩,
  ⟨.adds_row, [.obj (.viewTDense .ten) .d true, .num, .obj (.view1D .vec) .d true, .obj (.viewTDense .ten) .d false], .adds_row, (some .d), [0, 1, 2, 3]⟩,
  ⟨.adds_row, [.obj (.viewTDense .ten) .d true, .num, .obj (.view1D .mat) .d true, .obj .tdense .d false], .adds_row, (some .d), [0, 1, 2, 3]⟩,
  ⟨.adds_row, [.obj (.viewTDense .ten) .d true, .num, .obj (.view1D .mat) .d true, .obj (.viewTDense .vec) .d false], .adds_row, (some .d), [0, 1, 2, 3]⟩,
  ⟨.adds_row, [.obj (.viewTDense .ten) .d true, .num, .obj (.view1D .mat) .d true, .obj (.viewTDense .mat) .d false], .adds_row, (some .d), [0, 1, 2, 3]⟩,
  ⟨.adds_row, [.obj (.viewTDense .ten) .d true, .num, .obj (.view1D .mat) .d true, .obj (.viewTDense .ten) .d false], .adds_row, (some .d), [0, 1, 2, 3]⟩,
  ⟨.adds_row, [.obj (.viewTDense .ten) .d true, .num, .obj (.view1D .ten) .d true, .obj .tdense .d false], .adds_row, (some .d), [0, 1, 2, 3]⟩,
  ⟨.adds_row, [.obj (.viewTDense .ten) .d true, .num, .obj (.view1D .ten) .d true, .obj (.viewTDense .vec) .d false], .adds_row, (some .d), [0, 1, 2, 3]⟩,
  ⟨.adds_row, [.obj (.viewTDense .ten) .d true, .num, .obj (.view1D .ten) .d true, .obj (.viewTDense .mat) .d false], .adds_row, (some .d), [0, 1, 2, 3]⟩,
  ⟨.adds_row, [.obj (.viewTDense .ten) .d true, .num, .obj (.view1D .ten) .d true, .obj (.viewTDense .ten) .d false], .adds_row, (some .d), [0, 1, 2, 3]⟩]

/-- src/blas/tensor/adds/adds.cpp:1741-2151 -/
def tTenAdds_4 : List Overload := [
  ⟨.adds_row, [.obj .tdense .s true, .num, .obj .vector .s true, .obj .tdense .s false], .adds_row, (some .s), [0, 1, 2, 3]⟩,
  ⟨.adds_row, [.obj .tdense .s true, .num, .obj .vector .s true, .obj (.viewTDense .vec) .s false], .adds_row, (some .s), [0, 1, 2, 3]⟩,
  ⟨.adds_row, [.obj .tdense .s true, .num, .obj .vector .s true, .obj (.viewTDense .mat) .s false], .adds_row, (some .s), [0, 1, 2, 3]⟩,
  ⟨.adds_row, [.obj .tdense .s true, .num, .obj .vector .s true, .obj (.viewTDense .ten) .s false], .adds_row, (some .s), [0, 1, 2, 3]⟩,
  ⟨.adds_row, [.obj .tdense .s true, .num, .obj (.view1D .vec) .s true, .obj .tdense .s false], .adds_row, (some .s), [0, 1, 2, 3]⟩,
  ⟨.adds_row, [.obj .tdense .s true, .num, .obj (.view1D .vec) .s true, .obj (.viewTDense .vec) .s false], .adds_row, (some .s), [0, 1, 2, 3]⟩,
  ⟨.adds_row, [.obj .tdense .s true, .num, .obj (.view1D .vec) .s true, .obj (.viewTDense .mat) .s false], .adds_row, (some .s), [0, 1, 2, 3]⟩,
  ⟨.adds_row, [.obj .tdense .s true, .num, .obj (.view1D .vec) .s true, .obj (.viewTDense .ten) .s false], .adds_row, (some .s), [0, 1, 2, 3]⟩,
  ⟨.adds_row, [.obj .tdense .s true, .num, .obj (.view1D .mat) .s true, .obj .tdense .s false], .adds_row, (some .s), [0, 1, 2, 3]⟩,
  ⟨.adds_row, [.obj .tdense .s true, .num, .obj (.view1D .mat) .s true, .obj (.viewTDense .vec) .s false], .adds_row, (some .s), [0, 1, 2, 3]⟩,
  ⟨.adds_row, [.obj .tdense .s true, .num, .obj (.view1D .mat) .s true, .obj (.viewTDense .mat) .s false], .adds_row, (some .s), [0, 1, 2, 3]⟩,
  ⟨.adds_row, [.obj .tdense .s true, .num, .obj (.view1D .mat) .s true, .obj (.viewTDense .ten) .s false], .adds_row, (some .s), [0, 1, 2, 3]⟩,
  ⟨.adds_row, [.obj .tdense .s true, .num, .obj (.view1D .ten) .s true, .obj .tdense .s false], .adds_row, (some .s), [0, 1, 2, 3]⟩,
  ⟨.adds_row, [.obj .tdense .s true, .num, .obj (.view1D .ten) .s true, .obj (.viewTDense .vec) .s false], .adds_row, (some .s), [0, 1, 2, 3]⟩,
  ⟨.adds_row, [.obj .tdense .s true, .num, .obj (.view1D .ten) .s true, .obj (.viewTDense .mat) .s false], .adds_row, (some .s), [0, 1, 2, 3]⟩,
  ⟨.adds_row, [.obj .tdense .s true, .num, .obj (.view1D .ten) .s true, .obj (.viewTDense .ten) .s false], .adds_row, (some .s), [0, 1, 2, 3]⟩,
  ⟨.adds_row, [.obj (.viewTDense .vec) .s true, .num, .obj .vector .s true, .obj .tdense .s false], .adds_row, (some .s), [0, 1, 2, 3]⟩,
  ⟨.adds_row, [.obj (.viewTDense .vec) .s true, .num, .obj .vector .s true, .obj (.viewTDense .vec) .s false], .adds_row, (some .s), [0, 1, 2, 3]⟩,
  ⟨.adds_row, [.obj (.viewTDense .vec) .s true, .num, .obj .vector .s true, .obj (.viewTDense .mat) .s false], .adds_row, (some .s), [0, 1, 2, 3]⟩,
  ⟨.adds_row, [.obj (.viewTDense .vec) .s true, .num, .obj .vector .s true, .obj (.viewTDense .ten) .s false], .adds_row, (some .s), [0, 1, 2, 3]⟩,
  ⟨.adds_row, [.obj (.viewTDense .vec) .s true, .num, .obj (.view1D .vec) .s true, .obj .tdense .s false], .adds_row, (some .s), [0, 1, 2, 3]⟩,
  ⟨.adds_row, [.obj (.viewTDense .vec) .s true, .num, .obj (.view1D .vec) .s true, .obj (.viewTDense .vec) .s false], .adds_row, (some .s), [0, 1, 2, 3]⟩,
  ⟨.adds_row, [.obj (.viewTDense .vec) .s true, .num, .obj (.view1D .vec) .s true, .obj (.viewTDense .mat) .s false], .adds_row, (some .s), [0, 1, 2, 3]⟩,
  ⟨.adds_row, [.obj (.viewTDense .vec) .s true, .num, .obj (.view1D .vec) .s true, .obj (.viewTDense .ten) .s false], .adds_row, (some .s), [0, 1, 2, 3]⟩,
  ⟨.adds_row, [.obj (.viewTDense .vec) .s true, .num, .obj (.view1D .mat) .s true, .obj .tdense .s false], .adds_row, (some .s), [0, 1, 2, 3]⟩,
  ⟨.adds_row, [.obj (.viewTDense .vec) .s true, .num, .obj (.view1D .mat) .s true, .obj (.viewTDense .vec) .s false], .adds_row, (some .s), [0, 1, 2, 3]⟩,
  ⟨.adds_row, [.obj (.viewTDense .vec) .s true, .num, .obj (.view1D .mat) .s true, .obj (.viewTDense .mat) .s false], .adds_row, (some .s), [0, 1, 2, 3]⟩,
  ⟨.adds_row, [.obj (.viewTDense .vec) .s true, .num, .obj (.view1D .mat) .s true, .obj (.viewTDense .ten) .s false], .adds_row, (some .s), [0, 1, 2, 3]⟩,
  ⟨.adds_row, [.obj (.viewTDense .vec) .s true, .num, .obj (.view1D .ten) .s true, .obj .tdense .s false], .adds_row, (some .s), [0, 1, 2, 3]⟩,
  ⟨.adds_row, [.obj (.viewTDense .vec) .s true, .num, .obj (.view1D .ten) .s true, .obj (.viewTDense .vec) .s false], .adds_row, (some .s), [0, 1, 2, 3]⟩,
  ⟨.adds_row, [.obj (.viewTDense .vec) .s true, .num, .obj (.view1D .ten) .s true, .obj (.viewTDense .mat) .s false], .adds_row, (some .s), [0, 1, 2, 3]⟩,
  ⟨.adds_row, [.obj (.viewTDense .vec) .s true, .num, .obj (.view1D .ten) .s true, .obj (.viewTDense .ten) .s false], .adds_row, (some .s), [0, 1, 2, 3]⟩,
  ⟨.adds_row, [.obj (.viewTDense .mat) .s true, .num, .obj .vector .s true, .obj .tdense .s false], .adds_row, (some .s), [0, 1, 2, 3]⟩,
  ⟨.adds_row, [.obj (.viewTDense .mat) .s true, .num, .obj .vector .s true, .obj (.viewTDense .vec) .s false], .adds_row, (some .s), [0, 1, 2, 3]⟩,
  ⟨.adds_row, [.obj (.viewTDense .mat) .s true, .num, .obj .vector .s true, .obj (.viewTDense .mat) .s false], .adds_row, (some .s), [0, 1, 2, 3]⟩,
  ⟨.adds_row, [.obj (.viewTDense .mat) .s true, .num, .obj .vector .s true, .obj (.viewTDense .ten) .s false], .adds_row, (some .s), [0, 1, 2, 3]⟩,
  ⟨.adds_row, [.obj (.viewTDense .mat) .s true, .num, .obj (.view1D .vec) .s true, .obj .tdense .s false], .adds_row, (some .s), [0, 1, 2, 3]⟩,
  ⟨.adds_row, [.obj (.viewTDense .mat) .s true, .num, .obj (.view1D .vec) .s true, .obj (.viewTDense .vec) .s false], .adds_row, (some .s), [0, 1, 2, 3]⟩,
  ⟨.adds_row, [.obj (.viewTDense .mat) .s true, .num, .obj (.view1D .vec) .s true, .obj (.viewTDense .mat) .s false], .adds_row, (some .s), [0, 1, 2, 3]⟩,
  ⟨.adds_row, [.obj (.viewTDense .mat) .s true, .num, .obj (.view1D .vec) .s true, .obj (.viewTDense .ten) .s false], .adds_row, (some .s), [0, 1, 2, 3]⟩,
  ⟨.adds_row, [.obj (.viewTDense .mat) .s true, .num, .obj (.view1D .mat) .s true, .obj .tdense .s false], .adds_row, (some .s), [0, 1, 2, 3]⟩,
  ⟨.adds_row, [.obj (.viewTDense .mat) .s true, .num, .obj (.view1D .mat) .s true, .obj (.viewTDense .vec) .s false], .adds_row, (some .s), [0, 1, 2, 3]⟩,
  ⟨.adds_row, [.obj (.viewTDense .mat) .s true, .num, .obj (.view1D .mat) .s true, .obj (.viewTDense .mat) .s false], .adds_row, (some .s), [0, 1, 2, 3]⟩,
  ⟨.adds_row, [.obj (.viewTDense .mat) .s true, .num, .obj (.view1D .mat) .s true, .obj (.viewTDense .ten) .s false], .adds_row, (some .s), [0, 1, 2, 3]⟩,
  ⟨.adds_row, [.obj (.viewTDense .mat) .s true, .num, .obj (.view1D .ten) .s true, .obj .tdense .s false], .adds_row, (some .s), [0, 1, 2, 3]⟩,
  ⟨.adds_row, [.obj (.viewTDense .mat) .s true, .num, .obj (.view1D .ten) .s true, .obj (.viewTDense .vec) .s false], .adds_row, (some .s), [0, 1, 2, 3]⟩,
  ⟨.adds_row, [.obj (.viewTDense .mat) .s true, .num, .obj (.view1D .ten) .s true, .obj (.viewTDense .mat) .s false], .adds_row, (some .s), [0, 1, 2, 3]⟩,
  ⟨.adds_row, [.obj (.viewTDense .mat) .s true, .num, .obj (.view1D .ten) .s true, .obj (.viewTDense .ten) .s false], .adds_row, (some .s), [0, 1, 2, 3]⟩,
  ⟨.adds_row, [.obj (.viewTDense .ten) .s true, .num, .obj .vector .s true, .obj .tdense .s false], .adds_row, (some .s), [0, 1, 2, 3]⟩,
  ⟨.adds_row, [.obj (.viewTDense .ten) .s true, .num, .obj .vector .s true, .obj (.viewTDense .vec) .s false], .adds_row, (some .s), [0, 1, 2, 3]⟩,
  ⟨.adds_row, [.obj (.viewTDense .ten) .s true, .num, .obj .vector .s true, .obj (.viewTDense .mat) .s false], .adds_row, (some .s), [0, 1, 2, 3]⟩,
  ⟨.adds_row, [.obj (.viewTDense .ten) .s true, .num, .obj .vector .s true, .obj (.viewTDense .ten) .s false], .adds_row, (some .s), [0, 1, 2, 3]⟩,
  ⟨.adds_row, [.obj (.viewTDense .ten) .s true, .num, .obj (.view1D .vec) .s true, .obj .tdense .s false], .adds_row, (some .s), [0, 1, 2, 3]⟩,
  ⟨.adds_row, [.obj (.viewTDense .ten) .s true, .num, .obj (.view1D .vec) .s true, .obj (.viewTDense .vec) .s false], .adds_row, (some .s), [0, 1, 2, 3]⟩,
  ⟨.adds_row, [.obj (.viewTDense .ten) .s true, .num, .obj (.view1D .vec) .s true, .obj (.viewTDense .mat) .s false], .adds_row, (some .s), [0, 1, 2, 3]⟩,
  ⟨.adds_row, [.obj (.viewTDense .ten) .s true, .num, .obj (.view1D .vec) .s true, .obj (.viewTDense .ten) .s false], .adds_row, (some .s), [0, 1, 2, 3]⟩,
  ⟨.adds_row, [.obj (.viewTDense .ten) .s true, .num, .obj (.view1D .mat) .s true, .obj .tdense .s false], .adds_row, (some .s), [0, 1, 2, 3]⟩,
  ⟨.adds_row, [.obj (.viewTDense .ten) .s true, .num, .obj (.view1D .mat) .s true, .obj (.viewTDense .vec) .s false], .adds_row, (some .s), [0, 1, 2, 3]⟩,
  ⟨.adds_row, [.obj (.viewTDense .ten) .s true, .num, .obj (.view1D .mat) .s true, .obj (.viewTDense .mat) .s false], .adds_row, (some .s), [0, 1, 2, 3]⟩,
  ⟨.adds_row, [.obj (.viewTDense .ten) .s true, .num, .obj (.view1D .mat) .s true, .obj (.viewTDense .ten) .s false], .adds_row, (some .s), [0, 1, 2, 3]⟩,
  ⟨.adds_row, [.obj (.viewTDense .ten) .s true, .num, .obj (.view1D .ten) .s true, .obj .tdense .s false], .adds_row, (some .s), [0, 1, 2, 3]⟩,
  ⟨.adds_row, [.obj (.viewTDense .ten) .s true, .num, .obj (.view1D .ten) .s true, .obj (.viewTDense .vec) .s false], .adds_row, (some .s), [0, 1, 2, 3]⟩,
  ⟨.adds_row, [.obj (.viewTDense .ten) .s true, .num, .obj (.view1D .ten) .s true, .obj (.viewTDense .mat) .s false], .adds_row, (some .s), [0, 1, 2, 3]⟩,
  ⟨.adds_row, [.obj (.viewTDense .ten) .s true, .num, .obj (.view1D .ten) .s true, .obj (.viewTDense .ten) .s false], .adds_row, (some .s), [0, 1, 2, 3]⟩,
  ⟨.adds_col, [.obj .tdense .d true, .num, .obj .vector .d true, .obj .tdense .d false], .adds_col, (some .d), [0, 1, 2, 3]⟩,
  ⟨.adds_col, [.obj .tdense .d true, .num, .obj .vector .d true, .obj (.viewTDense .vec) .d false], .adds_col, (some .d), [0, 1, 2, 3]⟩,
  ⟨.adds_col, [.obj .tdense .d true, .num, .obj .vector .d true, .obj (.viewTDense .mat) .d false], .adds_col, (some .d), [0, 1, 2, 3]⟩,
  ⟨.adds_col, [.obj .tdense .d true, .num, .obj .vector .d true, .obj (.viewTDense .ten) .d false], .adds_col, (some .d), [0, 1, 2, 3]⟩,
  ⟨.adds_col, [.obj .tdense .d true, .num, .obj (.view1D .vec) .d true, .obj .tdense .d false], .adds_col, (some .d), [0, 1, 2, 3]⟩,
  ⟨.adds_col, [.obj .tdense .d true, .num, .obj (.view1D .vec) .d true, .obj (.viewTDense .vec) .d false], .adds_col, (some .d), [0, 1, 2, 3]⟩,
  ⟨.adds_col, [.obj .tdense .d true, .num, .obj (.view1D .vec) .d true, .obj (.viewTDense .mat) .d false], .adds_col, (some .d), [0, 1, 2, 3]⟩,
  ⟨.adds_col, [.obj .tdense .d true, .num, .obj (.view1D .vec) .d true, .obj (.viewTDense .ten) .d false], .adds_col, (some .d), [0, 1, 2, 3]⟩,
  ⟨.adds_col, [.obj .tdense .d true, .num, .obj (.view1D .mat) .d true, .obj .tdense .d false], .adds_col, (some .d), [0, 1, 2, 3]⟩,
  ⟨.adds_col, [.obj .tdense .d true, .num, .obj (.view1D .mat) .d true, .obj (.viewTDense .vec) .d false], .adds_col, (some .d), [0, 1, 2, 3]⟩,
  ⟨.adds_col, [.obj .tdense .d true, .num, .obj (.view1D .mat) .d true, .obj (.viewTDense .mat) .d false], .adds_col, (some .d), [0, 1, 2, 3]⟩,
  ⟨.adds_col, [.obj .tdense .d true, .num, .obj (.view1D .mat) .d true, .obj (.viewTDense .ten) .d false], .adds_col, (some .d), [0, 1, 2, 3]⟩,
  ⟨.adds_col, [.obj .tdense .d true, .num, .obj (.view1D .ten) .d true, .obj .tdense .d false], .adds_col, (some .d), [0, 1, 2, 3]⟩,
  ⟨.adds_col, [.obj .tdense .d true, .num, .obj (.view1D .ten) .d true, .obj (.viewTDense .vec) .d false], .adds_col, (some .d), [0, 1, 2, 3]⟩,
  ⟨.adds_col, [.obj .tdense .d true, .num, .obj (.view1D .ten) .d true, .obj (.viewTDense .mat) .d false], .adds_col, (some .d), [0, 1, 2, 3]⟩,
  ⟨.adds_col, [.obj .tdense .d true, .num, .obj (.view1D .ten) .d true, .obj (.viewTDense .ten) .d false], .adds_col, (some .d), [0, 1, 2, 3]⟩]

/-- src/blas/tensor/adds/adds.cpp:2152-2566 -/
def tTenAdds_5 : List Overload := [
  ⟨.adds_col, [.obj (.viewTDense .vec) .d true, .num, .obj .vector .d true, .obj .tdense .d false], .adds_col, (some .d), [0, 1, 2, 3]⟩,
  ⟨.adds_col, [.obj (.viewTDense .vec) .d true, .num, .obj .vector .d true, .obj (.viewTDense .vec) .d false], .adds_col, (some .d), [0, 1, 2, 3]⟩,
  ⟨.adds_col, [.obj (.viewTDense .vec) .d true, .num, .obj .vector .d true, .obj (.viewTDense .mat) .d false], .adds_col, (some .d), [0, 1, 2, 3]⟩,
  ⟨.adds_col, [.obj (.viewTDense .vec) .d true, .num, .obj .vector .d true, .obj (.viewTDense .ten) .d false], .adds_col, (some .d), [0, 1, 2, 3]⟩,
  ⟨.adds_col, [.obj (.viewTDense .vec) .d true, .num, .obj (.view1D .vec) .d true, .obj .tdense .d false], .adds_col, (some .d), [0, 1, 2, 3]⟩,
  ⟨.adds_col, [.obj (.viewTDense .vec) .d true, .num, .obj (.view1D .vec) .d true, .obj (.viewTDense .vec) .d false], .adds_col, (some .d), [0, 1, 2, 3]⟩,
  ⟨.adds_col, [.obj (.viewTDense .vec) .d true, .num, .obj (.view1D .vec) .d true, .obj (.viewTDense .mat) .d false], .adds_col, (some .d), [0, 1, 2, 3]⟩,
  ⟨.adds_col, [.obj (.viewTDense .vec) .d true, .num, .obj (.view1D .vec) .d true, .obj (.viewTDense .ten) .d false], .adds_col, (some .d), [0, 1, 2, 3]⟩,
  ⟨.adds_col, [.obj (.viewTDense .vec) .d true, .num, .obj (.view1D .mat) .d true, .obj .tdense .d false], .adds_col, (some .d), [0, 1, 2, 3]⟩,
  ⟨.adds_col, [.obj (.viewTDense .vec) .d true, .num, .obj (.view1D .mat) .d true, .obj (.viewTDense .vec) .d false], .adds_col, (some .d), [0, 1, 2, 3]⟩,
  ⟨.adds_col, [.obj (.viewTDense .vec) .d true, .num, .obj (.view1D .mat) .d true, .obj (.viewTDense .mat) .d false], .adds_col, (some .d), [0, 1, 2, 3]⟩,
  ⟨.adds_col, [.obj (.viewTDense .vec) .d true, .num, .obj (.view1D .mat) .d true, .obj (.viewTDense .ten) .d false], .adds_col, (some .d), [0, 1, 2, 3]⟩,
  ⟨.adds_col, [.obj (.viewTDense .vec) .d true, .num, .obj (.view1D .ten) .d true, .obj .tdense .d false], .adds_col, (some .d), [0, 1, 2, 3]⟩,
  ⟨.adds_col, [.obj (.viewTDense .vec) .d true, .num, .obj (.view1D .ten) .d true, .obj (.viewTDense .vec) .d false], .adds_col, (some .d), [0, 1, 2, 3]⟩,
  ⟨.adds_col, [.obj (.viewTDense .vec) .d true, .num, .obj (.view1D .ten) .d true, .obj (.viewTDense .mat) .d false], .adds_col, (some .d), [0, 1, 2, 3]⟩,
  ⟨.adds_col, [.obj (.viewTDense .vec) .d true, .num, .obj (.view1D .ten) .d true, .obj (.viewTDense .ten) .d false], .adds_col, (some .d), [0, 1, 2, 3]⟩,
  ⟨.adds_col, [.obj (.viewTDense .mat) .d true, .num, .obj .vector .d true, .obj .tdense .d false], .adds_col, (some .d), [0, 1, 2, 3]⟩,
  ⟨.adds_col, [.obj (.viewTDense .mat) .d true, .num, .obj .vector .d true, .obj (.viewTDense .vec) .d false], .adds_col, (some .d), [0, 1, 2, 3]⟩,
  ⟨.adds_col, [.obj (.viewTDense .mat) .d true, .num, .obj .vector .d true, .obj (.viewTDense .mat) .d false], .adds_col, (some .d), [0, 1, 2, 3]⟩,
  ⟨.adds_col, [.obj (.viewTDense .mat) .d true, .num, .obj .vector .d true, .obj (.viewTDense .ten) .d false], .adds_col, (some .d), [0, 1, 2, 3]⟩,
  ⟨.adds_col, [.obj (.viewTDense .mat) .d true, .num, .obj (.view1D .vec) .d true, .obj .tdense .d false], .adds_col, (some .d), [0, 1, 2, 3]⟩,
  ⟨.adds_col, [.obj (.viewTDense .mat) .d true, .num, .obj (.view1D .vec) .d true, .obj (.viewTDense .vec) .d false], .adds_col, (some .d), [0, 1, 2, 3]⟩,
  ⟨.adds_col, [.obj (.viewTDense .mat) .d true, .num, .obj (.view1D .vec) .d true, .obj (.viewTDense .mat) .d false], .adds_col, (some .d), [0, 1, 2, 3]⟩,
  ⟨.adds_col, [.obj (.viewTDense .mat) .d true, .num, .obj (.view1D .vec) .d true, .obj (.viewTDense .ten) .d false], .adds_col, (some .d), [0, 1, 2, 3]⟩,
  ⟨.adds_col, [.obj (.viewTDense .mat) .d true, .num, .obj (.view1D .mat) .d true, .obj .tdense .d false], .adds_col, (some .d), [0, 1, 2, 3]⟩,
  ⟨.adds_col, [.obj (.viewTDense .mat) .d true, .num, .obj (.view1D .mat) .d true, .obj (.viewTDense .vec) .d false], .adds_col, (some .d), [0, 1, 2, 3]⟩,
  ⟨.adds_col, [.obj (.viewTDense .mat) .d true, .num, .obj (.view1D .mat) .d true, .obj (.viewTDense .mat) .d false], .adds_col, (some .d), [0, 1, 2, 3]⟩,
  ⟨.adds_col, [.obj (.viewTDense .mat) .d true, .num, .obj (.view1D .mat) .d true, .obj (.viewTDense .ten) .d false], .adds_col, (some .d), [0, 1, 2, 3]⟩,
  ⟨.adds_col, [.obj (.viewTDense .mat) .d true, .num, .obj (.view1D .ten) .d true, .obj .tdense .d false], .adds_col, (some .d), [0, 1, 2, 3]⟩,
  ⟨.adds_col, [.obj (.viewTDense .mat) .d true, .num, .obj (.view1D .ten) .d true, .obj (.viewTDense .vec) .d false], .adds_col, (some .d), [0, 1, 2, 3]⟩,
  ⟨.adds_col, [.obj (.viewTDense .mat) .d true, .num, .obj (.view1D .ten) .d true, .obj (.viewTDense .mat) .d false], .adds_col, (some .d), [0, 1, 2, 3]⟩,
  ⟨.adds_col, [.obj (.viewTDense .mat) .d true, .num, .obj (.view1D .ten) .d true, .obj (.viewTDense .ten) .d false], .adds_col, (some .d), [0, 1, 2, 3]⟩,
  ⟨.adds_col, [.obj (.viewTDense .ten) .d true, .num, .obj .vector .d true, .obj .tdense .d false], .adds_col, (some .d), [0, 1, 2, 3]⟩,
  ⟨.adds_col, [.obj (.viewTDense .ten) .d true, .num, .obj .vector .d true, .obj (.viewTDense .vec) .d false], .adds_col, (some .d), [0, 1, 2, 3]⟩,
  ⟨.adds_col, [.obj (.viewTDense .ten) .d true, .num, .obj .vector .d true, .obj (.viewTDense .mat) .d false], .adds_col, (some .d), [0, 1, 2, 3]⟩,
  ⟨.adds_col, [.obj (.viewTDense .ten) .d true, .num, .obj .vector .d true, .obj (.viewTDense .ten) .d false], .adds_col, (some .d), [0, 1, 2, 3]⟩,
  ⟨.adds_col, [.obj (.viewTDense .ten) .d true, .num, .obj (.view1D .vec) .d true, .obj .tdense .d false], .adds_col, (some .d), [0, 1, 2, 3]⟩,
  ⟨.adds_col, [.obj (.viewTDense .ten) .d true, .num, .obj (.view1D .vec) .d true, .obj (.viewTDense .vec) .d false], .adds_col, (some .d), [0, 1, 2, 3]⟩,
  ⟨.adds_col, [.obj (.viewTDense .ten) .d true, .num, .obj (.view1D .vec) .d true, .obj (.viewTDense .mat) .d false], .adds_col, (some .d), [0, 1, 2, 3]⟩,
  ⟨.adds_col, [.obj (.viewTDense .ten) .d true, .num, .obj (.view1D .vec) .d true, .obj (.viewTDense .ten) .d false], .adds_col, (some .d), [0, 1, 2, 3]⟩,
  ⟨.adds_col, [.obj (.viewTDense .ten) .d true, .num, .obj (.view1D .mat) .d true, .obj .tdense .d false], .adds_col, (some .d), [0, 1, 2, 3]⟩,
  ⟨.adds_col, [.obj (.viewTDense .ten) .d true, .num, .obj (.view1D .mat) .d true, .obj (.viewTDense .vec) .d false], .adds_col, (some .d), [0, 1, 2, 3]⟩,
  ⟨.adds_col, [.obj (.viewTDense .ten) .d true, .num, .obj (.view1D .mat) .d true, .obj (.viewTDense .mat) .d false], .adds_col, (some .d), [0, 1, 2, 3]⟩,
  ⟨.adds_col, [.obj (.viewTDense .ten) .d true, .num, .obj (.view1D .mat) .d true, .obj (.viewTDense .ten) .d false], .adds_col, (some .d), [0, 1, 2, 3]⟩,
  ⟨.adds_col, [.obj (.viewTDense .ten) .d true, .num, .obj (.view1D .ten) .d true, .obj .tdense .d false], .adds_col, (some .d), [0, 1, 2, 3]⟩,
  ⟨.adds_col, [.obj (.viewTDense .ten) .d true, .num, .obj (.view1D .ten) .d true, .obj (.viewTDense .vec) .d false], .adds_col, (some .d), [0, 1, 2, 3]⟩,
  ⟨.adds_col, [.obj (.viewTDense .ten) .d true, .num, .obj (.view1D .ten) .d true, .obj (.viewTDense .mat) .d false], .adds_col, (some .d), [0, 1, 2, 3]⟩,
  ⟨.adds_col, [.obj (.viewTDense .ten) .d true, .num, .obj (.view1D .ten) .d true, .obj (.viewTDense .ten) .d false], .adds_col, (some .d), [0, 1, 2, 3]⟩,
  ⟨.adds_col, [.obj .tdense .s true, .num, .obj .vector .s true, .obj .tdense .s false], .adds_col, (some .s), [0, 1, 2, 3]⟩,
  ⟨.adds_col, [.obj .tdense .s true, .num, .obj .vector .s true, .obj (.viewTDense .vec) .s false], .adds_col, (some .s), [0, 1, 2, 3]⟩,
  ⟨.adds_col, [.obj .tdense .s true, .num, .obj .vector .s true, .obj (.viewTDense .mat) .s false], .adds_col, (some .s), [0, 1, 2, 3]⟩,
  ⟨.adds_col, [.obj .tdense .s true, .num, .obj .vector .s true, .obj (.viewTDense .ten) .s false], .adds_col, (some .s), [0, 1, 2, 3]⟩,
  ⟨.adds_col, [.obj .tdense .s true, .num, .obj (.view1D .vec) .s true, .obj .tdense .s false], .adds_col, (some .s), [0, 1, 2, 3]⟩,
  ⟨.adds_col, [.obj .tdense .s true, .num, .obj (.view1D .vec) .s true, .obj (.viewTDense .vec) .s false], .adds_col, (some .s), [0, 1, 2, 3]⟩,
  ⟨.adds_col, [.obj .tdense .s true, .num, .obj (.view1D .vec) .s true, .obj (.viewTDense .mat) .s false], .adds_col, (some .s), [0, 1, 2, 3]⟩,
  ⟨.adds_col, [.obj .tdense .s true, .num, .obj (.view1D .vec) .s true, .obj (.viewTDense .ten) .s false], .adds_col, (some .s), [0, 1, 2, 3]⟩,
  ⟨.adds_col, [.obj .tdense .s true, .num, .obj (.view1D .mat) .s true, .obj .tdense .s false], .adds_col, (some .s), [0, 1, 2, 3]⟩,
  ⟨.adds_col, [.obj .tdense .s true, .num, .obj (.view1D .mat) .s true, .obj (.viewTDense .vec) .s false], .adds_col, (some .s), [0, 1, 2, 3]⟩,
  ⟨.adds_col, [.obj .tdense .s true, .num, .obj (.view1D .mat) .s true, .obj (.viewTDense .mat) .s false], .adds_col, (some .s), [0, 1, 2, 3]⟩,
  ⟨.adds_col, [.obj .tdense .s true, .num, .obj (.view1D .mat) .s true, .obj (.viewTDense .ten) .s false], .adds_col, (some .s), [0, 1, 2, 3]⟩,
  ⟨.adds_col, [.obj .tdense .s true, .num, .obj (.view1D .ten) .s true, .obj .tdense .s false], .adds_col, (some .s), [0, 1, 2, 3]⟩,
  ⟨.adds_col, [.obj .tdense .s true, .num, .obj (.view1D .ten) .s true, .obj (.viewTDense .vec) .s false], .adds_col, (some .s), [0, 1, 2, 3]⟩,
  ⟨.adds_col, [.obj .tdense .s true, .num, .obj (.view1D .ten) .s true, .obj (.viewTDense .mat) .s false], .adds_col, (some .s), [0, 1, 2, 3]⟩,
  ⟨.adds_col, [.obj .tdense .s true, .num, .obj (.view1D .ten) .s true, .obj (.viewTDense .ten) .s false], .adds_col, (some .s), [0, 1, 2, 3]⟩,
  ⟨.adds_col, [.obj (.viewTDense .vec) .s true, .num, .obj .vector .s true, .obj .tdense .s false], .adds_col, (some .s), [0, 1, 2, 3]⟩,
  ⟨.adds_col, [.obj (.viewTDense .vec) .s true, .num, .obj .vector .s true, .obj (.viewTDense .vec) .s false], .adds_col, (some .s), [0, 1, 2, 3]⟩,
  ⟨.adds_col, [.obj (.viewTDense .vec) .s true, .num, .obj .vector .s true, .obj (.viewTDense .mat) .s false], .adds_col, (some .s), [0, 1, 2, 3]⟩,
  ⟨.adds_col, [.obj (.viewTDense .vec) .s true, .num, .obj .vector .s true, .obj (.viewTDense .ten) .s false], .adds_col, (some .s), [0, 1, 2, 3]⟩,
  ⟨.adds_col, [.obj (.viewTDense .vec) .s true, .num, .obj (.view1D .vec) .s true, .obj .tdense .s false], .adds_col, (some .s), [0, 1, 2, 3]⟩,
  ⟨.adds_col, [.obj (.viewTDense .vec) .s true, .num, .obj (.view1D .vec) .s true, .obj (.viewTDense .vec) .s false], .adds_col, (some .s), [0, 1, 2, 3]⟩,
  ⟨.adds_col, [.obj (.viewTDense .vec) .s true, .num, .obj (.view1D .vec) .s true, .obj (.viewTDense .mat) .s false], .adds_col, (some .s), [0, 1, 2, 3]⟩,
  ⟨.adds_col, [.obj (.viewTDense .vec) .s true, .num, .obj (.view1D .vec) .s true, .obj (.viewTDense .ten) .s false], .adds_col, (some .s), [0, 1, 2, 3]⟩,
  ⟨.adds_col, [.obj (.viewTDense .vec) .s true, .num, .obj (.view1D .mat) .s true, .obj .tdense .s false], .adds_col, (some .s), [0, 1, 2, 3]⟩,
  ⟨.adds_col, [.obj (.viewTDense .vec) .s true, .num, .obj (.view1D .mat) .s true, .obj (.viewTDense .vec) .s false], .adds_col, (some .s), [0, 1, 2, 3]⟩,
  ⟨.adds_col, [.obj (.viewTDense .vec) .s true, .num, .obj (.view1D .mat) .s true, .obj (.viewTDense .mat) .s false], .adds_col, (some .s), [0, 1, 2, 3]⟩,
  ⟨.adds_col, [.obj (.viewTDense .vec) .s true, .num, .obj (.view1D .mat) .s true, .obj (.viewTDense .ten) .s false], .adds_col, (some .s), [0, 1, 2, 3]⟩,
  ⟨.adds_col, [.obj (.viewTDense .vec) .s true, .num, .obj (.view1D .ten) .s true, .obj .tdense .s false], .adds_col, (some .s), [0, 1, 2, 3]⟩,
  ⟨.adds_col, [.obj (.viewTDense .vec) .s true, .num, .obj (.view1D .ten) .s true, .obj (.viewTDense .vec) .s false], .adds_col, (some .s), [0, 1, 2, 3]⟩,
  ⟨.adds_col, [.obj (.viewTDense .vec) .s true, .num, .obj (.view1D .ten) .s true, .obj (.viewTDense .mat) .s false], .adds_col, (some .s), [0, 1, 2, 3]⟩,
  ⟨.adds_col, [.obj (.viewTDense .vec) .s true, .num, .obj (.view1D .ten) .s true, .obj (.viewTDense .ten) .s false], .adds_col, (some .s), [0, 1, 2, 3]⟩]

/-- src/blas/tensor/adds/adds.cpp:2567-2734 -/
def tTenAdds_6 : List Overload := [
  ⟨.adds_col, [.obj (.viewTDense .mat) .s true, .num, .obj .vector .s true, .obj .tdense .s false], .adds_col, (some .s), [0, 1, 2, 3]⟩,
  ⟨.adds_col, [.obj (.viewTDense .mat) .s true, .num, .obj .vector .s true, .obj (.viewTDense .vec) .s false], .adds_col, (some .s), [0, 1, 2, 3]⟩,
  ⟨.adds_col, [.obj (.viewTDense .mat) .s true, .num, .obj .vector .s true, .obj (.viewTDense .mat) .s false], .adds_col, (some .s), [0, 1, 2, 3]⟩,
  ⟨.adds_col, [.obj (.viewTDense .mat) .s true, .num, .obj .vector .s true, .obj (.viewTDense .ten) .s false], .adds_col, (some .s), [0, 1, 2, 3]⟩,
  ⟨.adds_col, [.obj (.viewTDense .mat) .s true, .num, .obj (.view1D .vec) .s true, .obj .tdense .s false], .adds_col, (some .s), [0, 1, 2, 3]⟩,
  ⟨.adds_col, [.obj (.viewTDense .mat) .s true, .num, .obj (.view1D .vec) .s true, .obj (.viewTDense .vec) .s false], .adds_col, (some .s), [0, 1, 2, 3]⟩,
  ⟨.adds_col, [.obj (.viewTDense .mat) .s true, .num, .obj (.view1D .vec) .s true, .obj (.viewTDense .mat) .s false], .adds_col, (some .s), [0, 1, 2, 3]⟩,
  ⟨.adds_col, [.obj (.viewTDense .mat) .s true, .num, .obj (.view1D .vec) .s true, .obj (.viewTDense .ten) .s false], .adds_col, (some .s), [0, 1, 2, 3]⟩,
  ⟨.adds_col, [.obj (.viewTDense .mat) .s true, .num, .obj (.view1D .mat) .s true, .obj .tdense .s false], .adds_col, (some .s), [0, 1, 2, 3]⟩,
  ⟨.adds_col, [.obj (.viewTDense .mat) .s true, .num, .obj (.view1D .mat) .s true, .obj (.viewTDense .vec) .s false], .adds_col, (some .s), [0, 1, 2, 3]⟩,
  ⟨.adds_col, [.obj (.viewTDense .mat) .s true, .num, .obj (.view1D .mat) .s true, .obj (.viewTDense .mat) .s false], .adds_col, (some .s), [0, 1, 2, 3]⟩,
  ⟨.adds_col, [.obj (.viewTDense .mat) .s true, .num, .obj (.view1D .mat) .s true, .obj (.viewTDense .ten) .s false], .adds_col, (some .s), [0, 1, 2, 3]⟩,
  ⟨.adds_col, [.obj (.viewTDense .mat) .s true, .num, .obj (.view1D .ten) .s true, .obj .tdense .s false], .adds_col, (some .s), [0, 1, 2, 3]⟩,
  ⟨.adds_col, [.obj (.viewTDense .mat) .s true, .num, .obj (.view1D .ten) .s true, .obj (.viewTDense .vec) .s false], .adds_col, (some .s), [0, 1, 2, 3]⟩,
  ⟨.adds_col, [.obj (.viewTDense .mat) .s true, .num, .obj (.view1D .ten) .s true, .obj (.viewTDense .mat) .s false], .adds_col, (some .s), [0, 1, 2, 3]⟩,
  ⟨.adds_col, [.obj (.viewTDense .mat) .s true, .num, .obj (.view1D .ten) .s true, .obj (.viewTDense .ten) .s false], .adds_col, (some .s), [0, 1, 2, 3]⟩,
  ⟨.adds_col, [.obj (.viewTDense .ten) .s true, .num, .obj .vector .s true, .obj .tdense .s false], .adds_col, (some .s), [0, 1, 2, 3]⟩,
  ⟨.adds_col, [.obj (.viewTDense .ten) .s true, .num, .obj .vector .s true, .obj (.viewTDense .vec) .s false], .adds_col, (some .s), [0, 1, 2, 3]⟩,
  ⟨.adds_col, [.obj (.viewTDense .ten) .s true, .num, .obj .vector .s true, .obj (.viewTDense .mat) .s false], .adds_col, (some .s), [0, 1, 2, 3]⟩,
  ⟨.adds_col, [.obj (.viewTDense .ten) .s true, .num, .obj .vector .s true, .obj (.viewTDense .ten) .s false], .adds_col, (some .s), [0, 1, 2, 3]⟩,
  ⟨.adds_col, [.obj (.viewTDense .ten) .s true, .num, .obj (.view1D .vec) .s true, .obj .tdense .s false], .adds_col, (some .s), [0, 1, 2, 3]⟩,
  ⟨.adds_col, [.obj (.viewTDense .ten) .s true, .num, .obj (.view1D .vec) .s true, .obj (.viewTDense .vec) .s false], .adds_col, (some .s), [0, 1, 2, 3]⟩,
  ⟨.adds_col, [.obj (.viewTDense .ten) .s true, .num, .obj (.view1D .vec) .s true, .obj (.viewTDense .mat) .s false], .adds_col, (some .s), [0, 1, 2, 3]⟩,
  ⟨.adds_col, [.obj (.viewTDense .ten) .s true, .num, .obj (.view1D .vec) .s true, .obj (.viewTDense .ten) .s false], .adds_col, (some .s), [0, 1, 2, 3]⟩,
  ⟨.adds_col, [.obj (.viewTDense .ten) .s true, .num, .obj (.view1D .mat) .s true, .obj .tdense .s false], .adds_col, (some .s), [0, 1, 2, 3]⟩,
  ⟨.adds_col, [.obj (.viewTDense .ten) .s true, .num, .obj (.view1D .mat) .s true, .obj (.viewTDense .vec) .s false], .adds_col, (some .s), [0, 1, 2, 3]⟩,
  ⟨.adds_col, [.obj (.viewTDense .ten) .s true, .num, .obj (.view1D .mat) .s true, .obj (.viewTDense .mat) .s false], .adds_col, (some .s), [0, 1, 2, 3]⟩,
  ⟨.adds_col, [.obj (.viewTDense .ten) .s true, .num, .obj (.view1D .mat) .s true, .obj (.viewTDense .ten) .s false], .adds_col, (some .s), [0, 1, 2, 3]⟩,
  ⟨.adds_col, [.obj (.viewTDense .ten) .s true, .num, .obj (.view1D .ten) .s true, .obj .tdense .s false], .adds_col, (some .s), [0, 1, 2, 3]⟩,
  ⟨.adds_col, [.obj (.viewTDense .ten) .s true, .num, .obj (.view1D .ten) .s true, .obj (.viewTDense .vec) .s false], .adds_col, (some .s), [0, 1, 2, 3]⟩,
  ⟨.adds_col, [.obj (.viewTDense .ten) .s true, .num, .obj (.view1D .ten) .s true, .obj (.viewTDense .mat) .s false], .adds_col, (some .s), [0, 1, 2, 3]⟩,
  ⟨.adds_col, [.obj (.viewTDense .ten) .s true, .num, .obj (.view1D .ten) .s true, .obj (.viewTDense .ten) .s false], .adds_col, (some .s), [0, 1, 2, 3]⟩]

/-- the row and column operations of src/blas/tensor/adds/adds.cpp (512 overloads) -/
def tTenAdds : List (List Overload) :=
  [tTenAdds_0, tTenAdds_1, tTenAdds_2, tTenAdds_3, tTenAdds_4, tTenAdds_5, tTenAdds_6]

/-- all row and column operations -/
def lines : List Overload := (tMatTimes ++ tMatAdds ++ tTenTimes ++ tTenAdds).flatten

end Verif.LineOp
