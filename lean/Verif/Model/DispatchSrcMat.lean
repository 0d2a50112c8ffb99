import Verif.Model.DispatchApi

/-!
Generated by tools/dispatch_gen.py from /repo: public overloads of the element-wise functions. Do not edit.
-/

namespace Verif.Dispatch

/-- src/vml/matrix/matrix_vml.cpp:30-415 -/
def tVmlMat_0 : List Overload := [
  ⟨.vml_add, [.obj .crs .d true, .obj .crs .d true, .obj .crs .d false], .vmlmat_mmadd, [0, 1, 2]⟩,
  ⟨.vml_add, [.obj .dense .d true, .obj .dense .d true, .obj .dense .d false], .vmlmat_mmadd, [0, 1, 2]⟩,
  ⟨.vml_add, [.obj .dense .d true, .obj .dense .d true, .obj (.viewDense .vec) .d false], .vmlmat_mmadd, [0, 1, 2]⟩,
  ⟨.vml_add, [.obj .dense .d true, .obj .dense .d true, .obj (.viewDense .mat) .d false], .vmlmat_mmadd, [0, 1, 2]⟩,
  ⟨.vml_add, [.obj .dense .d true, .obj .dense .d true, .obj (.viewDense .ten) .d false], .vmlmat_mmadd, [0, 1, 2]⟩,
  ⟨.vml_add, [.obj .dense .d true, .obj (.viewDense .vec) .d true, .obj .dense .d false], .vmlmat_mmadd, [0, 1, 2]⟩,
  ⟨.vml_add, [.obj .dense .d true, .obj (.viewDense .vec) .d true, .obj (.viewDense .vec) .d false], .vmlmat_mmadd, [0, 1, 2]⟩,
  ⟨.vml_add, [.obj .dense .d true, .obj (.viewDense .vec) .d true, .obj (.viewDense .mat) .d false], .vmlmat_mmadd, [0, 1, 2]⟩,
  ⟨.vml_add, [.obj .dense .d true, .obj (.viewDense .vec) .d true, .obj (.viewDense .ten) .d false], .vmlmat_mmadd, [0, 1, 2]⟩,
  ⟨.vml_add, [.obj .dense .d true, .obj (.viewDense .mat) .d true, .obj .dense .d false], .vmlmat_mmadd, [0, 1, 2]⟩,
  ⟨.vml_add, [.obj .dense .d true, .obj (.viewDense .mat) .d true, .obj (.viewDense .vec) .d false], .vmlmat_mmadd, [0, 1, 2]⟩,
  ⟨.vml_add, [.obj .dense .d true, .obj (.viewDense .mat) .d true, .obj (.viewDense .mat) .d false], .vmlmat_mmadd, [0, 1, 2]⟩,
  ⟨.vml_add, [.obj .dense .d true, .obj (.viewDense .mat) .d true, .obj (.viewDense .ten) .d false], .vmlmat_mmadd, [0, 1, 2]⟩,
  ⟨.vml_add, [.obj .dense .d true, .obj (.viewDense .ten) .d true, .obj .dense .d false], .vmlmat_mmadd, [0, 1, 2]⟩,
  ⟨.vml_add, [.obj .dense .d true, .obj (.viewDense .ten) .d true, .obj (.viewDense .vec) .d false], .vmlmat_mmadd, [0, 1, 2]⟩,
  ⟨.vml_add, [.obj .dense .d true, .obj (.viewDense .ten) .d true, .obj (.viewDense .mat) .d false], .vmlmat_mmadd, [0, 1, 2]⟩,
  ⟨.vml_add, [.obj .dense .d true, .obj (.viewDense .ten) .d true, .obj (.viewDense .ten) .d false], .vmlmat_mmadd, [0, 1, 2]⟩,
  ⟨.vml_add, [.obj (.viewDense .vec) .d true, .obj .dense .d true, .obj .dense .d false], .vmlmat_mmadd, [0, 1, 2]⟩,
  ⟨.vml_add, [.obj (.viewDense .vec) .d true, .obj .dense .d true, .obj (.viewDense .vec) .d false], .vmlmat_mmadd, [0, 1, 2]⟩,
  ⟨.vml_add, [.obj (.viewDense .vec) .d true, .obj .dense .d true, .obj (.viewDense .mat) .d false], .vmlmat_mmadd, [0, 1, 2]⟩,
  ⟨.vml_add, [.obj (.viewDense .vec) .d true, .obj .dense .d true, .obj (.viewDense .ten) .d false], .vmlmat_mmadd, [0, 1, 2]⟩,
  ⟨.vml_add, [.obj (.viewDense .vec) .d true, .obj (.viewDense .vec) .d true, .obj .dense .d false], .vmlmat_mmadd, [0, 1, 2]⟩,
  ⟨.vml_add, [.obj (.viewDense .vec) .d true, .obj (.viewDense .vec) .d true, .obj (.viewDense .vec) .d false], .vmlmat_mmadd, [0, 1, 2]⟩,
  ⟨.vml_add, [.obj (.viewDense .vec) .d true, .obj (.viewDense .vec) .d true, .obj (.viewDense .mat) .d false], .vmlmat_mmadd, [0, 1, 2]⟩,
  ⟨.vml_add, [.obj (.viewDense .vec) .d true, .obj (.viewDense .vec) .d true, .obj (.viewDense .ten) .d false], .vmlmat_mmadd, [0, 1, 2]⟩,
  ⟨.vml_add, [.obj (.viewDense .vec) .d true, .obj (.viewDense .mat) .d true, .obj .dense .d false], .vmlmat_mmadd, [0, 1, 2]⟩,
  ⟨.vml_add, [.obj (.viewDense .vec) .d true, .obj (.viewDense .mat) .d true, .obj (.viewDense .vec) .d false], .vmlmat_mmadd, [0, 1, 2]⟩,
  ⟨.vml_add, [.obj (.viewDense .vec) .d true, .obj (.viewDense .mat) .d true, .obj (.viewDense .mat) .d false], .vmlmat_mmadd, [0, 1, 2]⟩,
  ⟨.vml_add, [.obj (.viewDense .vec) .d true, .obj (.viewDense .mat) .d true, .obj (.viewDense .ten) .d false], .vmlmat_mmadd, [0, 1, 2]⟩,
  ⟨.vml_add, [.obj (.viewDense .vec) .d true, .obj (.viewDense .ten) .d true, .obj .dense .d false], .vmlmat_mmadd, [0, 1, 2]⟩,
  ⟨.vml_add, [.obj (.viewDense .vec) .d true, .obj (.viewDense .ten) .d true, .obj (.viewDense .vec) .d false], .vmlmat_mmadd, [0, 1, 2]⟩,
  ⟨.vml_add, [.obj (.viewDense .vec) .d true, .obj (.viewDense .ten) .d true, .obj (.viewDense .mat) .d false], .vmlmat_mmadd, [0, 1, 2]⟩,
  ⟨.vml_add, [.obj (.viewDense .vec) .d true, .obj (.viewDense .ten) .d true, .obj (.viewDense .ten) .d false], .vmlmat_mmadd, [0, 1, 2]⟩,
  ⟨.vml_add, [.obj (.viewDense .mat) .d true, .obj .dense .d true, .obj .dense .d false], .vmlmat_mmadd, [0, 1, 2]⟩,
  ⟨.vml_add, [.obj (.viewDense .mat) .d true, .obj .dense .d true, .obj (.viewDense .vec) .d false], .vmlmat_mmadd, [0, 1, 2]⟩,
  ⟨.vml_add, [.obj (.viewDense .mat) .d true, .obj .dense .d true, .obj (.viewDense .mat) .d false], .vmlmat_mmadd, [0, 1, 2]⟩,
  ⟨.vml_add, [.obj (.viewDense .mat) .d true, .obj .dense .d true, .obj (.viewDense .ten) .d false], .vmlmat_mmadd, [0, 1, 2]⟩,
  ⟨.vml_add, [.obj (.viewDense .mat) .d true, .obj (.viewDense .vec) .d true, .obj .dense .d false], .vmlmat_mmadd, [0, 1, 2]⟩,
  ⟨.vml_add, [.obj (.viewDense .mat) .d true, .obj (.viewDense .vec) .d true, .obj (.viewDense .vec) .d false], .vmlmat_mmadd, [0, 1, 2]⟩,
  ⟨.vml_add, [.obj (.viewDense .mat) .d true, .obj (.viewDense .vec) .d true, .obj (.viewDense .mat) .d false], .vmlmat_mmadd, [0, 1, 2]⟩,
  ⟨.vml_add, [.obj (.viewDense .mat) .d true, .obj (.viewDense .vec) .d true, .obj (.viewDense .ten) .d false], .vmlmat_mmadd, [0, 1, 2]⟩,
  ⟨.vml_add, [.obj (.viewDense .mat) .d true, .obj (.viewDense .mat) .d true, .obj .dense .d false], .vmlmat_mmadd, [0, 1, 2]⟩,
  ⟨.vml_add, [.obj (.viewDense .mat) .d true, .obj (.viewDense .mat) .d true, .obj (.viewDense .vec) .d false], .vmlmat_mmadd, [0, 1, 2]⟩,
  ⟨.vml_add, [.obj (.viewDense .mat) .d true, .obj (.viewDense .mat) .d true, .obj (.viewDense .mat) .d false], .vmlmat_mmadd, [0, 1, 2]⟩,
  ⟨.vml_add, [.obj (.viewDense .mat) .d true, .obj (.viewDense .mat) .d true, .obj (.viewDense .ten) .d false], .vmlmat_mmadd, [0, 1, 2]⟩,
  ⟨.vml_add, [.obj (.viewDense .mat) .d true, .obj (.viewDense .ten) .d true, .obj .dense .d false], .vmlmat_mmadd, [0, 1, 2]⟩,
  ⟨.vml_add, [.obj (.viewDense .mat) .d true, .obj (.viewDense .ten) .d true, .obj (.viewDense .vec) .d false], .vmlmat_mmadd, [0, 1, 2]⟩,
  ⟨.vml_add, [.obj (.viewDense .mat) .d true, .obj (.viewDense .ten) .d true, .obj (.viewDense .mat) .d false], .vmlmat_mmadd, [0, 1, 2]⟩,
  ⟨.vml_add, [.obj (.viewDense .mat) .d true, .obj (.viewDense .ten) .d true, .obj (.viewDense .ten) .d false], .vmlmat_mmadd, [0, 1, 2]⟩,
  ⟨.vml_add, [.obj (.viewDense .ten) .d true, .obj .dense .d true, .obj .dense .d false], .vmlmat_mmadd, [0, 1, 2]⟩,
  ⟨.vml_add, [.obj (.viewDense .ten) .d true, .obj .dense .d true, .obj (.viewDense .vec) .d false], .vmlmat_mmadd, [0, 1, 2]⟩,
  ⟨.vml_add, [.obj (.viewDense .ten) .d true, .obj .dense .d true, .obj (.viewDense .mat) .d false], .vmlmat_mmadd, [0, 1, 2]⟩,
  ⟨.vml_add, [.obj (.viewDense .ten) .d true, .obj .dense .d true, .obj (.viewDense .ten) .d false], .vmlmat_mmadd, [0, 1, 2]⟩,
  ⟨.vml_add, [.obj (.viewDense .ten) .d true, .obj (.viewDense .vec) .d true, .obj .dense .d false], .vmlmat_mmadd, [0, 1, 2]⟩,
  ⟨.vml_add, [.obj (.viewDense .ten) .d true, .obj (.viewDense .vec) .d true, .obj (.viewDense .vec) .d false], .vmlmat_mmadd, [0, 1, 2]⟩,
  ⟨.vml_add, [.obj (.viewDense .ten) .d true, .obj (.viewDense .vec) .d true, .obj (.viewDense .mat) .d false], .vmlmat_mmadd, [0, 1, 2]⟩,
  ⟨.vml_add, [.obj (.viewDense .ten) .d true, .obj (.viewDense .vec) .d true, .obj (.viewDense .ten) .d false], .vmlmat_mmadd, [0, 1, 2]⟩,
  ⟨.vml_add, [.obj (.viewDense .ten) .d true, .obj (.viewDense .mat) .d true, .obj .dense .d false], .vmlmat_mmadd, [0, 1, 2]⟩,
  ⟨.vml_add, [.obj (.viewDense .ten) .d true, .obj (.viewDense .mat) .d true, .obj (.viewDense .vec) .d false], .vmlmat_mmadd, [0, 1, 2]⟩,
  ⟨.vml_add, [.obj (.viewDense .ten) .d true, .obj (.viewDense .mat) .d true, .obj (.viewDense .mat) .d false], .vmlmat_mmadd, [0, 1, 2]⟩,
  ⟨.vml_add, [.obj (.viewDense .ten) .d true, .obj (.viewDense .mat) .d true, .obj (.viewDense .ten) .d false], .vmlmat_mmadd, [0, 1, 2]⟩,
  ⟨.vml_add, [.obj (.viewDense .ten) .d true, .obj (.viewDense .ten) .d true, .obj .dense .d false], .vmlmat_mmadd, [0, 1, 2]⟩,
  ⟨.vml_add, [.obj (.viewDense .ten) .d true, .obj (.viewDense .ten) .d true, .obj (.viewDense .vec) .d false], .vmlmat_mmadd, [0, 1, 2]⟩,
  ⟨.vml_add, [.obj (.viewDense .ten) .d true, .obj (.viewDense .ten) .d true, .obj (.viewDense .mat) .d false], .vmlmat_mmadd, [0, 1, 2]⟩,
  ⟨.vml_add, [.obj (.viewDense .ten) .d true, .obj (.viewDense .ten) .d true, .obj (.viewDense .ten) .d false], .vmlmat_mmadd, [0, 1, 2]⟩,
  ⟨.vml_add, [.obj .crs .s true, .obj .crs .s true, .obj .crs .s false], .vmlmat_mmadd, [0, 1, 2]⟩,
  ⟨.vml_add, [.obj .dense .s true, .obj .dense .s true, .obj .dense .s false], .vmlmat_mmadd, [0, 1, 2]⟩,
  ⟨.vml_add, [.obj .dense .s true, .obj .dense .s true, .obj (.viewDense .vec) .s false], .vmlmat_mmadd, [0, 1, 2]⟩,
  ⟨.vml_add, [.obj .dense .s true, .obj .dense .s true, .obj (.viewDense .mat) .s false], .vmlmat_mmadd, [0, 1, 2]⟩,
  ⟨.vml_add, [.obj .dense .s true, .obj .dense .s true, .obj (.viewDense .ten) .s false], .vmlmat_mmadd, [0, 1, 2]⟩,
  ⟨.vml_add, [.obj .dense .s true, .obj (.viewDense .vec) .s true, .obj .dense .s false], .vmlmat_mmadd, [0, 1, 2]⟩,
  ⟨.vml_add, [.obj .dense .s true, .obj (.viewDense .vec) .s true, .obj (.viewDense .vec) .s false], .vmlmat_mmadd, [0, 1, 2]⟩,
  ⟨.vml_add, [.obj .dense .s true, .obj (.viewDense .vec) .s true, .obj (.viewDense .mat) .s false], .vmlmat_mmadd, [0, 1, 2]⟩,
  ⟨.vml_add, [.obj .dense .s true, .obj (.viewDense .vec) .s true, .obj (.viewDense .ten) .s false], .vmlmat_mmadd, [0, 1, 2]⟩,
  ⟨.vml_add, [.obj .dense .s true, .obj (.viewDense .mat) .s true, .obj .dense .s false], .vmlmat_mmadd, [0, 1, 2]⟩,
  ⟨.vml_add, [.obj .dense .s true, .obj (.viewDense .mat) .s true, .obj (.viewDense .vec) .s false], .vmlmat_mmadd, [0, 1, 2]⟩,
  ⟨.vml_add, [.obj .dense .s true, .obj (.viewDense .mat) .s true, .obj (.viewDense .mat) .s false], .vmlmat_mmadd, [0, 1, 2]⟩,
  ⟨.vml_add, [.obj .dense .s true, .obj (.viewDense .mat) .s true, .obj (.viewDense .ten) .s false], .vmlmat_mmadd, [0, 1, 2]⟩,
  ⟨.vml_add, [.obj .dense .s true, .obj (.viewDense .ten) .s true, .obj .dense .s false], .vmlmat_mmadd, [0, 1, 2]⟩,
  ⟨.vml_add, [.obj .dense .s true, .obj (.viewDense .ten) .s true, .obj (.viewDense .vec) .s false], .vmlmat_mmadd, [0, 1, 2]⟩]

/-- src/vml/matrix/matrix_vml.cpp:416-800 -/
def tVmlMat_1 : List Overload := [
  ⟨.vml_add, [.obj .dense .s true, .obj (.viewDense .ten) .s true, .obj (.viewDense .mat) .s false], .vmlmat_mmadd, [0, 1, 2]⟩,
  ⟨.vml_add, [.obj .dense .s true, .obj (.viewDense .ten) .s true, .obj (.viewDense .ten) .s false], .vmlmat_mmadd, [0, 1, 2]⟩,
  ⟨.vml_add, [.obj (.viewDense .vec) .s true, .obj .dense .s true, .obj .dense .s false], .vmlmat_mmadd, [0, 1, 2]⟩,
  ⟨.vml_add, [.obj (.viewDense .vec) .s true, .obj .dense .s true, .obj (.viewDense .vec) .s false], .vmlmat_mmadd, [0, 1, 2]⟩,
  ⟨.vml_add, [.obj (.viewDense .vec) .s true, .obj .dense .s true, .obj (.viewDense .mat) .s false], .vmlmat_mmadd, [0, 1, 2]⟩,
  ⟨.vml_add, [.obj (.viewDense .vec) .s true, .obj .dense .s true, .obj (.viewDense .ten) .s false], .vmlmat_mmadd, [0, 1, 2]⟩,
  ⟨.vml_add, [.obj (.viewDense .vec) .s true, .obj (.viewDense .vec) .s true, .obj .dense .s false], .vmlmat_mmadd, [0, 1, 2]⟩,
  ⟨.vml_add, [.obj (.viewDense .vec) .s true, .obj (.viewDense .vec) .s true, .obj (.viewDense .vec) .s false], .vmlmat_mmadd, [0, 1, 2]⟩,
  ⟨.vml_add, [.obj (.viewDense .vec) .s true, .obj (.viewDense .vec) .s true, .obj (.viewDense .mat) .s false], .vmlmat_mmadd, [0, 1, 2]⟩,
  ⟨.vml_add, [.obj (.viewDense .vec) .s true, .obj (.viewDense .vec) .s true, .obj (.viewDense .ten) .s false], .vmlmat_mmadd, [0, 1, 2]⟩,
  ⟨.vml_add, [.obj (.viewDense .vec) .s true, .obj (.viewDense .mat) .s true, .obj .dense .s false], .vmlmat_mmadd, [0, 1, 2]⟩,
  ⟨.vml_add, [.obj (.viewDense .vec) .s true, .obj (.viewDense .mat) .s true, .obj (.viewDense .vec) .s false], .vmlmat_mmadd, [0, 1, 2]⟩,
  ⟨.vml_add, [.obj (.viewDense .vec) .s true, .obj (.viewDense .mat) .s true, .obj (.viewDense .mat) .s false], .vmlmat_mmadd, [0, 1, 2]⟩,
  ⟨.vml_add, [.obj (.viewDense .vec) .s true, .obj (.viewDense .mat) .s true, .obj (.viewDense .ten) .s false], .vmlmat_mmadd, [0, 1, 2]⟩,
  ⟨.vml_add, [.obj (.viewDense .vec) .s true, .obj (.viewDense .ten) .s true, .obj .dense .s false], .vmlmat_mmadd, [0, 1, 2]⟩,
  ⟨.vml_add, [.obj (.viewDense .vec) .s true, .obj (.viewDense .ten) .s true, .obj (.viewDense .vec) .s false], .vmlmat_mmadd, [0, 1, 2]⟩,
  ⟨.vml_add, [.obj (.viewDense .vec) .s true, .obj (.viewDense .ten) .s true, .obj (.viewDense .mat) .s false], .vmlmat_mmadd, [0, 1, 2]⟩,
  ⟨.vml_add, [.obj (.viewDense .vec) .s true, .obj (.viewDense .ten) .s true, .obj (.viewDense .ten) .s false], .vmlmat_mmadd, [0, 1, 2]⟩,
  ⟨.vml_add, [.obj (.viewDense .mat) .s true, .obj .dense .s true, .obj .dense .s false], .vmlmat_mmadd, [0, 1, 2]⟩,
  ⟨.vml_add, [.obj (.viewDense .mat) .s true, .obj .dense .s true, .obj (.viewDense .vec) .s false], .vmlmat_mmadd, [0, 1, 2]⟩,
  ⟨.vml_add, [.obj (.viewDense .mat) .s true, .obj .dense .s true, .obj (.viewDense .mat) .s false], .vmlmat_mmadd, [0, 1, 2]⟩,
  ⟨.vml_add, [.obj (.viewDense .mat) .s true, .obj .dense .s true, .obj (.viewDense .ten) .s false], .vmlmat_mmadd, [0, 1, 2]⟩,
  ⟨.vml_add, [.obj (.viewDense .mat) .s true, .obj (.viewDense .vec) .s true, .obj .dense .s false], .vmlmat_mmadd, [0, 1, 2]⟩,
  ⟨.vml_add, [.obj (.viewDense .mat) .s true, .obj (.viewDense .vec) .s true, .obj (.viewDense .vec) .s false], .vmlmat_mmadd, [0, 1, 2]⟩,
  ⟨.vml_add, [.obj (.viewDense .mat) .s true, .obj (.viewDense .vec) .s true, .obj (.viewDense .mat) .s false], .vmlmat_mmadd, [0, 1, 2]⟩,
  ⟨.vml_add, [.obj (.viewDense .mat) .s true, .obj (.viewDense .vec) .s true, .obj (.viewDense .ten) .s false], .vmlmat_mmadd, [0, 1, 2]⟩,
  ⟨.vml_add, [.obj (.viewDense .mat) .s true, .obj (.viewDense .mat) .s true, .obj .dense .s false], .vmlmat_mmadd, [0, 1, 2]⟩,
  ⟨.vml_add, [.obj (.viewDense .mat) .s true, .obj (.viewDense .mat) .s true, .obj (.viewDense .vec) .s false], .vmlmat_mmadd, [0, 1, 2]⟩,
  ⟨.vml_add, [.obj (.viewDense .mat) .s true, .obj (.viewDense .mat) .s true, .obj (.viewDense .mat) .s false], .vmlmat_mmadd, [0, 1, 2]⟩,
  ⟨.vml_add, [.obj (.viewDense .mat) .s true, .obj (.viewDense .mat) .s true, .obj (.viewDense .ten) .s false], .vmlmat_mmadd, [0, 1, 2]⟩,
  ⟨.vml_add, [.obj (.viewDense .mat) .s true, .obj (.viewDense .ten) .s true, .obj .dense .s false], .vmlmat_mmadd, [0, 1, 2]⟩,
  ⟨.vml_add, [.obj (.viewDense .mat) .s true, .obj (.viewDense .ten) .s true, .obj (.viewDense .vec) .s false], .vmlmat_mmadd, [0, 1, 2]⟩,
  ⟨.vml_add, [.obj (.viewDense .mat) .s true, .obj (.viewDense .ten) .s true, .obj (.viewDense .mat) .s false], .vmlmat_mmadd, [0, 1, 2]⟩,
  ⟨.vml_add, [.obj (.viewDense .mat) .s true, .obj (.viewDense .ten) .s true, .obj (.viewDense .ten) .s false], .vmlmat_mmadd, [0, 1, 2]⟩,
  ⟨.vml_add, [.obj (.viewDense .ten) .s true, .obj .dense .s true, .obj .dense .s false], .vmlmat_mmadd, [0, 1, 2]⟩,
  ⟨.vml_add, [.obj (.viewDense .ten) .s true, .obj .dense .s true, .obj (.viewDense .vec) .s false], .vmlmat_mmadd, [0, 1, 2]⟩,
  ⟨.vml_add, [.obj (.viewDense .ten) .s true, .obj .dense .s true, .obj (.viewDense .mat) .s false], .vmlmat_mmadd, [0, 1, 2]⟩,
  ⟨.vml_add, [.obj (.viewDense .ten) .s true, .obj .dense .s true, .obj (.viewDense .ten) .s false], .vmlmat_mmadd, [0, 1, 2]⟩,
  ⟨.vml_add, [.obj (.viewDense .ten) .s true, .obj (.viewDense .vec) .s true, .obj .dense .s false], .vmlmat_mmadd, [0, 1, 2]⟩,
  ⟨.vml_add, [.obj (.viewDense .ten) .s true, .obj (.viewDense .vec) .s true, .obj (.viewDense .vec) .s false], .vmlmat_mmadd, [0, 1, 2]⟩,
  ⟨.vml_add, [.obj (.viewDense .ten) .s true, .obj (.viewDense .vec) .s true, .obj (.viewDense .mat) .s false], .vmlmat_mmadd, [0, 1, 2]⟩,
  ⟨.vml_add, [.obj (.viewDense .ten) .s true, .obj (.viewDense .vec) .s true, .obj (.viewDense .ten) .s false], .vmlmat_mmadd, [0, 1, 2]⟩,
  ⟨.vml_add, [.obj (.viewDense .ten) .s true, .obj (.viewDense .mat) .s true, .obj .dense .s false], .vmlmat_mmadd, [0, 1, 2]⟩,
  ⟨.vml_add, [.obj (.viewDense .ten) .s true, .obj (.viewDense .mat) .s true, .obj (.viewDense .vec) .s false], .vmlmat_mmadd, [0, 1, 2]⟩,
  ⟨.vml_add, [.obj (.viewDense .ten) .s true, .obj (.viewDense .mat) .s true, .obj (.viewDense .mat) .s false], .vmlmat_mmadd, [0, 1, 2]⟩,
  ⟨.vml_add, [.obj (.viewDense .ten) .s true, .obj (.viewDense .mat) .s true, .obj (.viewDense .ten) .s false], .vmlmat_mmadd, [0, 1, 2]⟩,
  ⟨.vml_add, [.obj (.viewDense .ten) .s true, .obj (.viewDense .ten) .s true, .obj .dense .s false], .vmlmat_mmadd, [0, 1, 2]⟩,
  ⟨.vml_add, [.obj (.viewDense .ten) .s true, .obj (.viewDense .ten) .s true, .obj (.viewDense .vec) .s false], .vmlmat_mmadd, [0, 1, 2]⟩,
  ⟨.vml_add, [.obj (.viewDense .ten) .s true, .obj (.viewDense .ten) .s true, .obj (.viewDense .mat) .s false], .vmlmat_mmadd, [0, 1, 2]⟩,
  ⟨.vml_add, [.obj (.viewDense .ten) .s true, .obj (.viewDense .ten) .s true, .obj (.viewDense .ten) .s false], .vmlmat_mmadd, [0, 1, 2]⟩,
  ⟨.vml_sub, [.obj .crs .d true, .obj .crs .d true, .obj .crs .d false], .vmlmat_mmsub, [0, 1, 2]⟩,
  ⟨.vml_sub, [.obj .dense .d true, .obj .dense .d true, .obj .dense .d false], .vmlmat_mmsub, [0, 1, 2]⟩,
  ⟨.vml_sub, [.obj .dense .d true, .obj .dense .d true, .obj (.viewDense .vec) .d false], .vmlmat_mmsub, [0, 1, 2]⟩,
  ⟨.vml_sub, [.obj .dense .d true, .obj .dense .d true, .obj (.viewDense .mat) .d false], .vmlmat_mmsub, [0, 1, 2]⟩,
  ⟨.vml_sub, [.obj .dense .d true, .obj .dense .d true, .obj (.viewDense .ten) .d false], .vmlmat_mmsub, [0, 1, 2]⟩,
  ⟨.vml_sub, [.obj .dense .d true, .obj (.viewDense .vec) .d true, .obj .dense .d false], .vmlmat_mmsub, [0, 1, 2]⟩,
  ⟨.vml_sub, [.obj .dense .d true, .obj (.viewDense .vec) .d true, .obj (.viewDense .vec) .d false], .vmlmat_mmsub, [0, 1, 2]⟩,
  ⟨.vml_sub, [.obj .dense .d true, .obj (.viewDense .vec) .d true, .obj (.viewDense .mat) .d false], .vmlmat_mmsub, [0, 1, 2]⟩,
  ⟨.vml_sub, [.obj .dense .d true, .obj (.viewDense .vec) .d true, .obj (.viewDense .ten) .d false], .vmlmat_mmsub, [0, 1, 2]⟩,
  ⟨.vml_sub, [.obj .dense .d true, .obj (.viewDense .mat) .d true, .obj .dense .d false], .vmlmat_mmsub, [0, 1, 2]⟩,
  ⟨.vml_sub, [.obj .dense .d true, .obj (.viewDense .mat) .d true, .obj (.viewDense .vec) .d false], .vmlmat_mmsub, [0, 1, 2]⟩,
  ⟨.vml_sub, [.obj .dense .d true, .obj (.viewDense .mat) .d true, .obj (.viewDense .mat) .d false], .vmlmat_mmsub, [0, 1, 2]⟩,
  ⟨.vml_sub, [.obj .dense .d true, .obj (.viewDense .mat) .d true, .obj (.viewDense .ten) .d false], .vmlmat_mmsub, [0, 1, 2]⟩,
  ⟨.vml_sub, [.obj .dense .d true, .obj (.viewDense .ten) .d true, .obj .dense .d false], .vmlmat_mmsub, [0, 1, 2]⟩,
  ⟨.vml_sub, [.obj .dense .d true, .obj (.viewDense .ten) .d true, .obj (.viewDense .vec) .d false], .vmlmat_mmsub, [0, 1, 2]⟩,
  ⟨.vml_sub, [.obj .dense .d true, .obj (.viewDense .ten) .d true, .obj (.viewDense .mat) .d false], .vmlmat_mmsub, [0, 1, 2]⟩,
  ⟨.vml_sub, [.obj .dense .d true, .obj (.viewDense .ten) .d true, .obj (.viewDense .ten) .d false], .vmlmat_mmsub, [0, 1, 2]⟩,
  ⟨.vml_sub, [.obj (.viewDense .vec) .d true, .obj .dense .d true, .obj .dense .d false], .vmlmat_mmsub, [0, 1, 2]⟩,
  ⟨.vml_sub, [.obj (.viewDense .vec) .d true, .obj .dense .d true, .obj (.viewDense .vec) .d false], .vmlmat_mmsub, [0, 1, 2]⟩,
  ⟨.vml_sub, [.obj (.viewDense .vec) .d true, .obj .dense .d true, .obj (.viewDense .mat) .d false], .vmlmat_mmsub, [0, 1, 2]⟩,
  ⟨.vml_sub, [.obj (.viewDense .vec) .d true, .obj .dense .d true, .obj (.viewDense .ten) .d false], .vmlmat_mmsub, [0, 1, 2]⟩,
  ⟨.vml_sub, [.obj (.viewDense .vec) .d true, .obj (.viewDense .vec) .d true, .obj .dense .d false], .vmlmat_mmsub, [0, 1, 2]⟩,
  ⟨.vml_sub, [.obj (.viewDense .vec) .d true, .obj (.viewDense .vec) .d true, .obj (.viewDense .vec) .d false], .vmlmat_mmsub, [0, 1, 2]⟩,
  ⟨.vml_sub, [.obj (.viewDense .vec) .d true, .obj (.viewDense .vec) .d true, .obj (.viewDense .mat) .d false], .vmlmat_mmsub, [0, 1, 2]⟩,
  ⟨.vml_sub, [.obj (.viewDense .vec) .d true, .obj (.viewDense .vec) .d true, .obj (.viewDense .ten) .d false], .vmlmat_mmsub, [0, 1, 2]⟩,
  ⟨.vml_sub, [.obj (.viewDense .vec) .d true, .obj (.viewDense .mat) .d true, .obj .dense .d false], .vmlmat_mmsub, [0, 1, 2]⟩,
  ⟨.vml_sub, [.obj (.viewDense .vec) .d true, .obj (.viewDense .mat) .d true, .obj (.viewDense .vec) .d false], .vmlmat_mmsub, [0, 1, 2]⟩,
  ⟨.vml_sub, [.obj (.viewDense .vec) .d true, .obj (.viewDense .mat) .d true, .obj (.viewDense .mat) .d false], .vmlmat_mmsub, [0, 1, 2]⟩,
  ⟨.vml_sub, [.obj (.viewDense .vec) .d true, .obj (.viewDense .mat) .d true, .obj (.viewDense .ten) .d false], .vmlmat_mmsub, [0, 1, 2]⟩,
  ⟨.vml_sub, [.obj (.viewDense .vec) .d true, .obj (.viewDense .ten) .d true, .obj .dense .d false], .vmlmat_mmsub, [0, 1, 2]⟩]

/-- src/vml/matrix/matrix_vml.cpp:801-1186 -/
def tVmlMat_2 : List Overload := [
  ⟨.vml_sub, [.obj (.viewDense .vec) .d true, .obj (.viewDense .ten) .d true, .obj (.viewDense .vec) .d false], .vmlmat_mmsub, [0, 1, 2]⟩,
  ⟨.vml_sub, [.obj (.viewDense .vec) .d true, .obj (.viewDense .ten) .d true, .obj (.viewDense .mat) .d false], .vmlmat_mmsub, [0, 1, 2]⟩,
  ⟨.vml_sub, [.obj (.viewDense .vec) .d true, .obj (.viewDense .ten) .d true, .obj (.viewDense .ten) .d false], .vmlmat_mmsub, [0, 1, 2]⟩,
  ⟨.vml_sub, [.obj (.viewDense .mat) .d true, .obj .dense .d true, .obj .dense .d false], .vmlmat_mmsub, [0, 1, 2]⟩,
  ⟨.vml_sub, [.obj (.viewDense .mat) .d true, .obj .dense .d true, .obj (.viewDense .vec) .d false], .vmlmat_mmsub, [0, 1, 2]⟩,
  ⟨.vml_sub, [.obj (.viewDense .mat) .d true, .obj .dense .d true, .obj (.viewDense .mat) .d false], .vmlmat_mmsub, [0, 1, 2]⟩,
  ⟨.vml_sub, [.obj (.viewDense .mat) .d true, .obj .dense .d true, .obj (.viewDense .ten) .d false], .vmlmat_mmsub, [0, 1, 2]⟩,
  ⟨.vml_sub, [.obj (.viewDense .mat) .d true, .obj (.viewDense .vec) .d true, .obj .dense .d false], .vmlmat_mmsub, [0, 1, 2]⟩,
  ⟨.vml_sub, [.obj (.viewDense .mat) .d true, .obj (.viewDense .vec) .d true, .obj (.viewDense .vec) .d false], .vmlmat_mmsub, [0, 1, 2]⟩,
  ⟨.vml_sub, [.obj (.viewDense .mat) .d true, .obj (.viewDense .vec) .d true, .obj (.viewDense .mat) .d false], .vmlmat_mmsub, [0, 1, 2]⟩,
  ⟨.vml_sub, [.obj (.viewDense .mat) .d true, .obj (.viewDense .vec) .d true, .obj (.viewDense .ten) .d false], .vmlmat_mmsub, [0, 1, 2]⟩,
  ⟨.vml_sub, [.obj (.viewDense .mat) .d true, .obj (.viewDense .mat) .d true, .obj .dense .d false], .vmlmat_mmsub, [0, 1, 2]⟩,
  ⟨.vml_sub, [.obj (.viewDense .mat) .d true, .obj (.viewDense .mat) .d true, .obj (.viewDense .vec) .d false], .vmlmat_mmsub, [0, 1, 2]⟩,
  ⟨.vml_sub, [.obj (.viewDense .mat) .d true, .obj (.viewDense .mat) .d true, .obj (.viewDense .mat) .d false], .vmlmat_mmsub, [0, 1, 2]⟩,
  ⟨.vml_sub, [.obj (.viewDense .mat) .d true, .obj (.viewDense .mat) .d true, .obj (.viewDense .ten) .d false], .vmlmat_mmsub, [0, 1, 2]⟩,
  ⟨.vml_sub, [.obj (.viewDense .mat) .d true, .obj (.viewDense .ten) .d true, .obj .dense .d false], .vmlmat_mmsub, [0, 1, 2]⟩,
  ⟨.vml_sub, [.obj (.viewDense .mat) .d true, .obj (.viewDense .ten) .d true, .obj (.viewDense .vec) .d false], .vmlmat_mmsub, [0, 1, 2]⟩,
  ⟨.vml_sub, [.obj (.viewDense .mat) .d true, .obj (.viewDense .ten) .d true, .obj (.viewDense .mat) .d false], .vmlmat_mmsub, [0, 1, 2]⟩,
  ⟨.vml_sub, [.obj (.viewDense .mat) .d true, .obj (.viewDense .ten) .d true, .obj (.viewDense .ten) .d false], .vmlmat_mmsub, [0, 1, 2]⟩,
  ⟨.vml_sub, [.obj (.viewDense .ten) .d true, .obj .dense .d true, .obj .dense .d false], .vmlmat_mmsub, [0, 1, 2]⟩,
  ⟨.vml_sub, [.obj (.viewDense .ten) .d true, .obj .dense .d true, .obj (.viewDense .vec) .d false], .vmlmat_mmsub, [0, 1, 2]⟩,
  ⟨.vml_sub, [.obj (.viewDense .ten) .d true, .obj .dense .d true, .obj (.viewDense .mat) .d false], .vmlmat_mmsub, [0, 1, 2]⟩,
  ⟨.vml_sub, [.obj (.viewDense .ten) .d true, .obj .dense .d true, .obj (.viewDense .ten) .d false], .vmlmat_mmsub, [0, 1, 2]⟩,
  ⟨.vml_sub, [.obj (.viewDense .ten) .d true, .obj (.viewDense .vec) .d true, .obj .dense .d false], .vmlmat_mmsub, [0, 1, 2]⟩,
  ⟨.vml_sub, [.obj (.viewDense .ten) .d true, .obj (.viewDense .vec) .d true, .obj (.viewDense .vec) .d false], .vmlmat_mmsub, [0, 1, 2]⟩,
  ⟨.vml_sub, [.obj (.viewDense .ten) .d true, .obj (.viewDense .vec) .d true, .obj (.viewDense .mat) .d false], .vmlmat_mmsub, [0, 1, 2]⟩,
  ⟨.vml_sub, [.obj (.viewDense .ten) .d true, .obj (.viewDense .vec) .d true, .obj (.viewDense .ten) .d false], .vmlmat_mmsub, [0, 1, 2]⟩,
  ⟨.vml_sub, [.obj (.viewDense .ten) .d true, .obj (.viewDense .mat) .d true, .obj .dense .d false], .vmlmat_mmsub, [0, 1, 2]⟩,
  ⟨.vml_sub, [.obj (.viewDense .ten) .d true, .obj (.viewDense .mat) .d true, .obj (.viewDense .vec) .d false], .vmlmat_mmsub, [0, 1, 2]⟩,
  ⟨.vml_sub, [.obj (.viewDense .ten) .d true, .obj (.viewDense .mat) .d true, .obj (.viewDense .mat) .d false], .vmlmat_mmsub, [0, 1, 2]⟩,
  ⟨.vml_sub, [.obj (.viewDense .ten) .d true, .obj (.viewDense .mat) .d true, .obj (.viewDense .ten) .d false], .vmlmat_mmsub, [0, 1, 2]⟩,
  ⟨.vml_sub, [.obj (.viewDense .ten) .d true, .obj (.viewDense .ten) .d true, .obj .dense .d false], .vmlmat_mmsub, [0, 1, 2]⟩,
  ⟨.vml_sub, [.obj (.viewDense .ten) .d true, .obj (.viewDense .ten) .d true, .obj (.viewDense .vec) .d false], .vmlmat_mmsub, [0, 1, 2]⟩,
  ⟨.vml_sub, [.obj (.viewDense .ten) .d true, .obj (.viewDense .ten) .d true, .obj (.viewDense .mat) .d false], .vmlmat_mmsub, [0, 1, 2]⟩,
  ⟨.vml_sub, [.obj (.viewDense .ten) .d true, .obj (.viewDense .ten) .d true, .obj (.viewDense .ten) .d false], .vmlmat_mmsub, [0, 1, 2]⟩,
  ⟨.vml_sub, [.obj .crs .s true, .obj .crs .s true, .obj .crs .s false], .vmlmat_mmsub, [0, 1, 2]⟩,
  ⟨.vml_sub, [.obj .dense .s true, .obj .dense .s true, .obj .dense .s false], .vmlmat_mmsub, [0, 1, 2]⟩,
  ⟨.vml_sub, [.obj .dense .s true, .obj .dense .s true, .obj (.viewDense .vec) .s false], .vmlmat_mmsub, [0, 1, 2]⟩,
  ⟨.vml_sub, [.obj .dense .s true, .obj .dense .s true, .obj (.viewDense .mat) .s false], .vmlmat_mmsub, [0, 1, 2]⟩,
  ⟨.vml_sub, [.obj .dense .s true, .obj .dense .s true, .obj (.viewDense .ten) .s false], .vmlmat_mmsub, [0, 1, 2]⟩,
  ⟨.vml_sub, [.obj .dense .s true, .obj (.viewDense .vec) .s true, .obj .dense .s false], .vmlmat_mmsub, [0, 1, 2]⟩,
  ⟨.vml_sub, [.obj .dense .s true, .obj (.viewDense .vec) .s true, .obj (.viewDense .vec) .s false], .vmlmat_mmsub, [0, 1, 2]⟩,
  ⟨.vml_sub, [.obj .dense .s true, .obj (.viewDense .vec) .s true, .obj (.viewDense .mat) .s false], .vmlmat_mmsub, [0, 1, 2]⟩,
  ⟨.vml_sub, [.obj .dense .s true, .obj (.viewDense .vec) .s true, .obj (.viewDense .ten) .s false], .vmlmat_mmsub, [0, 1, 2]⟩,
  ⟨.vml_sub, [.obj .dense .s true, .obj (.viewDense .mat) .s true, .obj .dense .s false], .vmlmat_mmsub, [0, 1, 2]⟩,
  ⟨.vml_sub, [.obj .dense .s true, .obj (.viewDense .mat) .s true, .obj (.viewDense .vec) .s false], .vmlmat_mmsub, [0, 1, 2]⟩,
  ⟨.vml_sub, [.obj .dense .s true, .obj (.viewDense .mat) .s true, .obj (.viewDense .mat) .s false], .vmlmat_mmsub, [0, 1, 2]⟩,
  ⟨.vml_sub, [.obj .dense .s true, .obj (.viewDense .mat) .s true, .obj (.viewDense .ten) .s false], .vmlmat_mmsub, [0, 1, 2]⟩,
  ⟨.vml_sub, [.obj .dense .s true, .obj (.viewDense .ten) .s true, .obj .dense .s false], .vmlmat_mmsub, [0, 1, 2]⟩,
  ⟨.vml_sub, [.obj .dense .s true, .obj (.viewDense .ten) .s true, .obj (.viewDense .vec) .s false], .vmlmat_mmsub, [0, 1, 2]⟩,
  ⟨.vml_sub, [.obj .dense .s true, .obj (.viewDense .ten) .s true, .obj (.viewDense .mat) .s false], .vmlmat_mmsub, [0, 1, 2]⟩,
  ⟨.vml_sub, [.obj .dense .s true, .obj (.viewDense .ten) .s true, .obj (.viewDense .ten) .s false], .vmlmat_mmsub, [0, 1, 2]⟩,
  ⟨.vml_sub, [.obj (.viewDense .vec) .s true, .obj .dense .s true, .obj .dense .s false], .vmlmat_mmsub, [0, 1, 2]⟩,
  ⟨.vml_sub, [.obj (.viewDense .vec) .s true, .obj .dense .s true, .obj (.viewDense .vec) .s false], .vmlmat_mmsub, [0, 1, 2]⟩,
  ⟨.vml_sub, [.obj (.viewDense .vec) .s true, .obj .dense .s true, .obj (.viewDense .mat) .s false], .vmlmat_mmsub, [0, 1, 2]⟩,
  ⟨.vml_sub, [.obj (.viewDense .vec) .s true, .obj .dense .s true, .obj (.viewDense .ten) .s false], .vmlmat_mmsub, [0, 1, 2]⟩,
  ⟨.vml_sub, [.obj (.viewDense .vec) .s true, .obj (.viewDense .vec) .s true, .obj .dense .s false], .vmlmat_mmsub, [0, 1, 2]⟩,
  ⟨.vml_sub, [.obj (.viewDense .vec) .s true, .obj (.viewDense .vec) .s true, .obj (.viewDense .vec) .s false], .vmlmat_mmsub, [0, 1, 2]⟩,
  ⟨.vml_sub, [.obj (.viewDense .vec) .s true, .obj (.viewDense .vec) .s true, .obj (.viewDense .mat) .s false], .vmlmat_mmsub, [0, 1, 2]⟩,
  ⟨.vml_sub, [.obj (.viewDense .vec) .s true, .obj (.viewDense .vec) .s true, .obj (.viewDense .ten) .s false], .vmlmat_mmsub, [0, 1, 2]⟩,
  ⟨.vml_sub, [.obj (.viewDense .vec) .s true, .obj (.viewDense .mat) .s true, .obj .dense .s false], .vmlmat_mmsub, [0, 1, 2]⟩,
  ⟨.vml_sub, [.obj (.viewDense .vec) .s true, .obj (.viewDense .mat) .s true, .obj (.viewDense .vec) .s false], .vmlmat_mmsub, [0, 1, 2]⟩,
  ⟨.vml_sub, [.obj (.viewDense .vec) .s true, .obj (.viewDense .mat) .s true, .obj (.viewDense .mat) .s false], .vmlmat_mmsub, [0, 1, 2]⟩,
  ⟨.vml_sub, [.obj (.viewDense .vec) .s true, .obj (.viewDense .mat) .s true, .obj (.viewDense .ten) .s false], .vmlmat_mmsub, [0, 1, 2]⟩,
  ⟨.vml_sub, [.obj (.viewDense .vec) .s true, .obj (.viewDense .ten) .s true, .obj .dense .s false], .vmlmat_mmsub, [0, 1, 2]⟩,
  ⟨.vml_sub, [.obj (.viewDense .vec) .s true, .obj (.viewDense .ten) .s true, .obj (.viewDense .vec) .s false], .vmlmat_mmsub, [0, 1, 2]⟩,
  ⟨.vml_sub, [.obj (.viewDense .vec) .s true, .obj (.viewDense .ten) .s true, .obj (.viewDense .mat) .s false], .vmlmat_mmsub, [0, 1, 2]⟩,
  ⟨.vml_sub, [.obj (.viewDense .vec) .s true, .obj (.viewDense .ten) .s true, .obj (.viewDense .ten) .s false], .vmlmat_mmsub, [0, 1, 2]⟩,
  ⟨.vml_sub, [.obj (.viewDense .mat) .s true, .obj .dense .s true, .obj .dense .s false], .vmlmat_mmsub, [0, 1, 2]⟩,
  ⟨.vml_sub, [.obj (.viewDense .mat) .s true, .obj .dense .s true, .obj (.viewDense .vec) .s false], .vmlmat_mmsub, [0, 1, 2]⟩,
  ⟨.vml_sub, [.obj (.viewDense .mat) .s true, .obj .dense .s true, .obj (.viewDense .mat) .s false], .vmlmat_mmsub, [0, 1, 2]⟩,
  ⟨.vml_sub, [.obj (.viewDense .mat) .s true, .obj .dense .s true, .obj (.viewDense .ten) .s false], .vmlmat_mmsub, [0, 1, 2]⟩,
  ⟨.vml_sub, [.obj (.viewDense .mat) .s true, .obj (.viewDense .vec) .s true, .obj .dense .s false], .vmlmat_mmsub, [0, 1, 2]⟩,
  ⟨.vml_sub, [.obj (.viewDense .mat) .s true, .obj (.viewDense .vec) .s true, .obj (.viewDense .vec) .s false], .vmlmat_mmsub, [0, 1, 2]⟩,
  ⟨.vml_sub, [.obj (.viewDense .mat) .s true, .obj (.viewDense .vec) .s true, .obj (.viewDense .mat) .s false], .vmlmat_mmsub, [0, 1, 2]⟩,
  ⟨.vml_sub, [.obj (.viewDense .mat) .s true, .obj (.viewDense .vec) .s true, .obj (.viewDense .ten) .s false], .vmlmat_mmsub, [0, 1, 2]⟩,
  ⟨.vml_sub, [.obj (.viewDense .mat) .s true, .obj (.viewDense .mat) .s true, .obj .dense .s false], .vmlmat_mmsub, [0, 1, 2]⟩,
  ⟨.vml_sub, [.obj (.viewDense .mat) .s true, .obj (.viewDense .mat) .s true, .obj (.viewDense .vec) .s false], .vmlmat_mmsub, [0, 1, 2]⟩,
  ⟨.vml_sub, [.obj (.viewDense .mat) .s true, .obj (.viewDense .mat) .s true, .obj (.viewDense .mat) .s false], .vmlmat_mmsub, [0, 1, 2]⟩,
  ⟨.vml_sub, [.obj (.viewDense .mat) .s true, .obj (.viewDense .mat) .s true, .obj (.viewDense .ten) .s false], .vmlmat_mmsub, [0, 1, 2]⟩]

/-- src/vml/matrix/matrix_vml.cpp:1187-1575 -/
def tVmlMat_3 : List Overload := [
  ⟨.vml_sub, [.obj (.viewDense .mat) .s true, .obj (.viewDense .ten) .s true, .obj .dense .s false], .vmlmat_mmsub, [0, 1, 2]⟩,
  ⟨.vml_sub, [.obj (.viewDense .mat) .s true, .obj (.viewDense .ten) .s true, .obj (.viewDense .vec) .s false], .vmlmat_mmsub, [0, 1, 2]⟩,
  ⟨.vml_sub, [.obj (.viewDense .mat) .s true, .obj (.viewDense .ten) .s true, .obj (.viewDense .mat) .s false], .vmlmat_mmsub, [0, 1, 2]⟩,
  ⟨.vml_sub, [.obj (.viewDense .mat) .s true, .obj (.viewDense .ten) .s true, .obj (.viewDense .ten) .s false], .vmlmat_mmsub, [0, 1, 2]⟩,
  ⟨.vml_sub, [.obj (.viewDense .ten) .s true, .obj .dense .s true, .obj .dense .s false], .vmlmat_mmsub, [0, 1, 2]⟩,
  ⟨.vml_sub, [.obj (.viewDense .ten) .s true, .obj .dense .s true, .obj (.viewDense .vec) .s false], .vmlmat_mmsub, [0, 1, 2]⟩,
  ⟨.vml_sub, [.obj (.viewDense .ten) .s true, .obj .dense .s true, .obj (.viewDense .mat) .s false], .vmlmat_mmsub, [0, 1, 2]⟩,
  ⟨.vml_sub, [.obj (.viewDense .ten) .s true, .obj .dense .s true, .obj (.viewDense .ten) .s false], .vmlmat_mmsub, [0, 1, 2]⟩,
  ⟨.vml_sub, [.obj (.viewDense .ten) .s true, .obj (.viewDense .vec) .s true, .obj .dense .s false], .vmlmat_mmsub, [0, 1, 2]⟩,
  ⟨.vml_sub, [.obj (.viewDense .ten) .s true, .obj (.viewDense .vec) .s true, .obj (.viewDense .vec) .s false], .vmlmat_mmsub, [0, 1, 2]⟩,
  ⟨.vml_sub, [.obj (.viewDense .ten) .s true, .obj (.viewDense .vec) .s true, .obj (.viewDense .mat) .s false], .vmlmat_mmsub, [0, 1, 2]⟩,
  ⟨.vml_sub, [.obj (.viewDense .ten) .s true, .obj (.viewDense .vec) .s true, .obj (.viewDense .ten) .s false], .vmlmat_mmsub, [0, 1, 2]⟩,
  ⟨.vml_sub, [.obj (.viewDense .ten) .s true, .obj (.viewDense .mat) .s true, .obj .dense .s false], .vmlmat_mmsub, [0, 1, 2]⟩,
  ⟨.vml_sub, [.obj (.viewDense .ten) .s true, .obj (.viewDense .mat) .s true, .obj (.viewDense .vec) .s false], .vmlmat_mmsub, [0, 1, 2]⟩,
  ⟨.vml_sub, [.obj (.viewDense .ten) .s true, .obj (.viewDense .mat) .s true, .obj (.viewDense .mat) .s false], .vmlmat_mmsub, [0, 1, 2]⟩,
  ⟨.vml_sub, [.obj (.viewDense .ten) .s true, .obj (.viewDense .mat) .s true, .obj (.viewDense .ten) .s false], .vmlmat_mmsub, [0, 1, 2]⟩,
  ⟨.vml_sub, [.obj (.viewDense .ten) .s true, .obj (.viewDense .ten) .s true, .obj .dense .s false], .vmlmat_mmsub, [0, 1, 2]⟩,
  ⟨.vml_sub, [.obj (.viewDense .ten) .s true, .obj (.viewDense .ten) .s true, .obj (.viewDense .vec) .s false], .vmlmat_mmsub, [0, 1, 2]⟩,
  ⟨.vml_sub, [.obj (.viewDense .ten) .s true, .obj (.viewDense .ten) .s true, .obj (.viewDense .mat) .s false], .vmlmat_mmsub, [0, 1, 2]⟩,
  ⟨.vml_sub, [.obj (.viewDense .ten) .s true, .obj (.viewDense .ten) .s true, .obj (.viewDense .ten) .s false], .vmlmat_mmsub, [0, 1, 2]⟩,
  ⟨.vml_mul, [.obj .crs .d true, .obj .crs .d true, .obj .crs .d false], .vmlmat_mmmul, [0, 1, 2]⟩,
  ⟨.vml_mul, [.obj .dense .d true, .obj .dense .d true, .obj .dense .d false], .vmlmat_mmmul, [0, 1, 2]⟩,
  ⟨.vml_mul, [.obj .dense .d true, .obj .dense .d true, .obj (.viewDense .vec) .d false], .vmlmat_mmmul, [0, 1, 2]⟩,
  ⟨.vml_mul, [.obj .dense .d true, .obj .dense .d true, .obj (.viewDense .mat) .d false], .vmlmat_mmmul, [0, 1, 2]⟩,
  ⟨.vml_mul, [.obj .dense .d true, .obj .dense .d true, .obj (.viewDense .ten) .d false], .vmlmat_mmmul, [0, 1, 2]⟩,
  ⟨.vml_mul, [.obj .dense .d true, .obj (.viewDense .vec) .d true, .obj .dense .d false], .vmlmat_mmmul, [0, 1, 2]⟩,
  ⟨.vml_mul, [.obj .dense .d true, .obj (.viewDense .vec) .d true, .obj (.viewDense .vec) .d false], .vmlmat_mmmul, [0, 1, 2]⟩,
  ⟨.vml_mul, [.obj .dense .d true, .obj (.viewDense .vec) .d true, .obj (.viewDense .mat) .d false], .vmlmat_mmmul, [0, 1, 2]⟩,
  ⟨.vml_mul, [.obj .dense .d true, .obj (.viewDense .vec) .d true, .obj (.viewDense .ten) .d false], .vmlmat_mmmul, [0, 1, 2]⟩,
  ⟨.vml_mul, [.obj .dense .d true, .obj (.viewDense .mat) .d true, .obj .dense .d false], .vmlmat_mmmul, [0, 1, 2]⟩,
  ⟨.vml_mul, [.obj .dense .d true, .obj (.viewDense .mat) .d true, .obj (.viewDense .vec) .d false], .vmlmat_mmmul, [0, 1, 2]⟩,
  ⟨.vml_mul, [.obj .dense .d true, .obj (.viewDense .mat) .d true, .obj (.viewDense .mat) .d false], .vmlmat_mmmul, [0, 1, 2]⟩,
  ⟨.vml_mul, [.obj .dense .d true, .obj (.viewDense .mat) .d true, .obj (.viewDense .ten) .d false], .vmlmat_mmmul, [0, 1, 2]⟩,
  ⟨.vml_mul, [.obj .dense .d true, .obj (.viewDense .ten) .d true, .obj .dense .d false], .vmlmat_mmmul, [0, 1, 2]⟩,
  ⟨.vml_mul, [.obj .dense .d true, .obj (.viewDense .ten) .d true, .obj (.viewDense .vec) .d false], .vmlmat_mmmul, [0, 1, 2]⟩,
  ⟨.vml_mul, [.obj .dense .d true, .obj (.viewDense .ten) .d true, .obj (.viewDense .mat) .d false], .vmlmat_mmmul, [0, 1, 2]⟩,
  ⟨.vml_mul, [.obj .dense .d true, .obj (.viewDense .ten) .d true, .obj (.viewDense .ten) .d false], .vmlmat_mmmul, [0, 1, 2]⟩,
  ⟨.vml_mul, [.obj (.viewDense .vec) .d true, .obj .dense .d true, .obj .dense .d false], .vmlmat_mmmul, [0, 1, 2]⟩,
  ⟨.vml_mul, [.obj (.viewDense .vec) .d true, .obj .dense .d true, .obj (.viewDense .vec) .d false], .vmlmat_mmmul, [0, 1, 2]⟩,
  ⟨.vml_mul, [.obj (.viewDense .vec) .d true, .obj .dense .d true, .obj (.viewDense .mat) .d false], .vmlmat_mmmul, [0, 1, 2]⟩,
  ⟨.vml_mul, [.obj (.viewDense .vec) .d true, .obj .dense .d true, .obj (.viewDense .ten) .d false], .vmlmat_mmmul, [0, 1, 2]⟩,
  ⟨.vml_mul, [.obj (.viewDense .vec) .d true, .obj (.viewDense .vec) .d true, .obj .dense .d false], .vmlmat_mmmul, [0, 1, 2]⟩,
  ⟨.vml_mul, [.obj (.viewDense .vec) .d true, .obj (.viewDense .vec) .d true, .obj (.viewDense .vec) .d false], .vmlmat_mmmul, [0, 1, 2]⟩,
  ⟨.vml_mul, [.obj (.viewDense .vec) .d true, .obj (.viewDense .vec) .d true, .obj (.viewDense .mat) .d false], .vmlmat_mmmul, [0, 1, 2]⟩,
  ⟨.vml_mul, [.obj (.viewDense .vec) .d true, .obj (.viewDense .vec) .d true, .obj (.viewDense .ten) .d false], .vmlmat_mmmul, [0, 1, 2]⟩,
  ⟨.vml_mul, [.obj (.viewDense .vec) .d true, .obj (.viewDense .mat) .d true, .obj .dense .d false], .vmlmat_mmmul, [0, 1, 2]⟩,
  ⟨.vml_mul, [.obj (.viewDense .vec) .d true, .obj (.viewDense .mat) .d true, .obj (.viewDense .vec) .d false], .vmlmat_mmmul, [0, 1, 2]⟩,
  ⟨.vml_mul, [.obj (.viewDense .vec) .d true, .obj (.viewDense .mat) .d true, .obj (.viewDense .mat) .d false], .vmlmat_mmmul, [0, 1, 2]⟩,
  ⟨.vml_mul, [.obj (.viewDense .vec) .d true, .obj (.viewDense .mat) .d true, .obj (.viewDense .ten) .d false], .vmlmat_mmmul, [0, 1, 2]⟩,
  ⟨.vml_mul, [.obj (.viewDense .vec) .d true, .obj (.viewDense .ten) .d true, .obj .dense .d false], .vmlmat_mmmul, [0, 1, 2]⟩,
  ⟨.vml_mul, [.obj (.viewDense .vec) .d true, .obj (.viewDense .ten) .d true, .obj (.viewDense .vec) .d false], .vmlmat_mmmul, [0, 1, 2]⟩,
  ⟨.vml_mul, [.obj (.viewDense .vec) .d true, .obj (.viewDense .ten) .d true, .obj (.viewDense .mat) .d false], .vmlmat_mmmul, [0, 1, 2]⟩,
  ⟨.vml_mul, [.obj (.viewDense .vec) .d true, .obj (.viewDense .ten) .d true, .obj (.viewDense .ten) .d false], .vmlmat_mmmul, [0, 1, 2]⟩,
  ⟨.vml_mul, [.obj (.viewDense .mat) .d true, .obj .dense .d true, .obj .dense .d false], .vmlmat_mmmul, [0, 1, 2]⟩,
  ⟨.vml_mul, [.obj (.viewDense .mat) .d true, .obj .dense .d true, .obj (.viewDense .vec) .d false], .vmlmat_mmmul, [0, 1, 2]⟩,
  ⟨.vml_mul, [.obj (.viewDense .mat) .d true, .obj .dense .d true, .obj (.viewDense .mat) .d false], .vmlmat_mmmul, [0, 1, 2]⟩,
  ⟨.vml_mul, [.obj (.viewDense .mat) .d true, .obj .dense .d true, .obj (.viewDense .ten) .d false], .vmlmat_mmmul, [0, 1, 2]⟩,
  ⟨.vml_mul, [.obj (.viewDense .mat) .d true, .obj (.viewDense .vec) .d true, .obj .dense .d false], .vmlmat_mmmul, [0, 1, 2]⟩,
  ⟨.vml_mul, [.obj (.viewDense .mat) .d true, .obj (.viewDense .vec) .d true, .obj (.viewDense .vec) .d false], .vmlmat_mmmul, [0, 1, 2]⟩,
  ⟨.vml_mul, [.obj (.viewDense .mat) .d true, .obj (.viewDense .vec) .d true, .obj (.viewDense .mat) .d false], .vmlmat_mmmul, [0, 1, 2]⟩,
  ⟨.vml_mul, [.obj (.viewDense .mat) .d true, .obj (.viewDense .vec) .d true, .obj (.viewDense .ten) .d false], .vmlmat_mmmul, [0, 1, 2]⟩,
  ⟨.vml_mul, [.obj (.viewDense .mat) .d true, .obj (.viewDense .mat) .d true, .obj .dense .d false], .vmlmat_mmmul, [0, 1, 2]⟩,
  ⟨.vml_mul, [.obj (.viewDense .mat) .d true, .obj (.viewDense .mat) .d true, .obj (.viewDense .vec) .d false], .vmlmat_mmmul, [0, 1, 2]⟩,
  ⟨.vml_mul, [.obj (.viewDense .mat) .d true, .obj (.viewDense .mat) .d true, .obj (.viewDense .mat) .d false], .vmlmat_mmmul, [0, 1, 2]⟩,
  ⟨.vml_mul, [.obj (.viewDense .mat) .d true, .obj (.viewDense .mat) .d true, .obj (.viewDense .ten) .d false], .vmlmat_mmmul, [0, 1, 2]⟩,
  ⟨.vml_mul, [.obj (.viewDense .mat) .d true, .obj (.viewDense .ten) .d true, .obj .dense .d false], .vmlmat_mmmul, [0, 1, 2]⟩,
  ⟨.vml_mul, [.obj (.viewDense .mat) .d true, .obj (.viewDense .ten) .d true, .obj (.viewDense .vec) .d false], .vmlmat_mmmul, [0, 1, 2]⟩,
  ⟨.vml_mul, [.obj (.viewDense .mat) .d true, .obj (.viewDense .ten) .d true, .obj (.viewDense .mat) .d false], .vmlmat_mmmul, [0, 1, 2]⟩,
  ⟨.vml_mul, [.obj (.viewDense .mat) .d true, .obj (.viewDense .ten) .d true, .obj (.viewDense .ten) .d false], .vmlmat_mmmul, [0, 1, 2]⟩,
  ⟨.vml_mul, [.obj (.viewDense .ten) .d true, .obj .dense .d true, .obj .dense .d false], .vmlmat_mmmul, [0, 1, 2]⟩,
  ⟨.vml_mul, [.obj (.viewDense .ten) .d true, .obj .dense .d true, .obj (.viewDense .vec) .d false], .vmlmat_mmmul, [0, 1, 2]⟩,
  ⟨.vml_mul, [.obj (.viewDense .ten) .d true, .obj .dense .d true, .obj (.viewDense .mat) .d false], .vmlmat_mmmul, [0, 1, 2]⟩,
  ⟨.vml_mul, [.obj (.viewDense .ten) .d true, .obj .dense .d true, .obj (.viewDense .ten) .d false], .vmlmat_mmmul, [0, 1, 2]⟩,
  ⟨.vml_mul, [.obj (.viewDense .ten) .d true, .obj (.viewDense .vec) .d true, .obj .dense .d false], .vmlmat_mmmul, [0, 1, 2]⟩,
  ⟨.vml_mul, [.obj (.viewDense .ten) .d true, .obj (.viewDense .vec) .d true, .obj (.viewDense .vec) .d false], .vmlmat_mmmul, [0, 1, 2]⟩,
  ⟨.vml_mul, [.obj (.viewDense .ten) .d true, .obj (.viewDense .vec) .d true, .obj (.viewDense .mat) .d false], .vmlmat_mmmul, [0, 1, 2]⟩,
  ⟨.vml_mul, [.obj (.viewDense .ten) .d true, .obj (.viewDense .vec) .d true, .obj (.viewDense .ten) .d false], .vmlmat_mmmul, [0, 1, 2]⟩,
  ⟨.vml_mul, [.obj (.viewDense .ten) .d true, .obj (.viewDense .mat) .d true, .obj .dense .d false], .vmlmat_mmmul, [0, 1, 2]⟩,
  ⟨.vml_mul, [.obj (.viewDense .ten) .d true, .obj (.viewDense .mat) .d true, .obj (.viewDense .vec) .d false], .vmlmat_mmmul, [0, 1, 2]⟩,
  ⟨.vml_mul, [.obj (.viewDense .ten) .d true, .obj (.viewDense .mat) .d true, .obj (.viewDense .mat) .d false], .vmlmat_mmmul, [0, 1, 2]⟩]

/-- src/vml/matrix/matrix_vml.cpp:1576-1955 -/
def tVmlMat_4 : List Overload := [
  ⟨.vml_mul, [.obj (.viewDense .ten) .d true, .obj (.viewDense .mat) .d true, .obj (.viewDense .ten) .d false], .vmlmat_mmmul, [0, 1, 2]⟩,
  ⟨.vml_mul, [.obj (.viewDense .ten) .d true, .obj (.viewDense .ten) .d true, .obj .dense .d false], .vmlmat_mmmul, [0, 1, 2]⟩,
  ⟨.vml_mul, [.obj (.viewDense .ten) .d true, .obj (.viewDense .ten) .d true, .obj (.viewDense .vec) .d false], .vmlmat_mmmul, [0, 1, 2]⟩,
  ⟨.vml_mul, [.obj (.viewDense .ten) .d true, .obj (.viewDense .ten) .d true, .obj (.viewDense .mat) .d false], .vmlmat_mmmul, [0, 1, 2]⟩,
  ⟨.vml_mul, [.obj (.viewDense .ten) .d true, .obj (.viewDense .ten) .d true, .obj (.viewDense .ten) .d false], .vmlmat_mmmul, [0, 1, 2]⟩,
  ⟨.vml_mul, [.obj .crs .s true, .obj .crs .s true, .obj .crs .s false], .vmlmat_mmmul, [0, 1, 2]⟩,
  ⟨.vml_mul, [.obj .dense .s true, .obj .dense .s true, .obj .dense .s false], .vmlmat_mmmul, [0, 1, 2]⟩,
  ⟨.vml_mul, [.obj .dense .s true, .obj .dense .s true, .obj (.viewDense .vec) .s false], .vmlmat_mmmul, [0, 1, 2]⟩,
  ⟨.vml_mul, [.obj .dense .s true, .obj .dense .s true, .obj (.viewDense .mat) .s false], .vmlmat_mmmul, [0, 1, 2]⟩,
  ⟨.vml_mul, [.obj .dense .s true, .obj .dense .s true, .obj (.viewDense .ten) .s false], .vmlmat_mmmul, [0, 1, 2]⟩,
  ⟨.vml_mul, [.obj .dense .s true, .obj (.viewDense .vec) .s true, .obj .dense .s false], .vmlmat_mmmul, [0, 1, 2]⟩,
  ⟨.vml_mul, [.obj .dense .s true, .obj (.viewDense .vec) .s true, .obj (.viewDense .vec) .s false], .vmlmat_mmmul, [0, 1, 2]⟩,
  ⟨.vml_mul, [.obj .dense .s true, .obj (.viewDense .vec) .s true, .obj (.viewDense .mat) .s false], .vmlmat_mmmul, [0, 1, 2]⟩,
  ⟨.vml_mul, [.obj .dense .s true, .obj (.viewDense .vec) .s true, .obj (.viewDense .ten) .s false], .vmlmat_mmmul, [0, 1, 2]⟩,
  ⟨.vml_mul, [.obj .dense .s true, .obj (.viewDense .mat) .s true, .obj .dense .s false], .vmlmat_mmmul, [0, 1, 2]⟩,
  ⟨.vml_mul, [.obj .dense .s true, .obj (.viewDense .mat) .s true, .obj (.viewDense .vec) .s false], .vmlmat_mmmul, [0, 1, 2]⟩,
  ⟨.vml_mul, [.obj .dense .s true, .obj (.viewDense .mat) .s true, .obj (.viewDense .mat) .s false], .vmlmat_mmmul, [0, 1, 2]⟩,
  ⟨.vml_mul, [.obj .dense .s true, .obj (.viewDense .mat) .s true, .obj (.viewDense .ten) .s false], .vmlmat_mmmul, [0, 1, 2]⟩,
  ⟨.vml_mul, [.obj .dense .s true, .obj (.viewDense .ten) .s true, .obj .dense .s false], .vmlmat_mmmul, [0, 1, 2]⟩,
  ⟨.vml_mul, [.obj .dense .s true, .obj (.viewDense .ten) .s true, .obj (.viewDense .vec) .s false], .vmlmat_mmmul, [0, 1, 2]⟩,
  ⟨.vml_mul, [.obj .dense .s true, .obj (.viewDense .ten) .s true, .obj (.viewDense .mat) .s false], .vmlmat_mmmul, [0, 1, 2]⟩,
  ⟨.vml_mul, [.obj .dense .s true, .obj (.viewDense .ten) .s true, .obj (.viewDense .ten) .s false], .vmlmat_mmmul, [0, 1, 2]⟩,
  ⟨.vml_mul, [.obj (.viewDense .vec) .s true, .obj .dense .s true, .obj .dense .s false], .vmlmat_mmmul, [0, 1, 2]⟩,
  ⟨.vml_mul, [.obj (.viewDense .vec) .s true, .obj .dense .s true, .obj (.viewDense .vec) .s false], .vmlmat_mmmul, [0, 1, 2]⟩,
  ⟨.vml_mul, [.obj (.viewDense .vec) .s true, .obj .dense .s true, .obj (.viewDense .mat) .s false], .vmlmat_mmmul, [0, 1, 2]⟩,
  ⟨.vml_mul, [.obj (.viewDense .vec) .s true, .obj .dense .s true, .obj (.viewDense .ten) .s false], .vmlmat_mmmul, [0, 1, 2]⟩,
  ⟨.vml_mul, [.obj (.viewDense .vec) .s true, .obj (.viewDense .vec) .s true, .obj .dense .s false], .vmlmat_mmmul, [0, 1, 2]⟩,
  ⟨.vml_mul, [.obj (.viewDense .vec) .s true, .obj (.viewDense .vec) .s true, .obj (.viewDense .vec) .s false], .vmlmat_mmmul, [0, 1, 2]⟩,
  ⟨.vml_mul, [.obj (.viewDense .vec) .s true, .obj (.viewDense .vec) .s true, .obj (.viewDense .mat) .s false], .vmlmat_mmmul, [0, 1, 2]⟩,
  ⟨.vml_mul, [.obj (.viewDense .vec) .s true, .obj (.viewDense .vec) .s true, .obj (.viewDense .ten) .s false], .vmlmat_mmmul, [0, 1, 2]⟩,
  ⟨.vml_mul, [.obj (.viewDense .vec) .s true, .obj (.viewDense .mat) .s true, .obj .dense .s false], .vmlmat_mmmul, [0, 1, 2]⟩,
  ⟨.vml_mul, [.obj (.viewDense .vec) .s true, .obj (.viewDense .mat) .s true, .obj (.viewDense .vec) .s false], .vmlmat_mmmul, [0, 1, 2]⟩,
  ⟨.vml_mul, [.obj (.viewDense .vec) .s true, .obj (.viewDense .mat) .s true, .obj (.viewDense .mat) .s false], .vmlmat_mmmul, [0, 1, 2]⟩,
  ⟨.vml_mul, [.obj (.viewDense .vec) .s true, .obj (.viewDense .mat) .s true, .obj (.viewDense .ten) .s false], .vmlmat_mmmul, [0, 1, 2]⟩,
  ⟨.vml_mul, [.obj (.viewDense .vec) .s true, .obj (.viewDense .ten) .s true, .obj .dense .s false], .vmlmat_mmmul, [0, 1, 2]⟩,
  ⟨.vml_mul, [.obj (.viewDense .vec) .s true, .obj (.viewDense .ten) .s true, .obj (.viewDense .vec) .s false], .vmlmat_mmmul, [0, 1, 2]⟩,
  ⟨.vml_mul, [.obj (.viewDense .vec) .s true, .obj (.viewDense .ten) .s true, .obj (.viewDense .mat) .s false], .vmlmat_mmmul, [0, 1, 2]⟩,
  ⟨.vml_mul, [.obj (.viewDense .vec) .s true, .obj (.viewDense .ten) .s true, .obj (.viewDense .ten) .s false], .vmlmat_mmmul, [0, 1, 2]⟩,
  ⟨.vml_mul, [.obj (.viewDense .mat) .s true, .obj .dense .s true, .obj .dense .s false], .vmlmat_mmmul, [0, 1, 2]⟩,
  ⟨.vml_mul, [.obj (.viewDense .mat) .s true, .obj .dense .s true, .obj (.viewDense .vec) .s false], .vmlmat_mmmul, [0, 1, 2]⟩,
  ⟨.vml_mul, [.obj (.viewDense .mat) .s true, .obj .dense .s true, .obj (.viewDense .mat) .s false], .vmlmat_mmmul, [0, 1, 2]⟩,
  ⟨.vml_mul, [.obj (.viewDense .mat) .s true, .obj .dense .s true, .obj (.viewDense .ten) .s false], .vmlmat_mmmul, [0, 1, 2]⟩,
  ⟨.vml_mul, [.obj (.viewDense .mat) .s true, .obj (.viewDense .vec) .s true, .obj .dense .s false], .vmlmat_mmmul, [0, 1, 2]⟩,
  ⟨.vml_mul, [.obj (.viewDense .mat) .s true, .obj (.viewDense .vec) .s true, .obj (.viewDense .vec) .s false], .vmlmat_mmmul, [0, 1, 2]⟩,
  ⟨.vml_mul, [.obj (.viewDense .mat) .s true, .obj (.viewDense .vec) .s true, .obj (.viewDense .mat) .s false], .vmlmat_mmmul, [0, 1, 2]⟩,
  ⟨.vml_mul, [.obj (.viewDense .mat) .s true, .obj (.viewDense .vec) .s true, .obj (.viewDense .ten) .s false], .vmlmat_mmmul, [0, 1, 2]⟩,
  ⟨.vml_mul, [.obj (.viewDense .mat) .s true, .obj (.viewDense .mat) .s true, .obj .dense .s false], .vmlmat_mmmul, [0, 1, 2]⟩,
  ⟨.vml_mul, [.obj (.viewDense .mat) .s true, .obj (.viewDense .mat) .s true, .obj (.viewDense .vec) .s false], .vmlmat_mmmul, [0, 1, 2]⟩,
  ⟨.vml_mul, [.obj (.viewDense .mat) .s true, .obj (.viewDense .mat) .s true, .obj (.viewDense .mat) .s false], .vmlmat_mmmul, [0, 1, 2]⟩,
  ⟨.vml_mul, [.obj (.viewDense .mat) .s true, .obj (.viewDense .mat) .s true, .obj (.viewDense .ten) .s false], .vmlmat_mmmul, [0, 1, 2]⟩,
  ⟨.vml_mul, [.obj (.viewDense .mat) .s true, .obj (.viewDense .ten) .s true, .obj .dense .s false], .vmlmat_mmmul, [0, 1, 2]⟩,
  ⟨.vml_mul, [.obj (.viewDense .mat) .s true, .obj (.viewDense .ten) .s true, .obj (.viewDense .vec) .s false], .vmlmat_mmmul, [0, 1, 2]⟩,
  ⟨.vml_mul, [.obj (.viewDense .mat) .s true, .obj (.viewDense .ten) .s true, .obj (.viewDense .mat) .s false], .vmlmat_mmmul, [0, 1, 2]⟩,
  ⟨.vml_mul, [.obj (.viewDense .mat) .s true, .obj (.viewDense .ten) .s true, .obj (.viewDense .ten) .s false], .vmlmat_mmmul, [0, 1, 2]⟩,
  ⟨.vml_mul, [.obj (.viewDense .ten) .s true, .obj .dense .s true, .obj .dense .s false], .vmlmat_mmmul, [0, 1, 2]⟩,
  ⟨.vml_mul, [.obj (.viewDense .ten) .s true, .obj .dense .s true, .obj (.viewDense .vec) .s false], .vmlmat_mmmul, [0, 1, 2]⟩,
  ⟨.vml_mul, [.obj (.viewDense .ten) .s true, .obj .dense .s true, .obj (.viewDense .mat) .s false], .vmlmat_mmmul, [0, 1, 2]⟩,
  ⟨.vml_mul, [.obj (.viewDense .ten) .s true, .obj .dense .s true, .obj (.viewDense .ten) .s false], .vmlmat_mmmul, [0, 1, 2]⟩,
  ⟨.vml_mul, [.obj (.viewDense .ten) .s true, .obj (.viewDense .vec) .s true, .obj .dense .s false], .vmlmat_mmmul, [0, 1, 2]⟩,
  ⟨.vml_mul, [.obj (.viewDense .ten) .s true, .obj (.viewDense .vec) .s true, .obj (.viewDense .vec) .s false], .vmlmat_mmmul, [0, 1, 2]⟩,
  ⟨.vml_mul, [.obj (.viewDense .ten) .s true, .obj (.viewDense .vec) .s true, .obj (.viewDense .mat) .s false], .vmlmat_mmmul, [0, 1, 2]⟩,
  ⟨.vml_mul, [.obj (.viewDense .ten) .s true, .obj (.viewDense .vec) .s true, .obj (.viewDense .ten) .s false], .vmlmat_mmmul, [0, 1, 2]⟩,
  ⟨.vml_mul, [.obj (.viewDense .ten) .s true, .obj (.viewDense .mat) .s true, .obj .dense .s false], .vmlmat_mmmul, [0, 1, 2]⟩,
  ⟨.vml_mul, [.obj (.viewDense .ten) .s true, .obj (.viewDense .mat) .s true, .obj (.viewDense .vec) .s false], .vmlmat_mmmul, [0, 1, 2]⟩,
  ⟨.vml_mul, [.obj (.viewDense .ten) .s true, .obj (.viewDense .mat) .s true, .obj (.viewDense .mat) .s false], .vmlmat_mmmul, [0, 1, 2]⟩,
  ⟨.vml_mul, [.obj (.viewDense .ten) .s true, .obj (.viewDense .mat) .s true, .obj (.viewDense .ten) .s false], .vmlmat_mmmul, [0, 1, 2]⟩,
  ⟨.vml_mul, [.obj (.viewDense .ten) .s true, .obj (.viewDense .ten) .s true, .obj .dense .s false], .vmlmat_mmmul, [0, 1, 2]⟩,
  ⟨.vml_mul, [.obj (.viewDense .ten) .s true, .obj (.viewDense .ten) .s true, .obj (.viewDense .vec) .s false], .vmlmat_mmmul, [0, 1, 2]⟩,
  ⟨.vml_mul, [.obj (.viewDense .ten) .s true, .obj (.viewDense .ten) .s true, .obj (.viewDense .mat) .s false], .vmlmat_mmmul, [0, 1, 2]⟩,
  ⟨.vml_mul, [.obj (.viewDense .ten) .s true, .obj (.viewDense .ten) .s true, .obj (.viewDense .ten) .s false], .vmlmat_mmmul, [0, 1, 2]⟩,
  ⟨.vml_div, [.obj .crs .d true, .obj .crs .d true, .obj .crs .d false], .vmlmat_mmdiv, [0, 1, 2]⟩,
  ⟨.vml_div, [.obj .dense .d true, .obj .dense .d true, .obj .dense .d false], .vmlmat_mmdiv, [0, 1, 2]⟩,
  ⟨.vml_div, [.obj .dense .d true, .obj .dense .d true, .obj (.viewDense .vec) .d false], .vmlmat_mmdiv, [0, 1, 2]⟩,
  ⟨.vml_div, [.obj .dense .d true, .obj .dense .d true, .obj (.viewDense .mat) .d false], .vmlmat_mmdiv, [0, 1, 2]⟩,
  ⟨.vml_div, [.obj .dense .d true, .obj .dense .d true, .obj (.viewDense .ten) .d false], .vmlmat_mmdiv, [0, 1, 2]⟩,
  ⟨.vml_div, [.obj .dense .d true, .obj (.viewDense .vec) .d true, .obj .dense .d false], .vmlmat_mmdiv, [0, 1, 2]⟩,
  ⟨.vml_div, [.obj .dense .d true, .obj (.viewDense .vec) .d true, .obj (.viewDense .vec) .d false], .vmlmat_mmdiv, [0, 1, 2]⟩,
  ⟨.vml_div, [.obj .dense .d true, .obj (.viewDense .vec) .d true, .obj (.viewDense .mat) .d false], .vmlmat_mmdiv, [0, 1, 2]⟩,
  ⟨.vml_div, [.obj .dense .d true, .obj (.viewDense .vec) .d true, .obj (.viewDense .ten) .d false], .vmlmat_mmdiv, [0, 1, 2]⟩,
  ⟨.vml_div, [.obj .dense .d true, .obj (.viewDense .mat) .d true, .obj .dense .d false], .vmlmat_mmdiv, [0, 1, 2]⟩]

/-- src/vml/matrix/matrix_vml.cpp:1956-2343 -/
def tVmlMat_5 : List Overload := [
  ⟨.vml_div, [.obj .dense .d true, .obj (.viewDense .mat) .d true, .obj (.viewDense .vec) .d false], .vmlmat_mmdiv, [0, 1, 2]⟩,
  ⟨.vml_div, [.obj .dense .d true, .obj (.viewDense .mat) .d true, .obj (.viewDense .mat) .d false], .vmlmat_mmdiv, [0, 1, 2]⟩,
  ⟨.vml_div, [.obj .dense .d true, .obj (.viewDense .mat) .d true, .obj (.viewDense .ten) .d false], .vmlmat_mmdiv, [0, 1, 2]⟩,
  ⟨.vml_div, [.obj .dense .d true, .obj (.viewDense .ten) .d true, .obj .dense .d false], .vmlmat_mmdiv, [0, 1, 2]⟩,
  ⟨.vml_div, [.obj .dense .d true, .obj (.viewDense .ten) .d true, .obj (.viewDense .vec) .d false], .vmlmat_mmdiv, [0, 1, 2]⟩,
  ⟨.vml_div, [.obj .dense .d true, .obj (.viewDense .ten) .d true, .obj (.viewDense .mat) .d false], .vmlmat_mmdiv, [0, 1, 2]⟩,
  ⟨.vml_div, [.obj .dense .d true, .obj (.viewDense .ten) .d true, .obj (.viewDense .ten) .d false], .vmlmat_mmdiv, [0, 1, 2]⟩,
  ⟨.vml_div, [.obj (.viewDense .vec) .d true, .obj .dense .d true, .obj .dense .d false], .vmlmat_mmdiv, [0, 1, 2]⟩,
  ⟨.vml_div, [.obj (.viewDense .vec) .d true, .obj .dense .d true, .obj (.viewDense .vec) .d false], .vmlmat_mmdiv, [0, 1, 2]⟩,
  ⟨.vml_div, [.obj (.viewDense .vec) .d true, .obj .dense .d true, .obj (.viewDense .mat) .d false], .vmlmat_mmdiv, [0, 1, 2]⟩,
  ⟨.vml_div, [.obj (.viewDense .vec) .d true, .obj .dense .d true, .obj (.viewDense .ten) .d false], .vmlmat_mmdiv, [0, 1, 2]⟩,
  ⟨.vml_div, [.obj (.viewDense .vec) .d true, .obj (.viewDense .vec) .d true, .obj .dense .d false], .vmlmat_mmdiv, [0, 1, 2]⟩,
  ⟨.vml_div, [.obj (.viewDense .vec) .d true, .obj (.viewDense .vec) .d true, .obj (.viewDense .vec) .d false], .vmlmat_mmdiv, [0, 1, 2]⟩,
  ⟨.vml_div, [.obj (.viewDense .vec) .d true, .obj (.viewDense .vec) .d true, .obj (.viewDense .mat) .d false], .vmlmat_mmdiv, [0, 1, 2]⟩,
  ⟨.vml_div, [.obj (.viewDense .vec) .d true, .obj (.viewDense .vec) .d true, .obj (.viewDense .ten) .d false], .vmlmat_mmdiv, [0, 1, 2]⟩,
  ⟨.vml_div, [.obj (.viewDense .vec) .d true, .obj (.viewDense .mat) .d true, .obj .dense .d false], .vmlmat_mmdiv, [0, 1, 2]⟩,
  ⟨.vml_div, [.obj (.viewDense .vec) .d true, .obj (.viewDense .mat) .d true, .obj (.viewDense .vec) .d false], .vmlmat_mmdiv, [0, 1, 2]⟩,
  ⟨.vml_div, [.obj (.viewDense .vec) .d true, .obj (.viewDense .mat) .d true, .obj (.viewDense .mat) .d false], .vmlmat_mmdiv, [0, 1, 2]⟩,
  ⟨.vml_div, [.obj (.viewDense .vec) .d true, .obj (.viewDense .mat) .d true, .obj (.viewDense .ten) .d false], .vmlmat_mmdiv, [0, 1, 2]⟩,
  ⟨.vml_div, [.obj (.viewDense .vec) .d true, .obj (.viewDense .ten) .d true, .obj .dense .d false], .vmlmat_mmdiv, [0, 1, 2]⟩,
  ⟨.vml_div, [.obj (.viewDense .vec) .d true, .obj (.viewDense .ten) .d true, .obj (.viewDense .vec) .d false], .vmlmat_mmdiv, [0, 1, 2]⟩,
  ⟨.vml_div, [.obj (.viewDense .vec) .d true, .obj (.viewDense .ten) .d true, .obj (.viewDense .mat) .d false], .vmlmat_mmdiv, [0, 1, 2]⟩,
  ⟨.vml_div, [.obj (.viewDense .vec) .d true, .obj (.viewDense .ten) .d true, .obj (.viewDense .ten) .d false], .vmlmat_mmdiv, [0, 1, 2]⟩,
  ⟨.vml_div, [.obj (.viewDense .mat) .d true, .obj .dense .d true, .obj .dense .d false], .vmlmat_mmdiv, [0, 1, 2]⟩,
  ⟨.vml_div, [.obj (.viewDense .mat) .d true, .obj .dense .d true, .obj (.viewDense .vec) .d false], .vmlmat_mmdiv, [0, 1, 2]⟩,
  ⟨.vml_div, [.obj (.viewDense .mat) .d true, .obj .dense .d true, .obj (.viewDense .mat) .d false], .vmlmat_mmdiv, [0, 1, 2]⟩,
  ⟨.vml_div, [.obj (.viewDense .mat) .d true, .obj .dense .d true, .obj (.viewDense .ten) .d false], .vmlmat_mmdiv, [0, 1, 2]⟩,
  ⟨.vml_div, [.obj (.viewDense .mat) .d true, .obj (.viewDense .vec) .d true, .obj .dense .d false], .vmlmat_mmdiv, [0, 1, 2]⟩,
  ⟨.vml_div, [.obj (.viewDense .mat) .d true, .obj (.viewDense .vec) .d true, .obj (.viewDense .vec) .d false], .vmlmat_mmdiv, [0, 1, 2]⟩,
  ⟨.vml_div, [.obj (.viewDense .mat) .d true, .obj (.viewDense .vec) .d true, .obj (.viewDense .mat) .d false], .vmlmat_mmdiv, [0, 1, 2]⟩,
  ⟨.vml_div, [.obj (.viewDense .mat) .d true, .obj (.viewDense .vec) .d true, .obj (.viewDense .ten) .d false], .vmlmat_mmdiv, [0, 1, 2]⟩,
  ⟨.vml_div, [.obj (.viewDense .mat) .d true, .obj (.viewDense .mat) .d true, .obj .dense .d false], .vmlmat_mmdiv, [0, 1, 2]⟩,
  ⟨.vml_div, [.obj (.viewDense .mat) .d true, .obj (.viewDense .mat) .d true, .obj (.viewDense .vec) .d false], .vmlmat_mmdiv, [0, 1, 2]⟩,
  ⟨.vml_div, [.obj (.viewDense .mat) .d true, .obj (.viewDense .mat) .d true, .obj (.viewDense .mat) .d false], .vmlmat_mmdiv, [0, 1, 2]⟩,
  ⟨.vml_div, [.obj (.viewDense .mat) .d true, .obj (.viewDense .mat) .d true, .obj (.viewDense .ten) .d false], .vmlmat_mmdiv, [0, 1, 2]⟩,
  ⟨.vml_div, [.obj (.viewDense .mat) .d true, .obj (.viewDense .ten) .d true, .obj .dense .d false], .vmlmat_mmdiv, [0, 1, 2]⟩,
  ⟨.vml_div, [.obj (.viewDense .mat) .d true, .obj (.viewDense .ten) .d true, .obj (.viewDense .vec) .d false], .vmlmat_mmdiv, [0, 1, 2]⟩,
  ⟨.vml_div, [.obj (.viewDense .mat) .d true, .obj (.viewDense .ten) .d true, .obj (.viewDense .mat) .d false], .vmlmat_mmdiv, [0, 1, 2]⟩,
  ⟨.vml_div, [.obj (.viewDense .mat) .d true, .obj (.viewDense .ten) .d true, .obj (.viewDense .ten) .d false], .vmlmat_mmdiv, [0, 1, 2]⟩,
  ⟨.vml_div, [.obj (.viewDense .ten) .d true, .obj .dense .d true, .obj .dense .d false], .vmlmat_mmdiv, [0, 1, 2]⟩,
  ⟨.vml_div, [.obj (.viewDense .ten) .d true, .obj .dense .d true, .obj (.viewDense .vec) .d false], .vmlmat_mmdiv, [0, 1, 2]⟩,
  ⟨.vml_div, [.obj (.viewDense .ten) .d true, .obj .dense .d true, .obj (.viewDense .mat) .d false], .vmlmat_mmdiv, [0, 1, 2]⟩,
  ⟨.vml_div, [.obj (.viewDense .ten) .d true, .obj .dense .d true, .obj (.viewDense .ten) .d false], .vmlmat_mmdiv, [0, 1, 2]⟩,
  ⟨.vml_div, [.obj (.viewDense .ten) .d true, .obj (.viewDense .vec) .d true, .obj .dense .d false], .vmlmat_mmdiv, [0, 1, 2]⟩,
  ⟨.vml_div, [.obj (.viewDense .ten) .d true, .obj (.viewDense .vec) .d true, .obj (.viewDense .vec) .d false], .vmlmat_mmdiv, [0, 1, 2]⟩,
  ⟨.vml_div, [.obj (.viewDense .ten) .d true, .obj (.viewDense .vec) .d true, .obj (.viewDense .mat) .d false], .vmlmat_mmdiv, [0, 1, 2]⟩,
  ⟨.vml_div, [.obj (.viewDense .ten) .d true, .obj (.viewDense .vec) .d true, .obj (.viewDense .ten) .d false], .vmlmat_mmdiv, [0, 1, 2]⟩,
  ⟨.vml_div, [.obj (.viewDense .ten) .d true, .obj (.viewDense .mat) .d true, .obj .dense .d false], .vmlmat_mmdiv, [0, 1, 2]⟩,
  ⟨.vml_div, [.obj (.viewDense .ten) .d true, .obj (.viewDense .mat) .d true, .obj (.viewDense .vec) .d false], .vmlmat_mmdiv, [0, 1, 2]⟩,
  ⟨.vml_div, [.obj (.viewDense .ten) .d true, .obj (.viewDense .mat) .d true, .obj (.viewDense .mat) .d false], .vmlmat_mmdiv, [0, 1, 2]⟩,
  ⟨.vml_div, [.obj (.viewDense .ten) .d true, .obj (.viewDense .mat) .d true, .obj (.viewDense .ten) .d false], .vmlmat_mmdiv, [0, 1, 2]⟩,
  ⟨.vml_div, [.obj (.viewDense .ten) .d true, .obj (.viewDense .ten) .d true, .obj .dense .d false], .vmlmat_mmdiv, [0, 1, 2]⟩,
  ⟨.vml_div, [.obj (.viewDense .ten) .d true, .obj (.viewDense .ten) .d true, .obj (.viewDense .vec) .d false], .vmlmat_mmdiv, [0, 1, 2]⟩,
  ⟨.vml_div, [.obj (.viewDense .ten) .d true, .obj (.viewDense .ten) .d true, .obj (.viewDense .mat) .d false], .vmlmat_mmdiv, [0, 1, 2]⟩,
  ⟨.vml_div, [.obj (.viewDense .ten) .d true, .obj (.viewDense .ten) .d true, .obj (.viewDense .ten) .d false], .vmlmat_mmdiv, [0, 1, 2]⟩,
  ⟨.vml_div, [.obj .crs .s true, .obj .crs .s true, .obj .crs .s false], .vmlmat_mmdiv, [0, 1, 2]⟩,
  ⟨.vml_div, [.obj .dense .s true, .obj .dense .s true, .obj .dense .s false], .vmlmat_mmdiv, [0, 1, 2]⟩,
  ⟨.vml_div, [.obj .dense .s true, .obj .dense .s true, .obj (.viewDense .vec) .s false], .vmlmat_mmdiv, [0, 1, 2]⟩,
  ⟨.vml_div, [.obj .dense .s true, .obj .dense .s true, .obj (.viewDense .mat) .s false], .vmlmat_mmdiv, [0, 1, 2]⟩,
  ⟨.vml_div, [.obj .dense .s true, .obj .dense .s true, .obj (.viewDense .ten) .s false], .vmlmat_mmdiv, [0, 1, 2]⟩,
  ⟨.vml_div, [.obj .dense .s true, .obj (.viewDense .vec) .s true, .obj .dense .s false], .vmlmat_mmdiv, [0, 1, 2]⟩,
  ⟨.vml_div, [.obj .dense .s true, .obj (.viewDense .vec) .s true, .obj (.viewDense .vec) .s false], .vmlmat_mmdiv, [0, 1, 2]⟩,
  ⟨.vml_div, [.obj .dense .s true, .obj (.viewDense .vec) .s true, .obj (.viewDense .mat) .s false], .vmlmat_mmdiv, [0, 1, 2]⟩,
  ⟨.vml_div, [.obj .dense .s true, .obj (.viewDense .vec) .s true, .obj (.viewDense .ten) .s false], .vmlmat_mmdiv, [0, 1, 2]⟩,
  ⟨.vml_div, [.obj .dense .s true, .obj (.viewDense .mat) .s true, .obj .dense .s false], .vmlmat_mmdiv, [0, 1, 2]⟩,
  ⟨.vml_div, [.obj .dense .s true, .obj (.viewDense .mat) .s true, .obj (.viewDense .vec) .s false], .vmlmat_mmdiv, [0, 1, 2]⟩,
  ⟨.vml_div, [.obj .dense .s true, .obj (.viewDense .mat) .s true, .obj (.viewDense .mat) .s false], .vmlmat_mmdiv, [0, 1, 2]⟩,
  ⟨.vml_div, [.obj .dense .s true, .obj (.viewDense .mat) .s true, .obj (.viewDense .ten) .s false], .vmlmat_mmdiv, [0, 1, 2]⟩,
  ⟨.vml_div, [.obj .dense .s true, .obj (.viewDense .ten) .s true, .obj .dense .s false], .vmlmat_mmdiv, [0, 1, 2]⟩,
  ⟨.vml_div, [.obj .dense .s true, .obj (.viewDense .ten) .s true, .obj (.viewDense .vec) .s false], .vmlmat_mmdiv, [0, 1, 2]⟩,
  ⟨.vml_div, [.obj .dense .s true, .obj (.viewDense .ten) .s true, .obj (.viewDense .mat) .s false], .vmlmat_mmdiv, [0, 1, 2]⟩,
  ⟨.vml_div, [.obj .dense .s true, .obj (.viewDense .ten) .s true, .obj (.viewDense .ten) .s false], .vmlmat_mmdiv, [0, 1, 2]⟩,
  ⟨.vml_div, [.obj (.viewDense .vec) .s true, .obj .dense .s true, .obj .dense .s false], .vmlmat_mmdiv, [0, 1, 2]⟩,
  ⟨.vml_div, [.obj (.viewDense .vec) .s true, .obj .dense .s true, .obj (.viewDense .vec) .s false], .vmlmat_mmdiv, [0, 1, 2]⟩,
  ⟨.vml_div, [.obj (.viewDense .vec) .s true, .obj .dense .s true, .obj (.viewDense .mat) .s false], .vmlmat_mmdiv, [0, 1, 2]⟩,
  ⟨.vml_div, [.obj (.viewDense .vec) .s true, .obj .dense .s true, .obj (.viewDense .ten) .s false], .vmlmat_mmdiv, [0, 1, 2]⟩,
  ⟨.vml_div, [.obj (.viewDense .vec) .s true, .obj (.viewDense .vec) .s true, .obj .dense .s false], .vmlmat_mmdiv, [0, 1, 2]⟩,
  ⟨.vml_div, [.obj (.viewDense .vec) .s true, .obj (.viewDense .vec) .s true, .obj (.viewDense .vec) .s false], .vmlmat_mmdiv, [0, 1, 2]⟩,
  ⟨.vml_div, [.obj (.viewDense .vec) .s true, .obj (.viewDense .vec) .s true, .obj (.viewDense .mat) .s false], .vmlmat_mmdiv, [0, 1, 2]⟩,
  ⟨.vml_div, [.obj (.viewDense .vec) .s true, .obj (.viewDense .vec) .s true, .obj (.viewDense .ten) .s false], .vmlmat_mmdiv, [0, 1, 2]⟩]

/-- src/vml/matrix/matrix_vml.cpp:2344-2699 -/
def tVmlMat_6 : List Overload := [
  ⟨.vml_div, [.obj (.viewDense .vec) .s true, .obj (.viewDense .mat) .s true, .obj .dense .s false], .vmlmat_mmdiv, [0, 1, 2]⟩,
  ⟨.vml_div, [.obj (.viewDense .vec) .s true, .obj (.viewDense .mat) .s true, .obj (.viewDense .vec) .s false], .vmlmat_mmdiv, [0, 1, 2]⟩,
  ⟨.vml_div, [.obj (.viewDense .vec) .s true, .obj (.viewDense .mat) .s true, .obj (.viewDense .mat) .s false], .vmlmat_mmdiv, [0, 1, 2]⟩,
  ⟨.vml_div, [.obj (.viewDense .vec) .s true, .obj (.viewDense .mat) .s true, .obj (.viewDense .ten) .s false], .vmlmat_mmdiv, [0, 1, 2]⟩,
  ⟨.vml_div, [.obj (.viewDense .vec) .s true, .obj (.viewDense .ten) .s true, .obj .dense .s false], .vmlmat_mmdiv, [0, 1, 2]⟩,
  ⟨.vml_div, [.obj (.viewDense .vec) .s true, .obj (.viewDense .ten) .s true, .obj (.viewDense .vec) .s false], .vmlmat_mmdiv, [0, 1, 2]⟩,
  ⟨.vml_div, [.obj (.viewDense .vec) .s true, .obj (.viewDense .ten) .s true, .obj (.viewDense .mat) .s false], .vmlmat_mmdiv, [0, 1, 2]⟩,
  ⟨.vml_div, [.obj (.viewDense .vec) .s true, .obj (.viewDense .ten) .s true, .obj (.viewDense .ten) .s false], .vmlmat_mmdiv, [0, 1, 2]⟩,
  ⟨.vml_div, [.obj (.viewDense .mat) .s true, .obj .dense .s true, .obj .dense .s false], .vmlmat_mmdiv, [0, 1, 2]⟩,
  ⟨.vml_div, [.obj (.viewDense .mat) .s true, .obj .dense .s true, .obj (.viewDense .vec) .s false], .vmlmat_mmdiv, [0, 1, 2]⟩,
  ⟨.vml_div, [.obj (.viewDense .mat) .s true, .obj .dense .s true, .obj (.viewDense .mat) .s false], .vmlmat_mmdiv, [0, 1, 2]⟩,
  ⟨.vml_div, [.obj (.viewDense .mat) .s true, .obj .dense .s true, .obj (.viewDense .ten) .s false], .vmlmat_mmdiv, [0, 1, 2]⟩,
  ⟨.vml_div, [.obj (.viewDense .mat) .s true, .obj (.viewDense .vec) .s true, .obj .dense .s false], .vmlmat_mmdiv, [0, 1, 2]⟩,
  ⟨.vml_div, [.obj (.viewDense .mat) .s true, .obj (.viewDense .vec) .s true, .obj (.viewDense .vec) .s false], .vmlmat_mmdiv, [0, 1, 2]⟩,
  ⟨.vml_div, [.obj (.viewDense .mat) .s true, .obj (.viewDense .vec) .s true, .obj (.viewDense .mat) .s false], .vmlmat_mmdiv, [0, 1, 2]⟩,
  ⟨.vml_div, [.obj (.viewDense .mat) .s true, .obj (.viewDense .vec) .s true, .obj (.viewDense .ten) .s false], .vmlmat_mmdiv, [0, 1, 2]⟩,
  ⟨.vml_div, [.obj (.viewDense .mat) .s true, .obj (.viewDense .mat) .s true, .obj .dense .s false], .vmlmat_mmdiv, [0, 1, 2]⟩,
  ⟨.vml_div, [.obj (.viewDense .mat) .s true, .obj (.viewDense .mat) .s true, .obj (.viewDense .vec) .s false], .vmlmat_mmdiv, [0, 1, 2]⟩,
  ⟨.vml_div, [.obj (.viewDense .mat) .s true, .obj (.viewDense .mat) .s true, .obj (.viewDense .mat) .s false], .vmlmat_mmdiv, [0, 1, 2]⟩,
  ⟨.vml_div, [.obj (.viewDense .mat) .s true, .obj (.viewDense .mat) .s true, .obj (.viewDense .ten) .s false], .vmlmat_mmdiv, [0, 1, 2]⟩,
  ⟨.vml_div, [.obj (.viewDense .mat) .s true, .obj (.viewDense .ten) .s true, .obj .dense .s false], .vmlmat_mmdiv, [0, 1, 2]⟩,
  ⟨.vml_div, [.obj (.viewDense .mat) .s true, .obj (.viewDense .ten) .s true, .obj (.viewDense .vec) .s false], .vmlmat_mmdiv, [0, 1, 2]⟩,
  ⟨.vml_div, [.obj (.viewDense .mat) .s true, .obj (.viewDense .ten) .s true, .obj (.viewDense .mat) .s false], .vmlmat_mmdiv, [0, 1, 2]⟩,
  ⟨.vml_div, [.obj (.viewDense .mat) .s true, .obj (.viewDense .ten) .s true, .obj (.viewDense .ten) .s false], .vmlmat_mmdiv, [0, 1, 2]⟩,
  ⟨.vml_div, [.obj (.viewDense .ten) .s true, .obj .dense .s true, .obj .dense .s false], .vmlmat_mmdiv, [0, 1, 2]⟩,
  ⟨.vml_div, [.obj (.viewDense .ten) .s true, .obj .dense .s true, .obj (.viewDense .vec) .s false], .vmlmat_mmdiv, [0, 1, 2]⟩,
  ⟨.vml_div, [.obj (.viewDense .ten) .s true, .obj .dense .s true, .obj (.viewDense .mat) .s false], .vmlmat_mmdiv, [0, 1, 2]⟩,
  ⟨.vml_div, [.obj (.viewDense .ten) .s true, .obj .dense .s true, .obj (.viewDense .ten) .s false], .vmlmat_mmdiv, [0, 1, 2]⟩,
  ⟨.vml_div, [.obj (.viewDense .ten) .s true, .obj (.viewDense .vec) .s true, .obj .dense .s false], .vmlmat_mmdiv, [0, 1, 2]⟩,
  ⟨.vml_div, [.obj (.viewDense .ten) .s true, .obj (.viewDense .vec) .s true, .obj (.viewDense .vec) .s false], .vmlmat_mmdiv, [0, 1, 2]⟩,
  ⟨.vml_div, [.obj (.viewDense .ten) .s true, .obj (.viewDense .vec) .s true, .obj (.viewDense .mat) .s false], .vmlmat_mmdiv, [0, 1, 2]⟩,
  ⟨.vml_div, [.obj (.viewDense .ten) .s true, .obj (.viewDense .vec) .s true, .obj (.viewDense .ten) .s false], .vmlmat_mmdiv, [0, 1, 2]⟩,
  ⟨.vml_div, [.obj (.viewDense .ten) .s true, .obj (.viewDense .mat) .s true, .obj .dense .s false], .vmlmat_mmdiv, [0, 1, 2]⟩,
  ⟨.vml_div, [.obj (.viewDense .ten) .s true, .obj (.viewDense .mat) .s true, .obj (.viewDense .vec) .s false], .vmlmat_mmdiv, [0, 1, 2]⟩,
  ⟨.vml_div, [.obj (.viewDense .ten) .s true, .obj (.viewDense .mat) .s true, .obj (.viewDense .mat) .s false], .vmlmat_mmdiv, [0, 1, 2]⟩,
  ⟨.vml_div, [.obj (.viewDense .ten) .s true, .obj (.viewDense .mat) .s true, .obj (.viewDense .ten) .s false], .vmlmat_mmdiv, [0, 1, 2]⟩,
  ⟨.vml_div, [.obj (.viewDense .ten) .s true, .obj (.viewDense .ten) .s true, .obj .dense .s false], .vmlmat_mmdiv, [0, 1, 2]⟩,
  ⟨.vml_div, [.obj (.viewDense .ten) .s true, .obj (.viewDense .ten) .s true, .obj (.viewDense .vec) .s false], .vmlmat_mmdiv, [0, 1, 2]⟩,
  ⟨.vml_div, [.obj (.viewDense .ten) .s true, .obj (.viewDense .ten) .s true, .obj (.viewDense .mat) .s false], .vmlmat_mmdiv, [0, 1, 2]⟩,
  ⟨.vml_div, [.obj (.viewDense .ten) .s true, .obj (.viewDense .ten) .s true, .obj (.viewDense .ten) .s false], .vmlmat_mmdiv, [0, 1, 2]⟩,
  ⟨.vml_add, [.obj .crs .d true, .scal .d, .obj .crs .d false], .vmlmat_smadd, [0, 1, 2]⟩,
  ⟨.vml_add, [.obj .dense .d true, .scal .d, .obj .dense .d false], .vmlmat_smadd, [0, 1, 2]⟩,
  ⟨.vml_add, [.obj .dense .d true, .scal .d, .obj (.viewDense .vec) .d false], .vmlmat_smadd, [0, 1, 2]⟩,
  ⟨.vml_add, [.obj .dense .d true, .scal .d, .obj (.viewDense .mat) .d false], .vmlmat_smadd, [0, 1, 2]⟩,
  ⟨.vml_add, [.obj .dense .d true, .scal .d, .obj (.viewDense .ten) .d false], .vmlmat_smadd, [0, 1, 2]⟩,
  ⟨.vml_add, [.obj (.viewDense .vec) .d true, .scal .d, .obj .dense .d false], .vmlmat_smadd, [0, 1, 2]⟩,
  ⟨.vml_add, [.obj (.viewDense .vec) .d true, .scal .d, .obj (.viewDense .vec) .d false], .vmlmat_smadd, [0, 1, 2]⟩,
  ⟨.vml_add, [.obj (.viewDense .vec) .d true, .scal .d, .obj (.viewDense .mat) .d false], .vmlmat_smadd, [0, 1, 2]⟩,
  ⟨.vml_add, [.obj (.viewDense .vec) .d true, .scal .d, .obj (.viewDense .ten) .d false], .vmlmat_smadd, [0, 1, 2]⟩,
  ⟨.vml_add, [.obj (.viewDense .mat) .d true, .scal .d, .obj .dense .d false], .vmlmat_smadd, [0, 1, 2]⟩,
  ⟨.vml_add, [.obj (.viewDense .mat) .d true, .scal .d, .obj (.viewDense .vec) .d false], .vmlmat_smadd, [0, 1, 2]⟩,
  ⟨.vml_add, [.obj (.viewDense .mat) .d true, .scal .d, .obj (.viewDense .mat) .d false], .vmlmat_smadd, [0, 1, 2]⟩,
  ⟨.vml_add, [.obj (.viewDense .mat) .d true, .scal .d, .obj (.viewDense .ten) .d false], .vmlmat_smadd, [0, 1, 2]⟩,
  ⟨.vml_add, [.obj (.viewDense .ten) .d true, .scal .d, .obj .dense .d false], .vmlmat_smadd, [0, 1, 2]⟩,
  ⟨.vml_add, [.obj (.viewDense .ten) .d true, .scal .d, .obj (.viewDense .vec) .d false], .vmlmat_smadd, [0, 1, 2]⟩,
  ⟨.vml_add, [.obj (.viewDense .ten) .d true, .scal .d, .obj (.viewDense .mat) .d false], .vmlmat_smadd, [0, 1, 2]⟩,
  ⟨.vml_add, [.obj (.viewDense .ten) .d true, .scal .d, .obj (.viewDense .ten) .d false], .vmlmat_smadd, [0, 1, 2]⟩,
  ⟨.vml_add, [.obj .crs .s true, .scal .s, .obj .crs .s false], .vmlmat_smadd, [0, 1, 2]⟩,
  ⟨.vml_add, [.obj .dense .s true, .scal .s, .obj .dense .s false], .vmlmat_smadd, [0, 1, 2]⟩,
  ⟨.vml_add, [.obj .dense .s true, .scal .s, .obj (.viewDense .vec) .s false], .vmlmat_smadd, [0, 1, 2]⟩,
  ⟨.vml_add, [.obj .dense .s true, .scal .s, .obj (.viewDense .mat) .s false], .vmlmat_smadd, [0, 1, 2]⟩,
  ⟨.vml_add, [.obj .dense .s true, .scal .s, .obj (.viewDense .ten) .s false], .vmlmat_smadd, [0, 1, 2]⟩,
  ⟨.vml_add, [.obj (.viewDense .vec) .s true, .scal .s, .obj .dense .s false], .vmlmat_smadd, [0, 1, 2]⟩,
  ⟨.vml_add, [.obj (.viewDense .vec) .s true, .scal .s, .obj (.viewDense .vec) .s false], .vmlmat_smadd, [0, 1, 2]⟩,
  ⟨.vml_add, [.obj (.viewDense .vec) .s true, .scal .s, .obj (.viewDense .mat) .s false], .vmlmat_smadd, [0, 1, 2]⟩,
  ⟨.vml_add, [.obj (.viewDense .vec) .s true, .scal .s, .obj (.viewDense .ten) .s false], .vmlmat_smadd, [0, 1, 2]⟩,
  ⟨.vml_add, [.obj (.viewDense .mat) .s true, .scal .s, .obj .dense .s false], .vmlmat_smadd, [0, 1, 2]⟩,
  ⟨.vml_add, [.obj (.viewDense .mat) .s true, .scal .s, .obj (.viewDense .vec) .s false], .vmlmat_smadd, [0, 1, 2]⟩,
  ⟨.vml_add, [.obj (.viewDense .mat) .s true, .scal .s, .obj (.viewDense .mat) .s false], .vmlmat_smadd, [0, 1, 2]⟩,
  ⟨.vml_add, [.obj (.viewDense .mat) .s true, .scal .s, .obj (.viewDense .ten) .s false], .vmlmat_smadd, [0, 1, 2]⟩,
  ⟨.vml_add, [.obj (.viewDense .ten) .s true, .scal .s, .obj .dense .s false], .vmlmat_smadd, [0, 1, 2]⟩,
  ⟨.vml_add, [.obj (.viewDense .ten) .s true, .scal .s, .obj (.viewDense .vec) .s false], .vmlmat_smadd, [0, 1, 2]⟩,
  ⟨.vml_add, [.obj (.viewDense .ten) .s true, .scal .s, .obj (.viewDense .mat) .s false], .vmlmat_smadd, [0, 1, 2]⟩,
  ⟨.vml_add, [.obj (.viewDense .ten) .s true, .scal .s, .obj (.viewDense .ten) .s false], .vmlmat_smadd, [0, 1, 2]⟩,
  ⟨.vml_sub, [.obj .crs .d true, .scal .d, .obj .crs .d false], .vmlmat_smsub, [0, 1, 2]⟩,
  ⟨.vml_sub, [.obj .dense .d true, .scal .d, .obj .dense .d false], .vmlmat_smsub, [0, 1, 2]⟩,
  ⟨.vml_sub, [.obj .dense .d true, .scal .d, .obj (.viewDense .vec) .d false], .vmlmat_smsub, [0, 1, 2]⟩,
  ⟨.vml_sub, [.obj .dense .d true, .scal .d, .obj (.viewDense .mat) .d false], .vmlmat_smsub, [0, 1, 2]⟩,
  ⟨.vml_sub, [.obj .dense .d true, .scal .d, .obj (.viewDense .ten) .d false], .vmlmat_smsub, [0, 1, 2]⟩,
  ⟨.vml_sub, [.obj (.viewDense .vec) .d true, .scal .d, .obj .dense .d false], .vmlmat_smsub, [0, 1, 2]⟩]

/-- src/vml/matrix/matrix_vml.cpp:2700-3022 -/
def tVmlMat_7 : List Overload := [
  ⟨.vml_sub, [.obj (.viewDense .vec) .d true, .scal .d, .obj (.viewDense .vec) .d false], .vmlmat_smsub, [0, 1, 2]⟩,
  ⟨.vml_sub, [.obj (.viewDense .vec) .d true, .scal .d, .obj (.viewDense .mat) .d false], .vmlmat_smsub, [0, 1, 2]⟩,
  ⟨.vml_sub, [.obj (.viewDense .vec) .d true, .scal .d, .obj (.viewDense .ten) .d false], .vmlmat_smsub, [0, 1, 2]⟩,
  ⟨.vml_sub, [.obj (.viewDense .mat) .d true, .scal .d, .obj .dense .d false], .vmlmat_smsub, [0, 1, 2]⟩,
  ⟨.vml_sub, [.obj (.viewDense .mat) .d true, .scal .d, .obj (.viewDense .vec) .d false], .vmlmat_smsub, [0, 1, 2]⟩,
  ⟨.vml_sub, [.obj (.viewDense .mat) .d true, .scal .d, .obj (.viewDense .mat) .d false], .vmlmat_smsub, [0, 1, 2]⟩,
  ⟨.vml_sub, [.obj (.viewDense .mat) .d true, .scal .d, .obj (.viewDense .ten) .d false], .vmlmat_smsub, [0, 1, 2]⟩,
  ⟨.vml_sub, [.obj (.viewDense .ten) .d true, .scal .d, .obj .dense .d false], .vmlmat_smsub, [0, 1, 2]⟩,
  ⟨.vml_sub, [.obj (.viewDense .ten) .d true, .scal .d, .obj (.viewDense .vec) .d false], .vmlmat_smsub, [0, 1, 2]⟩,
  ⟨.vml_sub, [.obj (.viewDense .ten) .d true, .scal .d, .obj (.viewDense .mat) .d false], .vmlmat_smsub, [0, 1, 2]⟩,
  ⟨.vml_sub, [.obj (.viewDense .ten) .d true, .scal .d, .obj (.viewDense .ten) .d false], .vmlmat_smsub, [0, 1, 2]⟩,
  ⟨.vml_sub, [.obj .crs .s true, .scal .s, .obj .crs .s false], .vmlmat_smsub, [0, 1, 2]⟩,
  ⟨.vml_sub, [.obj .dense .s true, .scal .s, .obj .dense .s false], .vmlmat_smsub, [0, 1, 2]⟩,
  ⟨.vml_sub, [.obj .dense .s true, .scal .s, .obj (.viewDense .vec) .s false], .vmlmat_smsub, [0, 1, 2]⟩,
  ⟨.vml_sub, [.obj .dense .s true, .scal .s, .obj (.viewDense .mat) .s false], .vmlmat_smsub, [0, 1, 2]⟩,
  ⟨.vml_sub, [.obj .dense .s true, .scal .s, .obj (.viewDense .ten) .s false], .vmlmat_smsub, [0, 1, 2]⟩,
  ⟨.vml_sub, [.obj (.viewDense .vec) .s true, .scal .s, .obj .dense .s false], .vmlmat_smsub, [0, 1, 2]⟩,
  ⟨.vml_sub, [.obj (.viewDense .vec) .s true, .scal .s, .obj (.viewDense .vec) .s false], .vmlmat_smsub, [0, 1, 2]⟩,
  ⟨.vml_sub, [.obj (.viewDense .vec) .s true, .scal .s, .obj (.viewDense .mat) .s false], .vmlmat_smsub, [0, 1, 2]⟩,
  ⟨.vml_sub, [.obj (.viewDense .vec) .s true, .scal .s, .obj (.viewDense .ten) .s false], .vmlmat_smsub, [0, 1, 2]⟩,
  ⟨.vml_sub, [.obj (.viewDense .mat) .s true, .scal .s, .obj .dense .s false], .vmlmat_smsub, [0, 1, 2]⟩,
  ⟨.vml_sub, [.obj (.viewDense .mat) .s true, .scal .s, .obj (.viewDense .vec) .s false], .vmlmat_smsub, [0, 1, 2]⟩,
  ⟨.vml_sub, [.obj (.viewDense .mat) .s true, .scal .s, .obj (.viewDense .mat) .s false], .vmlmat_smsub, [0, 1, 2]⟩,
  ⟨.vml_sub, [.obj (.viewDense .mat) .s true, .scal .s, .obj (.viewDense .ten) .s false], .vmlmat_smsub, [0, 1, 2]⟩,
  ⟨.vml_sub, [.obj (.viewDense .ten) .s true, .scal .s, .obj .dense .s false], .vmlmat_smsub, [0, 1, 2]⟩,
  ⟨.vml_sub, [.obj (.viewDense .ten) .s true, .scal .s, .obj (.viewDense .vec) .s false], .vmlmat_smsub, [0, 1, 2]⟩,
  ⟨.vml_sub, [.obj (.viewDense .ten) .s true, .scal .s, .obj (.viewDense .mat) .s false], .vmlmat_smsub, [0, 1, 2]⟩,
  ⟨.vml_sub, [.obj (.viewDense .ten) .s true, .scal .s, .obj (.viewDense .ten) .s false], .vmlmat_smsub, [0, 1, 2]⟩,
  ⟨.vml_mul, [.obj .crs .d true, .scal .d, .obj .crs .d false], .vmlmat_smmul, [0, 1, 2]⟩,
  ⟨.vml_mul, [.obj .dense .d true, .scal .d, .obj .dense .d false], .vmlmat_smmul, [0, 1, 2]⟩,
  ⟨.vml_mul, [.obj .dense .d true, .scal .d, .obj (.viewDense .vec) .d false], .vmlmat_smmul, [0, 1, 2]⟩,
  ⟨.vml_mul, [.obj .dense .d true, .scal .d, .obj (.viewDense .mat) .d false], .vmlmat_smmul, [0, 1, 2]⟩,
  ⟨.vml_mul, [.obj .dense .d true, .scal .d, .obj (.viewDense .ten) .d false], .vmlmat_smmul, [0, 1, 2]⟩,
  ⟨.vml_mul, [.obj (.viewDense .vec) .d true, .scal .d, .obj .dense .d false], .vmlmat_smmul, [0, 1, 2]⟩,
  ⟨.vml_mul, [.obj (.viewDense .vec) .d true, .scal .d, .obj (.viewDense .vec) .d false], .vmlmat_smmul, [0, 1, 2]⟩,
  ⟨.vml_mul, [.obj (.viewDense .vec) .d true, .scal .d, .obj (.viewDense .mat) .d false], .vmlmat_smmul, [0, 1, 2]⟩,
  ⟨.vml_mul, [.obj (.viewDense .vec) .d true, .scal .d, .obj (.viewDense .ten) .d false], .vmlmat_smmul, [0, 1, 2]⟩,
  ⟨.vml_mul, [.obj (.viewDense .mat) .d true, .scal .d, .obj .dense .d false], .vmlmat_smmul, [0, 1, 2]⟩,
  ⟨.vml_mul, [.obj (.viewDense .mat) .d true, .scal .d, .obj (.viewDense .vec) .d false], .vmlmat_smmul, [0, 1, 2]⟩,
  ⟨.vml_mul, [.obj (.viewDense .mat) .d true, .scal .d, .obj (.viewDense .mat) .d false], .vmlmat_smmul, [0, 1, 2]⟩,
  ⟨.vml_mul, [.obj (.viewDense .mat) .d true, .scal .d, .obj (.viewDense .ten) .d false], .vmlmat_smmul, [0, 1, 2]⟩,
  ⟨.vml_mul, [.obj (.viewDense .ten) .d true, .scal .d, .obj .dense .d false], .vmlmat_smmul, [0, 1, 2]⟩,
  ⟨.vml_mul, [.obj (.viewDense .ten) .d true, .scal .d, .obj (.viewDense .vec) .d false], .vmlmat_smmul, [0, 1, 2]⟩,
  ⟨.vml_mul, [.obj (.viewDense .ten) .d true, .scal .d, .obj (.viewDense .mat) .d false], .vmlmat_smmul, [0, 1, 2]⟩,
  ⟨.vml_mul, [.obj (.viewDense .ten) .d true, .scal .d, .obj (.viewDense .ten) .d false], .vmlmat_smmul, [0, 1, 2]⟩,
  ⟨.vml_mul, [.obj .crs .s true, .scal .s, .obj .crs .s false], .vmlmat_smmul, [0, 1, 2]⟩,
  ⟨.vml_mul, [.obj .dense .s true, .scal .s, .obj .dense .s false], .vmlmat_smmul, [0, 1, 2]⟩,
  ⟨.vml_mul, [.obj .dense .s true, .scal .s, .obj (.viewDense .vec) .s false], .vmlmat_smmul, [0, 1, 2]⟩,
  ⟨.vml_mul, [.obj .dense .s true, .scal .s, .obj (.viewDense .mat) .s false], .vmlmat_smmul, [0, 1, 2]⟩,
  ⟨.vml_mul, [.obj .dense .s true, .scal .s, .obj (.viewDense .ten) .s false], .vmlmat_smmul, [0, 1, 2]⟩,
  ⟨.vml_mul, [.obj (.viewDense .vec) .s true, .scal .s, .obj .dense .s false], .vmlmat_smmul, [0, 1, 2]⟩,
  ⟨.vml_mul, [.obj (.viewDense .vec) .s true, .scal .s, .obj (.viewDense .vec) .s false], .vmlmat_smmul, [0, 1, 2]⟩,
  ⟨.vml_mul, [.obj (.viewDense .vec) .s true, .scal .s, .obj (.viewDense .mat) .s false], .vmlmat_smmul, [0, 1, 2]⟩,
  ⟨.vml_mul, [.obj (.viewDense .vec) .s true, .scal .s, .obj (.viewDense .ten) .s false], .vmlmat_smmul, [0, 1, 2]⟩,
  ⟨.vml_mul, [.obj (.viewDense .mat) .s true, .scal .s, .obj .dense .s false], .vmlmat_smmul, [0, 1, 2]⟩,
  ⟨.vml_mul, [.obj (.viewDense .mat) .s true, .scal .s, .obj (.viewDense .vec) .s false], .vmlmat_smmul, [0, 1, 2]⟩,
  ⟨.vml_mul, [.obj (.viewDense .mat) .s true, .scal .s, .obj (.viewDense .mat) .s false], .vmlmat_smmul, [0, 1, 2]⟩,
  ⟨.vml_mul, [.obj (.viewDense .mat) .s true, .scal .s, .obj (.viewDense .ten) .s false], .vmlmat_smmul, [0, 1, 2]⟩,
  ⟨.vml_mul, [.obj (.viewDense .ten) .s true, .scal .s, .obj .dense .s false], .vmlmat_smmul, [0, 1, 2]⟩,
  ⟨.vml_mul, [.obj (.viewDense .ten) .s true, .scal .s, .obj (.viewDense .vec) .s false], .vmlmat_smmul, [0, 1, 2]⟩,
  ⟨.vml_mul, [.obj (.viewDense .ten) .s true, .scal .s, .obj (.viewDense .mat) .s false], .vmlmat_smmul, [0, 1, 2]⟩,
  ⟨.vml_mul, [.obj (.viewDense .ten) .s true, .scal .s, .obj (.viewDense .ten) .s false], .vmlmat_smmul, [0, 1, 2]⟩,
  ⟨.vml_div, [.obj .crs .d true, .scal .d, .obj .crs .d false], .vmlmat_smdiv, [0, 1, 2]⟩,
  ⟨.vml_div, [.obj .dense .d true, .scal .d, .obj .dense .d false], .vmlmat_smdiv, [0, 1, 2]⟩,
  ⟨.vml_div, [.obj .dense .d true, .scal .d, .obj (.viewDense .vec) .d false], .vmlmat_smdiv, [0, 1, 2]⟩,
  ⟨.vml_div, [.obj .dense .d true, .scal .d, .obj (.viewDense .mat) .d false], .vmlmat_smdiv, [0, 1, 2]⟩,
  ⟨.vml_div, [.obj .dense .d true, .scal .d, .obj (.viewDense .ten) .d false], .vmlmat_smdiv, [0, 1, 2]⟩,
  ⟨.vml_div, [.obj (.viewDense .vec) .d true, .scal .d, .obj .dense .d false], .vmlmat_smdiv, [0, 1, 2]⟩,
  ⟨.vml_div, [.obj (.viewDense .vec) .d true, .scal .d, .obj (.viewDense .vec) .d false], .vmlmat_smdiv, [0, 1, 2]⟩,
  ⟨.vml_div, [.obj (.viewDense .vec) .d true, .scal .d, .obj (.viewDense .mat) .d false], .vmlmat_smdiv, [0, 1, 2]⟩,
  ⟨.vml_div, [.obj (.viewDense .vec) .d true, .scal .d, .obj (.viewDense .ten) .d false], .vmlmat_smdiv, [0, 1, 2]⟩,
  ⟨.vml_div, [.obj (.viewDense .mat) .d true, .scal .d, .obj .dense .d false], .vmlmat_smdiv, [0, 1, 2]⟩,
  ⟨.vml_div, [.obj (.viewDense .mat) .d true, .scal .d, .obj (.viewDense .vec) .d false], .vmlmat_smdiv, [0, 1, 2]⟩,
  ⟨.vml_div, [.obj (.viewDense .mat) .d true, .scal .d, .obj (.viewDense .mat) .d false], .vmlmat_smdiv, [0, 1, 2]⟩,
  ⟨.vml_div, [.obj (.viewDense .mat) .d true, .scal .d, .obj (.viewDense .ten) .d false], .vmlmat_smdiv, [0, 1, 2]⟩,
  ⟨.vml_div, [.obj (.viewDense .ten) .d true, .scal .d, .obj .dense .d false], .vmlmat_smdiv, [0, 1, 2]⟩,
  ⟨.vml_div, [.obj (.viewDense .ten) .d true, .scal .d, .obj (.viewDense .vec) .d false], .vmlmat_smdiv, [0, 1, 2]⟩,
  ⟨.vml_div, [.obj (.viewDense .ten) .d true, .scal .d, .obj (.viewDense .mat) .d false], .vmlmat_smdiv, [0, 1, 2]⟩,
  ⟨.vml_div, [.obj (.viewDense .ten) .d true, .scal .d, .obj (.viewDense .ten) .d false], .vmlmat_smdiv, [0, 1, 2]⟩,
  ⟨.vml_div, [.obj .crs .s true, .scal .s, .obj .crs .s false], .vmlmat_smdiv, [0, 1, 2]⟩]

/-- src/vml/matrix/matrix_vml.cpp:3023-3399 -/
def tVmlMat_8 : List Overload := [
  ⟨.vml_div, [.obj .dense .s true, .scal .s, .obj .dense .s false], .vmlmat_smdiv, [0, 1, 2]⟩,
  ⟨.vml_div, [.obj .dense .s true, .scal .s, .obj (.viewDense .vec) .s false], .vmlmat_smdiv, [0, 1, 2]⟩,
  ⟨.vml_div, [.obj .dense .s true, .scal .s, .obj (.viewDense .mat) .s false], .vmlmat_smdiv, [0, 1, 2]⟩,
  ⟨.vml_div, [.obj .dense .s true, .scal .s, .obj (.viewDense .ten) .s false], .vmlmat_smdiv, [0, 1, 2]⟩,
  ⟨.vml_div, [.obj (.viewDense .vec) .s true, .scal .s, .obj .dense .s false], .vmlmat_smdiv, [0, 1, 2]⟩,
  ⟨.vml_div, [.obj (.viewDense .vec) .s true, .scal .s, .obj (.viewDense .vec) .s false], .vmlmat_smdiv, [0, 1, 2]⟩,
  ⟨.vml_div, [.obj (.viewDense .vec) .s true, .scal .s, .obj (.viewDense .mat) .s false], .vmlmat_smdiv, [0, 1, 2]⟩,
  ⟨.vml_div, [.obj (.viewDense .vec) .s true, .scal .s, .obj (.viewDense .ten) .s false], .vmlmat_smdiv, [0, 1, 2]⟩,
  ⟨.vml_div, [.obj (.viewDense .mat) .s true, .scal .s, .obj .dense .s false], .vmlmat_smdiv, [0, 1, 2]⟩,
  ⟨.vml_div, [.obj (.viewDense .mat) .s true, .scal .s, .obj (.viewDense .vec) .s false], .vmlmat_smdiv, [0, 1, 2]⟩,
  ⟨.vml_div, [.obj (.viewDense .mat) .s true, .scal .s, .obj (.viewDense .mat) .s false], .vmlmat_smdiv, [0, 1, 2]⟩,
  ⟨.vml_div, [.obj (.viewDense .mat) .s true, .scal .s, .obj (.viewDense .ten) .s false], .vmlmat_smdiv, [0, 1, 2]⟩,
  ⟨.vml_div, [.obj (.viewDense .ten) .s true, .scal .s, .obj .dense .s false], .vmlmat_smdiv, [0, 1, 2]⟩,
  ⟨.vml_div, [.obj (.viewDense .ten) .s true, .scal .s, .obj (.viewDense .vec) .s false], .vmlmat_smdiv, [0, 1, 2]⟩,
  ⟨.vml_div, [.obj (.viewDense .ten) .s true, .scal .s, .obj (.viewDense .mat) .s false], .vmlmat_smdiv, [0, 1, 2]⟩,
  ⟨.vml_div, [.obj (.viewDense .ten) .s true, .scal .s, .obj (.viewDense .ten) .s false], .vmlmat_smdiv, [0, 1, 2]⟩,
  ⟨.vml_pow, [.obj .crs .d true, .obj .crs .d true, .obj .crs .d false], .vmlmat_mmpow, [0, 1, 2]⟩,
  ⟨.vml_pow, [.obj .dense .d true, .obj .dense .d true, .obj .dense .d false], .vmlmat_mmpow, [0, 1, 2]⟩,
  ⟨.vml_pow, [.obj .dense .d true, .obj .dense .d true, .obj (.viewDense .vec) .d false], .vmlmat_mmpow, [0, 1, 2]⟩,
  ⟨.vml_pow, [.obj .dense .d true, .obj .dense .d true, .obj (.viewDense .mat) .d false], .vmlmat_mmpow, [0, 1, 2]⟩,
  ⟨.vml_pow, [.obj .dense .d true, .obj .dense .d true, .obj (.viewDense .ten) .d false], .vmlmat_mmpow, [0, 1, 2]⟩,
  ⟨.vml_pow, [.obj .dense .d true, .obj (.viewDense .vec) .d true, .obj .dense .d false], .vmlmat_mmpow, [0, 1, 2]⟩,
  ⟨.vml_pow, [.obj .dense .d true, .obj (.viewDense .vec) .d true, .obj (.viewDense .vec) .d false], .vmlmat_mmpow, [0, 1, 2]⟩,
  ⟨.vml_pow, [.obj .dense .d true, .obj (.viewDense .vec) .d true, .obj (.viewDense .mat) .d false], .vmlmat_mmpow, [0, 1, 2]⟩,
  ⟨.vml_pow, [.obj .dense .d true, .obj (.viewDense .vec) .d true, .obj (.viewDense .ten) .d false], .vmlmat_mmpow, [0, 1, 2]⟩,
  ⟨.vml_pow, [.obj .dense .d true, .obj (.viewDense .mat) .d true, .obj .dense .d false], .vmlmat_mmpow, [0, 1, 2]⟩,
  ⟨.vml_pow, [.obj .dense .d true, .obj (.viewDense .mat) .d true, .obj (.viewDense .vec) .d false], .vmlmat_mmpow, [0, 1, 2]⟩,
  ⟨.vml_pow, [.obj .dense .d true, .obj (.viewDense .mat) .d true, .obj (.viewDense .mat) .d false], .vmlmat_mmpow, [0, 1, 2]⟩,
  ⟨.vml_pow, [.obj .dense .d true, .obj (.viewDense .mat) .d true, .obj (.viewDense .ten) .d false], .vmlmat_mmpow, [0, 1, 2]⟩,
  ⟨.vml_pow, [.obj .dense .d true, .obj (.viewDense .ten) .d true, .obj .dense .d false], .vmlmat_mmpow, [0, 1, 2]⟩,
  ⟨.vml_pow, [.obj .dense .d true, .obj (.viewDense .ten) .d true, .obj (.viewDense .vec) .d false], .vmlmat_mmpow, [0, 1, 2]⟩,
  ⟨.vml_pow, [.obj .dense .d true, .obj (.viewDense .ten) .d true, .obj (.viewDense .mat) .d false], .vmlmat_mmpow, [0, 1, 2]⟩,
  ⟨.vml_pow, [.obj .dense .d true, .obj (.viewDense .ten) .d true, .obj (.viewDense .ten) .d false], .vmlmat_mmpow, [0, 1, 2]⟩,
  ⟨.vml_pow, [.obj (.viewDense .vec) .d true, .obj .dense .d true, .obj .dense .d false], .vmlmat_mmpow, [0, 1, 2]⟩,
  ⟨.vml_pow, [.obj (.viewDense .vec) .d true, .obj .dense .d true, .obj (.viewDense .vec) .d false], .vmlmat_mmpow, [0, 1, 2]⟩,
  ⟨.vml_pow, [.obj (.viewDense .vec) .d true, .obj .dense .d true, .obj (.viewDense .mat) .d false], .vmlmat_mmpow, [0, 1, 2]⟩,
  ⟨.vml_pow, [.obj (.viewDense .vec) .d true, .obj .dense .d true, .obj (.viewDense .ten) .d false], .vmlmat_mmpow, [0, 1, 2]⟩,
  ⟨.vml_pow, [.obj (.viewDense .vec) .d true, .obj (.viewDense .vec) .d true, .obj .dense .d false], .vmlmat_mmpow, [0, 1, 2]⟩,
  ⟨.vml_pow, [.obj (.viewDense .vec) .d true, .obj (.viewDense .vec) .d true, .obj (.viewDense .vec) .d false], .vmlmat_mmpow, [0, 1, 2]⟩,
  ⟨.vml_pow, [.obj (.viewDense .vec) .d true, .obj (.viewDense .vec) .d true, .obj (.viewDense .mat) .d false], .vmlmat_mmpow, [0, 1, 2]⟩,
  ⟨.vml_pow, [.obj (.viewDense .vec) .d true, .obj (.viewDense .vec) .d true, .obj (.viewDense .ten) .d false], .vmlmat_mmpow, [0, 1, 2]⟩,
  ⟨.vml_pow, [.obj (.viewDense .vec) .d true, .obj (.viewDense .mat) .d true, .obj .dense .d false], .vmlmat_mmpow, [0, 1, 2]⟩,
  ⟨.vml_pow, [.obj (.viewDense .vec) .d true, .obj (.viewDense .mat) .d true, .obj (.viewDense .vec) .d false], .vmlmat_mmpow, [0, 1, 2]⟩,
  ⟨.vml_pow, [.obj (.viewDense .vec) .d true, .obj (.viewDense .mat) .d true, .obj (.viewDense .mat) .d false], .vmlmat_mmpow, [0, 1, 2]⟩,
  ⟨.vml_pow, [.obj (.viewDense .vec) .d true, .obj (.viewDense .mat) .d true, .obj (.viewDense .ten) .d false], .vmlmat_mmpow, [0, 1, 2]⟩,
  ⟨.vml_pow, [.obj (.viewDense .vec) .d true, .obj (.viewDense .ten) .d true, .obj .dense .d false], .vmlmat_mmpow, [0, 1, 2]⟩,
  ⟨.vml_pow, [.obj (.viewDense .vec) .d true, .obj (.viewDense .ten) .d true, .obj (.viewDense .vec) .d false], .vmlmat_mmpow, [0, 1, 2]⟩,
  ⟨.vml_pow, [.obj (.viewDense .vec) .d true, .obj (.viewDense .ten) .d true, .obj (.viewDense .mat) .d false], .vmlmat_mmpow, [0, 1, 2]⟩,
  ⟨.vml_pow, [.obj (.viewDense .vec) .d true, .obj (.viewDense .ten) .d true, .obj (.viewDense .ten) .d false], .vmlmat_mmpow, [0, 1, 2]⟩,
  ⟨.vml_pow, [.obj (.viewDense .mat) .d true, .obj .dense .d true, .obj .dense .d false], .vmlmat_mmpow, [0, 1, 2]⟩,
  ⟨.vml_pow, [.obj (.viewDense .mat) .d true, .obj .dense .d true, .obj (.viewDense .vec) .d false], .vmlmat_mmpow, [0, 1, 2]⟩,
  ⟨.vml_pow, [.obj (.viewDense .mat) .d true, .obj .dense .d true, .obj (.viewDense .mat) .d false], .vmlmat_mmpow, [0, 1, 2]⟩,
  ⟨.vml_pow, [.obj (.viewDense .mat) .d true, .obj .dense .d true, .obj (.viewDense .ten) .d false], .vmlmat_mmpow, [0, 1, 2]⟩,
  ⟨.vml_pow, [.obj (.viewDense .mat) .d true, .obj (.viewDense .vec) .d true, .obj .dense .d false], .vmlmat_mmpow, [0, 1, 2]⟩,
  ⟨.vml_pow, [.obj (.viewDense .mat) .d true, .obj (.viewDense .vec) .d true, .obj (.viewDense .vec) .d false], .vmlmat_mmpow, [0, 1, 2]⟩,
  ⟨.vml_pow, [.obj (.viewDense .mat) .d true, .obj (.viewDense .vec) .d true, .obj (.viewDense .mat) .d false], .vmlmat_mmpow, [0, 1, 2]⟩,
  ⟨.vml_pow, [.obj (.viewDense .mat) .d true, .obj (.viewDense .vec) .d true, .obj (.viewDense .ten) .d false], .vmlmat_mmpow, [0, 1, 2]⟩,
  ⟨.vml_pow, [.obj (.viewDense .mat) .d true, .obj (.viewDense .mat) .d true, .obj .dense .d false], .vmlmat_mmpow, [0, 1, 2]⟩,
  ⟨.vml_pow, [.obj (.viewDense .mat) .d true, .obj (.viewDense .mat) .d true, .obj (.viewDense .vec) .d false], .vmlmat_mmpow, [0, 1, 2]⟩,
  ⟨.vml_pow, [.obj (.viewDense .mat) .d true, .obj (.viewDense .mat) .d true, .obj (.viewDense .mat) .d false], .vmlmat_mmpow, [0, 1, 2]⟩,
  ⟨.vml_pow, [.obj (.viewDense .mat) .d true, .obj (.viewDense .mat) .d true, .obj (.viewDense .ten) .d false], .vmlmat_mmpow, [0, 1, 2]⟩,
  ⟨.vml_pow, [.obj (.viewDense .mat) .d true, .obj (.viewDense .ten) .d true, .obj .dense .d false], .vmlmat_mmpow, [0, 1, 2]⟩,
  ⟨.vml_pow, [.obj (.viewDense .mat) .d true, .obj (.viewDense .ten) .d true, .obj (.viewDense .vec) .d false], .vmlmat_mmpow, [0, 1, 2]⟩,
  ⟨.vml_pow, [.obj (.viewDense .mat) .d true, .obj (.viewDense .ten) .d true, .obj (.viewDense .mat) .d false], .vmlmat_mmpow, [0, 1, 2]⟩,
  ⟨.vml_pow, [.obj (.viewDense .mat) .d true, .obj (.viewDense .ten) .d true, .obj (.viewDense .ten) .d false], .vmlmat_mmpow, [0, 1, 2]⟩,
  ⟨.vml_pow, [.obj (.viewDense .ten) .d true, .obj .dense .d true, .obj .dense .d false], .vmlmat_mmpow, [0, 1, 2]⟩,
  ⟨.vml_pow, [.obj (.viewDense .ten) .d true, .obj .dense .d true, .obj (.viewDense .vec) .d false], .vmlmat_mmpow, [0, 1, 2]⟩,
  ⟨.vml_pow, [.obj (.viewDense .ten) .d true, .obj .dense .d true, .obj (.viewDense .mat) .d false], .vmlmat_mmpow, [0, 1, 2]⟩,
  ⟨.vml_pow, [.obj (.viewDense .ten) .d true, .obj .dense .d true, .obj (.viewDense .ten) .d false], .vmlmat_mmpow, [0, 1, 2]⟩,
  ⟨.vml_pow, [.obj (.viewDense .ten) .d true, .obj (.viewDense .vec) .d true, .obj .dense .d false], .vmlmat_mmpow, [0, 1, 2]⟩,
  ⟨.vml_pow, [.obj (.viewDense .ten) .d true, .obj (.viewDense .vec) .d true, .obj (.viewDense .vec) .d false], .vmlmat_mmpow, [0, 1, 2]⟩,
  ⟨.vml_pow, [.obj (.viewDense .ten) .d true, .obj (.viewDense .vec) .d true, .obj (.viewDense .mat) .d false], .vmlmat_mmpow, [0, 1, 2]⟩,
  ⟨.vml_pow, [.obj (.viewDense .ten) .d true, .obj (.viewDense .vec) .d true, .obj (.viewDense .ten) .d false], .vmlmat_mmpow, [0, 1, 2]⟩,
  ⟨.vml_pow, [.obj (.viewDense .ten) .d true, .obj (.viewDense .mat) .d true, .obj .dense .d false], .vmlmat_mmpow, [0, 1, 2]⟩,
  ⟨.vml_pow, [.obj (.viewDense .ten) .d true, .obj (.viewDense .mat) .d true, .obj (.viewDense .vec) .d false], .vmlmat_mmpow, [0, 1, 2]⟩,
  ⟨.vml_pow, [.obj (.viewDense .ten) .d true, .obj (.viewDense .mat) .d true, .obj (.viewDense .mat) .d false], .vmlmat_mmpow, [0, 1, 2]⟩,
  ⟨.vml_pow, [.obj (.viewDense .ten) .d true, .obj (.viewDense .mat) .d true, .obj (.viewDense .ten) .d false], .vmlmat_mmpow, [0, 1, 2]⟩,
  ⟨.vml_pow, [.obj (.viewDense .ten) .d true, .obj (.viewDense .ten) .d true, .obj .dense .d false], .vmlmat_mmpow, [0, 1, 2]⟩,
  ⟨.vml_pow, [.obj (.viewDense .ten) .d true, .obj (.viewDense .ten) .d true, .obj (.viewDense .vec) .d false], .vmlmat_mmpow, [0, 1, 2]⟩,
  ⟨.vml_pow, [.obj (.viewDense .ten) .d true, .obj (.viewDense .ten) .d true, .obj (.viewDense .mat) .d false], .vmlmat_mmpow, [0, 1, 2]⟩]

/-- src/vml/matrix/matrix_vml.cpp:3400-3770 -/
def tVmlMat_9 : List Overload := [
  ⟨.vml_pow, [.obj (.viewDense .ten) .d true, .obj (.viewDense .ten) .d true, .obj (.viewDense .ten) .d false], .vmlmat_mmpow, [0, 1, 2]⟩,
  ⟨.vml_pow, [.obj .crs .s true, .obj .crs .s true, .obj .crs .s false], .vmlmat_mmpow, [0, 1, 2]⟩,
  ⟨.vml_pow, [.obj .dense .s true, .obj .dense .s true, .obj .dense .s false], .vmlmat_mmpow, [0, 1, 2]⟩,
  ⟨.vml_pow, [.obj .dense .s true, .obj .dense .s true, .obj (.viewDense .vec) .s false], .vmlmat_mmpow, [0, 1, 2]⟩,
  ⟨.vml_pow, [.obj .dense .s true, .obj .dense .s true, .obj (.viewDense .mat) .s false], .vmlmat_mmpow, [0, 1, 2]⟩,
  ⟨.vml_pow, [.obj .dense .s true, .obj .dense .s true, .obj (.viewDense .ten) .s false], .vmlmat_mmpow, [0, 1, 2]⟩,
  ⟨.vml_pow, [.obj .dense .s true, .obj (.viewDense .vec) .s true, .obj .dense .s false], .vmlmat_mmpow, [0, 1, 2]⟩,
  ⟨.vml_pow, [.obj .dense .s true, .obj (.viewDense .vec) .s true, .obj (.viewDense .vec) .s false], .vmlmat_mmpow, [0, 1, 2]⟩,
  ⟨.vml_pow, [.obj .dense .s true, .obj (.viewDense .vec) .s true, .obj (.viewDense .mat) .s false], .vmlmat_mmpow, [0, 1, 2]⟩,
  ⟨.vml_pow, [.obj .dense .s true, .obj (.viewDense .vec) .s true, .obj (.viewDense .ten) .s false], .vmlmat_mmpow, [0, 1, 2]⟩,
  ⟨.vml_pow, [.obj .dense .s true, .obj (.viewDense .mat) .s true, .obj .dense .s false], .vmlmat_mmpow, [0, 1, 2]⟩,
  ⟨.vml_pow, [.obj .dense .s true, .obj (.viewDense .mat) .s true, .obj (.viewDense .vec) .s false], .vmlmat_mmpow, [0, 1, 2]⟩,
  ⟨.vml_pow, [.obj .dense .s true, .obj (.viewDense .mat) .s true, .obj (.viewDense .mat) .s false], .vmlmat_mmpow, [0, 1, 2]⟩,
  ⟨.vml_pow, [.obj .dense .s true, .obj (.viewDense .mat) .s true, .obj (.viewDense .ten) .s false], .vmlmat_mmpow, [0, 1, 2]⟩,
  ⟨.vml_pow, [.obj .dense .s true, .obj (.viewDense .ten) .s true, .obj .dense .s false], .vmlmat_mmpow, [0, 1, 2]⟩,
  ⟨.vml_pow, [.obj .dense .s true, .obj (.viewDense .ten) .s true, .obj (.viewDense .vec) .s false], .vmlmat_mmpow, [0, 1, 2]⟩,
  ⟨.vml_pow, [.obj .dense .s true, .obj (.viewDense .ten) .s true, .obj (.viewDense .mat) .s false], .vmlmat_mmpow, [0, 1, 2]⟩,
  ⟨.vml_pow, [.obj .dense .s true, .obj (.viewDense .ten) .s true, .obj (.viewDense .ten) .s false], .vmlmat_mmpow, [0, 1, 2]⟩,
  ⟨.vml_pow, [.obj (.viewDense .vec) .s true, .obj .dense .s true, .obj .dense .s false], .vmlmat_mmpow, [0, 1, 2]⟩,
  ⟨.vml_pow, [.obj (.viewDense .vec) .s true, .obj .dense .s true, .obj (.viewDense .vec) .s false], .vmlmat_mmpow, [0, 1, 2]⟩,
  ⟨.vml_pow, [.obj (.viewDense .vec) .s true, .obj .dense .s true, .obj (.viewDense .mat) .s false], .vmlmat_mmpow, [0, 1, 2]⟩,
  ⟨.vml_pow, [.obj (.viewDense .vec) .s true, .obj .dense .s true, .obj (.viewDense .ten) .s false], .vmlmat_mmpow, [0, 1, 2]⟩,
  ⟨.vml_pow, [.obj (.viewDense .vec) .s true, .obj (.viewDense .vec) .s true, .obj .dense .s false], .vmlmat_mmpow, [0, 1, 2]⟩,
  ⟨.vml_pow, [.obj (.viewDense .vec) .s true, .obj (.viewDense .vec) .s true, .obj (.viewDense .vec) .s false], .vmlmat_mmpow, [0, 1, 2]⟩,
  ⟨.vml_pow, [.obj (.viewDense .vec) .s true, .obj (.viewDense .vec) .s true, .obj (.viewDense .mat) .s false], .vmlmat_mmpow, [0, 1, 2]⟩,
  ⟨.vml_pow, [.obj (.viewDense .vec) .s true, .obj (.viewDense .vec) .s true, .obj (.viewDense .ten) .s false], .vmlmat_mmpow, [0, 1, 2]⟩,
  ⟨.vml_pow, [.obj (.viewDense .vec) .s true, .obj (.viewDense .mat) .s true, .obj .dense .s false], .vmlmat_mmpow, [0, 1, 2]⟩,
  ⟨.vml_pow, [.obj (.viewDense .vec) .s true, .obj (.viewDense .mat) .s true, .obj (.viewDense .vec) .s false], .vmlmat_mmpow, [0, 1, 2]⟩,
  ⟨.vml_pow, [.obj (.viewDense .vec) .s true, .obj (.viewDense .mat) .s true, .obj (.viewDense .mat) .s false], .vmlmat_mmpow, [0, 1, 2]⟩,
  ⟨.vml_pow, [.obj (.viewDense .vec) .s true, .obj (.viewDense .mat) .s true, .obj (.viewDense .ten) .s false], .vmlmat_mmpow, [0, 1, 2]⟩,
  ⟨.vml_pow, [.obj (.viewDense .vec) .s true, .obj (.viewDense .ten) .s true, .obj .dense .s false], .vmlmat_mmpow, [0, 1, 2]⟩,
  ⟨.vml_pow, [.obj (.viewDense .vec) .s true, .obj (.viewDense .ten) .s true, .obj (.viewDense .vec) .s false], .vmlmat_mmpow, [0, 1, 2]⟩,
  ⟨.vml_pow, [.obj (.viewDense .vec) .s true, .obj (.viewDense .ten) .s true, .obj (.viewDense .mat) .s false], .vmlmat_mmpow, [0, 1, 2]⟩,
  ⟨.vml_pow, [.obj (.viewDense .vec) .s true, .obj (.viewDense .ten) .s true, .obj (.viewDense .ten) .s false], .vmlmat_mmpow, [0, 1, 2]⟩,
  ⟨.vml_pow, [.obj (.viewDense .mat) .s true, .obj .dense .s true, .obj .dense .s false], .vmlmat_mmpow, [0, 1, 2]⟩,
  ⟨.vml_pow, [.obj (.viewDense .mat) .s true, .obj .dense .s true, .obj (.viewDense .vec) .s false], .vmlmat_mmpow, [0, 1, 2]⟩,
  ⟨.vml_pow, [.obj (.viewDense .mat) .s true, .obj .dense .s true, .obj (.viewDense .mat) .s false], .vmlmat_mmpow, [0, 1, 2]⟩,
  ⟨.vml_pow, [.obj (.viewDense .mat) .s true, .obj .dense .s true, .obj (.viewDense .ten) .s false], .vmlmat_mmpow, [0, 1, 2]⟩,
  ⟨.vml_pow, [.obj (.viewDense .mat) .s true, .obj (.viewDense .vec) .s true, .obj .dense .s false], .vmlmat_mmpow, [0, 1, 2]⟩,
  ⟨.vml_pow, [.obj (.viewDense .mat) .s true, .obj (.viewDense .vec) .s true, .obj (.viewDense .vec) .s false], .vmlmat_mmpow, [0, 1, 2]⟩,
  ⟨.vml_pow, [.obj (.viewDense .mat) .s true, .obj (.viewDense .vec) .s true, .obj (.viewDense .mat) .s false], .vmlmat_mmpow, [0, 1, 2]⟩,
  ⟨.vml_pow, [.obj (.viewDense .mat) .s true, .obj (.viewDense .vec) .s true, .obj (.viewDense .ten) .s false], .vmlmat_mmpow, [0, 1, 2]⟩,
  ⟨.vml_pow, [.obj (.viewDense .mat) .s true, .obj (.viewDense .mat) .s true, .obj .dense .s false], .vmlmat_mmpow, [0, 1, 2]⟩,
  ⟨.vml_pow, [.obj (.viewDense .mat) .s true, .obj (.viewDense .mat) .s true, .obj (.viewDense .vec) .s false], .vmlmat_mmpow, [0, 1, 2]⟩,
  ⟨.vml_pow, [.obj (.viewDense .mat) .s true, .obj (.viewDense .mat) .s true, .obj (.viewDense .mat) .s false], .vmlmat_mmpow, [0, 1, 2]⟩,
  ⟨.vml_pow, [.obj (.viewDense .mat) .s true, .obj (.viewDense .mat) .s true, .obj (.viewDense .ten) .s false], .vmlmat_mmpow, [0, 1, 2]⟩,
  ⟨.vml_pow, [.obj (.viewDense .mat) .s true, .obj (.viewDense .ten) .s true, .obj .dense .s false], .vmlmat_mmpow, [0, 1, 2]⟩,
  ⟨.vml_pow, [.obj (.viewDense .mat) .s true, .obj (.viewDense .ten) .s true, .obj (.viewDense .vec) .s false], .vmlmat_mmpow, [0, 1, 2]⟩,
  ⟨.vml_pow, [.obj (.viewDense .mat) .s true, .obj (.viewDense .ten) .s true, .obj (.viewDense .mat) .s false], .vmlmat_mmpow, [0, 1, 2]⟩,
  ⟨.vml_pow, [.obj (.viewDense .mat) .s true, .obj (.viewDense .ten) .s true, .obj (.viewDense .ten) .s false], .vmlmat_mmpow, [0, 1, 2]⟩,
  ⟨.vml_pow, [.obj (.viewDense .ten) .s true, .obj .dense .s true, .obj .dense .s false], .vmlmat_mmpow, [0, 1, 2]⟩,
  ⟨.vml_pow, [.obj (.viewDense .ten) .s true, .obj .dense .s true, .obj (.viewDense .vec) .s false], .vmlmat_mmpow, [0, 1, 2]⟩,
  ⟨.vml_pow, [.obj (.viewDense .ten) .s true, .obj .dense .s true, .obj (.viewDense .mat) .s false], .vmlmat_mmpow, [0, 1, 2]⟩,
  ⟨.vml_pow, [.obj (.viewDense .ten) .s true, .obj .dense .s true, .obj (.viewDense .ten) .s false], .vmlmat_mmpow, [0, 1, 2]⟩,
  ⟨.vml_pow, [.obj (.viewDense .ten) .s true, .obj (.viewDense .vec) .s true, .obj .dense .s false], .vmlmat_mmpow, [0, 1, 2]⟩,
  ⟨.vml_pow, [.obj (.viewDense .ten) .s true, .obj (.viewDense .vec) .s true, .obj (.viewDense .vec) .s false], .vmlmat_mmpow, [0, 1, 2]⟩,
  ⟨.vml_pow, [.obj (.viewDense .ten) .s true, .obj (.viewDense .vec) .s true, .obj (.viewDense .mat) .s false], .vmlmat_mmpow, [0, 1, 2]⟩,
  ⟨.vml_pow, [.obj (.viewDense .ten) .s true, .obj (.viewDense .vec) .s true, .obj (.viewDense .ten) .s false], .vmlmat_mmpow, [0, 1, 2]⟩,
  ⟨.vml_pow, [.obj (.viewDense .ten) .s true, .obj (.viewDense .mat) .s true, .obj .dense .s false], .vmlmat_mmpow, [0, 1, 2]⟩,
  ⟨.vml_pow, [.obj (.viewDense .ten) .s true, .obj (.viewDense .mat) .s true, .obj (.viewDense .vec) .s false], .vmlmat_mmpow, [0, 1, 2]⟩,
  ⟨.vml_pow, [.obj (.viewDense .ten) .s true, .obj (.viewDense .mat) .s true, .obj (.viewDense .mat) .s false], .vmlmat_mmpow, [0, 1, 2]⟩,
  ⟨.vml_pow, [.obj (.viewDense .ten) .s true, .obj (.viewDense .mat) .s true, .obj (.viewDense .ten) .s false], .vmlmat_mmpow, [0, 1, 2]⟩,
  ⟨.vml_pow, [.obj (.viewDense .ten) .s true, .obj (.viewDense .ten) .s true, .obj .dense .s false], .vmlmat_mmpow, [0, 1, 2]⟩,
  ⟨.vml_pow, [.obj (.viewDense .ten) .s true, .obj (.viewDense .ten) .s true, .obj (.viewDense .vec) .s false], .vmlmat_mmpow, [0, 1, 2]⟩,
  ⟨.vml_pow, [.obj (.viewDense .ten) .s true, .obj (.viewDense .ten) .s true, .obj (.viewDense .mat) .s false], .vmlmat_mmpow, [0, 1, 2]⟩,
  ⟨.vml_pow, [.obj (.viewDense .ten) .s true, .obj (.viewDense .ten) .s true, .obj (.viewDense .ten) .s false], .vmlmat_mmpow, [0, 1, 2]⟩,
  ⟨.vml_pow, [.obj .crs .d true, .scal .d, .obj .crs .d false], .vmlmat_smpow, [0, 1, 2]⟩,
  ⟨.vml_pow, [.obj .dense .d true, .scal .d, .obj .dense .d false], .vmlmat_smpow, [0, 1, 2]⟩,
  ⟨.vml_pow, [.obj .dense .d true, .scal .d, .obj (.viewDense .vec) .d false], .vmlmat_smpow, [0, 1, 2]⟩,
  ⟨.vml_pow, [.obj .dense .d true, .scal .d, .obj (.viewDense .mat) .d false], .vmlmat_smpow, [0, 1, 2]⟩,
  ⟨.vml_pow, [.obj .dense .d true, .scal .d, .obj (.viewDense .ten) .d false], .vmlmat_smpow, [0, 1, 2]⟩,
  ⟨.vml_pow, [.obj (.viewDense .vec) .d true, .scal .d, .obj .dense .d false], .vmlmat_smpow, [0, 1, 2]⟩,
  ⟨.vml_pow, [.obj (.viewDense .vec) .d true, .scal .d, .obj (.viewDense .vec) .d false], .vmlmat_smpow, [0, 1, 2]⟩,
  ⟨.vml_pow, [.obj (.viewDense .vec) .d true, .scal .d, .obj (.viewDense .mat) .d false], .vmlmat_smpow, [0, 1, 2]⟩,
  ⟨.vml_pow, [.obj (.viewDense .vec) .d true, .scal .d, .obj (.viewDense .ten) .d false], .vmlmat_smpow, [0, 1, 2]⟩,
  ⟨.vml_pow, [.obj (.viewDense .mat) .d true, .scal .d, .obj .dense .d false], .vmlmat_smpow, [0, 1, 2]⟩,
  ⟨.vml_pow, [.obj (.viewDense .mat) .d true, .scal .d, .obj (.viewDense .vec) .d false], .vmlmat_smpow, [0, 1, 2]⟩,
  ⟨.vml_pow, [.obj (.viewDense .mat) .d true, .scal .d, .obj (.viewDense .mat) .d false], .vmlmat_smpow, [0, 1, 2]⟩,
  ⟨.vml_pow, [.obj (.viewDense .mat) .d true, .scal .d, .obj (.viewDense .ten) .d false], .vmlmat_smpow, [0, 1, 2]⟩,
  ⟨.vml_pow, [.obj (.viewDense .ten) .d true, .scal .d, .obj .dense .d false], .vmlmat_smpow, [0, 1, 2]⟩]

/-- src/vml/matrix/matrix_vml.cpp:3771-4095 -/
def tVmlMat_10 : List Overload := [
  ⟨.vml_pow, [.obj (.viewDense .ten) .d true, .scal .d, .obj (.viewDense .vec) .d false], .vmlmat_smpow, [0, 1, 2]⟩,
  ⟨.vml_pow, [.obj (.viewDense .ten) .d true, .scal .d, .obj (.viewDense .mat) .d false], .vmlmat_smpow, [0, 1, 2]⟩,
  ⟨.vml_pow, [.obj (.viewDense .ten) .d true, .scal .d, .obj (.viewDense .ten) .d false], .vmlmat_smpow, [0, 1, 2]⟩,
  ⟨.vml_pow, [.obj .crs .s true, .scal .s, .obj .crs .s false], .vmlmat_smpow, [0, 1, 2]⟩,
  ⟨.vml_pow, [.obj .dense .s true, .scal .s, .obj .dense .s false], .vmlmat_smpow, [0, 1, 2]⟩,
  ⟨.vml_pow, [.obj .dense .s true, .scal .s, .obj (.viewDense .vec) .s false], .vmlmat_smpow, [0, 1, 2]⟩,
  ⟨.vml_pow, [.obj .dense .s true, .scal .s, .obj (.viewDense .mat) .s false], .vmlmat_smpow, [0, 1, 2]⟩,
  ⟨.vml_pow, [.obj .dense .s true, .scal .s, .obj (.viewDense .ten) .s false], .vmlmat_smpow, [0, 1, 2]⟩,
  ⟨.vml_pow, [.obj (.viewDense .vec) .s true, .scal .s, .obj .dense .s false], .vmlmat_smpow, [0, 1, 2]⟩,
  ⟨.vml_pow, [.obj (.viewDense .vec) .s true, .scal .s, .obj (.viewDense .vec) .s false], .vmlmat_smpow, [0, 1, 2]⟩,
  ⟨.vml_pow, [.obj (.viewDense .vec) .s true, .scal .s, .obj (.viewDense .mat) .s false], .vmlmat_smpow, [0, 1, 2]⟩,
  ⟨.vml_pow, [.obj (.viewDense .vec) .s true, .scal .s, .obj (.viewDense .ten) .s false], .vmlmat_smpow, [0, 1, 2]⟩,
  ⟨.vml_pow, [.obj (.viewDense .mat) .s true, .scal .s, .obj .dense .s false], .vmlmat_smpow, [0, 1, 2]⟩,
  ⟨.vml_pow, [.obj (.viewDense .mat) .s true, .scal .s, .obj (.viewDense .vec) .s false], .vmlmat_smpow, [0, 1, 2]⟩,
  ⟨.vml_pow, [.obj (.viewDense .mat) .s true, .scal .s, .obj (.viewDense .mat) .s false], .vmlmat_smpow, [0, 1, 2]⟩,
  ⟨.vml_pow, [.obj (.viewDense .mat) .s true, .scal .s, .obj (.viewDense .ten) .s false], .vmlmat_smpow, [0, 1, 2]⟩,
  ⟨.vml_pow, [.obj (.viewDense .ten) .s true, .scal .s, .obj .dense .s false], .vmlmat_smpow, [0, 1, 2]⟩,
  ⟨.vml_pow, [.obj (.viewDense .ten) .s true, .scal .s, .obj (.viewDense .vec) .s false], .vmlmat_smpow, [0, 1, 2]⟩,
  ⟨.vml_pow, [.obj (.viewDense .ten) .s true, .scal .s, .obj (.viewDense .mat) .s false], .vmlmat_smpow, [0, 1, 2]⟩,
  ⟨.vml_pow, [.obj (.viewDense .ten) .s true, .scal .s, .obj (.viewDense .ten) .s false], .vmlmat_smpow, [0, 1, 2]⟩,
  ⟨.vml_alo, [.obj .crs .d true, .scal .d, .scal .d, .obj .crs .d false], .vmlmat_malo, [0, 1, 2, 3]⟩,
  ⟨.vml_alo, [.obj .dense .d true, .scal .d, .scal .d, .obj .dense .d false], .vmlmat_malo, [0, 1, 2, 3]⟩,
  ⟨.vml_alo, [.obj .dense .d true, .scal .d, .scal .d, .obj (.viewDense .vec) .d false], .vmlmat_malo, [0, 1, 2, 3]⟩,
  ⟨.vml_alo, [.obj .dense .d true, .scal .d, .scal .d, .obj (.viewDense .mat) .d false], .vmlmat_malo, [0, 1, 2, 3]⟩,
  ⟨.vml_alo, [.obj .dense .d true, .scal .d, .scal .d, .obj (.viewDense .ten) .d false], .vmlmat_malo, [0, 1, 2, 3]⟩,
  ⟨.vml_alo, [.obj (.viewDense .vec) .d true, .scal .d, .scal .d, .obj .dense .d false], .vmlmat_malo, [0, 1, 2, 3]⟩,
  ⟨.vml_alo, [.obj (.viewDense .vec) .d true, .scal .d, .scal .d, .obj (.viewDense .vec) .d false], .vmlmat_malo, [0, 1, 2, 3]⟩,
  ⟨.vml_alo, [.obj (.viewDense .vec) .d true, .scal .d, .scal .d, .obj (.viewDense .mat) .d false], .vmlmat_malo, [0, 1, 2, 3]⟩,
  ⟨.vml_alo, [.obj (.viewDense .vec) .d true, .scal .d, .scal .d, .obj (.viewDense .ten) .d false], .vmlmat_malo, [0, 1, 2, 3]⟩,
  ⟨.vml_alo, [.obj (.viewDense .mat) .d true, .scal .d, .scal .d, .obj .dense .d false], .vmlmat_malo, [0, 1, 2, 3]⟩,
  ⟨.vml_alo, [.obj (.viewDense .mat) .d true, .scal .d, .scal .d, .obj (.viewDense .vec) .d false], .vmlmat_malo, [0, 1, 2, 3]⟩,
  ⟨.vml_alo, [.obj (.viewDense .mat) .d true, .scal .d, .scal .d, .obj (.viewDense .mat) .d false], .vmlmat_malo, [0, 1, 2, 3]⟩,
  ⟨.vml_alo, [.obj (.viewDense .mat) .d true, .scal .d, .scal .d, .obj (.viewDense .ten) .d false], .vmlmat_malo, [0, 1, 2, 3]⟩,
  ⟨.vml_alo, [.obj (.viewDense .ten) .d true, .scal .d, .scal .d, .obj .dense .d false], .vmlmat_malo, [0, 1, 2, 3]⟩,
  ⟨.vml_alo, [.obj (.viewDense .ten) .d true, .scal .d, .scal .d, .obj (.viewDense .vec) .d false], .vmlmat_malo, [0, 1, 2, 3]⟩,
  ⟨.vml_alo, [.obj (.viewDense .ten) .d true, .scal .d, .scal .d, .obj (.viewDense .mat) .d false], .vmlmat_malo, [0, 1, 2, 3]⟩,
  ⟨.vml_alo, [.obj (.viewDense .ten) .d true, .scal .d, .scal .d, .obj (.viewDense .ten) .d false], .vmlmat_malo, [0, 1, 2, 3]⟩,
  ⟨.vml_alo, [.obj .crs .s true, .scal .s, .scal .s, .obj .crs .s false], .vmlmat_malo, [0, 1, 2, 3]⟩,
  ⟨.vml_alo, [.obj .dense .s true, .scal .s, .scal .s, .obj .dense .s false], .vmlmat_malo, [0, 1, 2, 3]⟩,
  ⟨.vml_alo, [.obj .dense .s true, .scal .s, .scal .s, .obj (.viewDense .vec) .s false], .vmlmat_malo, [0, 1, 2, 3]⟩,
  ⟨.vml_alo, [.obj .dense .s true, .scal .s, .scal .s, .obj (.viewDense .mat) .s false], .vmlmat_malo, [0, 1, 2, 3]⟩,
  ⟨.vml_alo, [.obj .dense .s true, .scal .s, .scal .s, .obj (.viewDense .ten) .s false], .vmlmat_malo, [0, 1, 2, 3]⟩,
  ⟨.vml_alo, [.obj (.viewDense .vec) .s true, .scal .s, .scal .s, .obj .dense .s false], .vmlmat_malo, [0, 1, 2, 3]⟩,
  ⟨.vml_alo, [.obj (.viewDense .vec) .s true, .scal .s, .scal .s, .obj (.viewDense .vec) .s false], .vmlmat_malo, [0, 1, 2, 3]⟩,
  ⟨.vml_alo, [.obj (.viewDense .vec) .s true, .scal .s, .scal .s, .obj (.viewDense .mat) .s false], .vmlmat_malo, [0, 1, 2, 3]⟩,
  ⟨.vml_alo, [.obj (.viewDense .vec) .s true, .scal .s, .scal .s, .obj (.viewDense .ten) .s false], .vmlmat_malo, [0, 1, 2, 3]⟩,
  ⟨.vml_alo, [.obj (.viewDense .mat) .s true, .scal .s, .scal .s, .obj .dense .s false], .vmlmat_malo, [0, 1, 2, 3]⟩,
  ⟨.vml_alo, [.obj (.viewDense .mat) .s true, .scal .s, .scal .s, .obj (.viewDense .vec) .s false], .vmlmat_malo, [0, 1, 2, 3]⟩,
  ⟨.vml_alo, [.obj (.viewDense .mat) .s true, .scal .s, .scal .s, .obj (.viewDense .mat) .s false], .vmlmat_malo, [0, 1, 2, 3]⟩,
  ⟨.vml_alo, [.obj (.viewDense .mat) .s true, .scal .s, .scal .s, .obj (.viewDense .ten) .s false], .vmlmat_malo, [0, 1, 2, 3]⟩,
  ⟨.vml_alo, [.obj (.viewDense .ten) .s true, .scal .s, .scal .s, .obj .dense .s false], .vmlmat_malo, [0, 1, 2, 3]⟩,
  ⟨.vml_alo, [.obj (.viewDense .ten) .s true, .scal .s, .scal .s, .obj (.viewDense .vec) .s false], .vmlmat_malo, [0, 1, 2, 3]⟩,
  ⟨.vml_alo, [.obj (.viewDense .ten) .s true, .scal .s, .scal .s, .obj (.viewDense .mat) .s false], .vmlmat_malo, [0, 1, 2, 3]⟩,
  ⟨.vml_alo, [.obj (.viewDense .ten) .s true, .scal .s, .scal .s, .obj (.viewDense .ten) .s false], .vmlmat_malo, [0, 1, 2, 3]⟩,
  ⟨.vml_sin, [.obj .crs .d true, .obj .crs .d false], .vmlmat_msin, [0, 1]⟩,
  ⟨.vml_sin, [.obj .dense .d true, .obj .dense .d false], .vmlmat_msin, [0, 1]⟩,
  ⟨.vml_sin, [.obj .dense .d true, .obj (.viewDense .vec) .d false], .vmlmat_msin, [0, 1]⟩,
  ⟨.vml_sin, [.obj .dense .d true, .obj (.viewDense .mat) .d false], .vmlmat_msin, [0, 1]⟩,
  ⟨.vml_sin, [.obj .dense .d true, .obj (.viewDense .ten) .d false], .vmlmat_msin, [0, 1]⟩,
  ⟨.vml_sin, [.obj (.viewDense .vec) .d true, .obj .dense .d false], .vmlmat_msin, [0, 1]⟩,
  ⟨.vml_sin, [.obj (.viewDense .vec) .d true, .obj (.viewDense .vec) .d false], .vmlmat_msin, [0, 1]⟩,
  ⟨.vml_sin, [.obj (.viewDense .vec) .d true, .obj (.viewDense .mat) .d false], .vmlmat_msin, [0, 1]⟩,
  ⟨.vml_sin, [.obj (.viewDense .vec) .d true, .obj (.viewDense .ten) .d false], .vmlmat_msin, [0, 1]⟩,
  ⟨.vml_sin, [.obj (.viewDense .mat) .d true, .obj .dense .d false], .vmlmat_msin, [0, 1]⟩,
  ⟨.vml_sin, [.obj (.viewDense .mat) .d true, .obj (.viewDense .vec) .d false], .vmlmat_msin, [0, 1]⟩,
  ⟨.vml_sin, [.obj (.viewDense .mat) .d true, .obj (.viewDense .mat) .d false], .vmlmat_msin, [0, 1]⟩,
  ⟨.vml_sin, [.obj (.viewDense .mat) .d true, .obj (.viewDense .ten) .d false], .vmlmat_msin, [0, 1]⟩,
  ⟨.vml_sin, [.obj (.viewDense .ten) .d true, .obj .dense .d false], .vmlmat_msin, [0, 1]⟩,
  ⟨.vml_sin, [.obj (.viewDense .ten) .d true, .obj (.viewDense .vec) .d false], .vmlmat_msin, [0, 1]⟩,
  ⟨.vml_sin, [.obj (.viewDense .ten) .d true, .obj (.viewDense .mat) .d false], .vmlmat_msin, [0, 1]⟩,
  ⟨.vml_sin, [.obj (.viewDense .ten) .d true, .obj (.viewDense .ten) .d false], .vmlmat_msin, [0, 1]⟩,
  ⟨.vml_sin, [.obj .crs .s true, .obj .crs .s false], .vmlmat_msin, [0, 1]⟩,
  ⟨.vml_sin, [.obj .dense .s true, .obj .dense .s false], .vmlmat_msin, [0, 1]⟩,
  ⟨.vml_sin, [.obj .dense .s true, .obj (.viewDense .vec) .s false], .vmlmat_msin, [0, 1]⟩,
  ⟨.vml_sin, [.obj .dense .s true, .obj (.viewDense .mat) .s false], .vmlmat_msin, [0, 1]⟩,
  ⟨.vml_sin, [.obj .dense .s true, .obj (.viewDense .ten) .s false], .vmlmat_msin, [0, 1]⟩,
  ⟨.vml_sin, [.obj (.viewDense .vec) .s true, .obj .dense .s false], .vmlmat_msin, [0, 1]⟩,
  ⟨.vml_sin, [.obj (.viewDense .vec) .s true, .obj (.viewDense .vec) .s false], .vmlmat_msin, [0, 1]⟩,
  ⟨.vml_sin, [.obj (.viewDense .vec) .s true, .obj (.viewDense .mat) .s false], .vmlmat_msin, [0, 1]⟩,
  ⟨.vml_sin, [.obj (.viewDense .vec) .s true, .obj (.viewDense .ten) .s false], .vmlmat_msin, [0, 1]⟩]

/-- src/vml/matrix/matrix_vml.cpp:4096-4401 -/
def tVmlMat_11 : List Overload := [
  ⟨.vml_sin, [.obj (.viewDense .mat) .s true, .obj .dense .s false], .vmlmat_msin, [0, 1]⟩,
  ⟨.vml_sin, [.obj (.viewDense .mat) .s true, .obj (.viewDense .vec) .s false], .vmlmat_msin, [0, 1]⟩,
  ⟨.vml_sin, [.obj (.viewDense .mat) .s true, .obj (.viewDense .mat) .s false], .vmlmat_msin, [0, 1]⟩,
  ⟨.vml_sin, [.obj (.viewDense .mat) .s true, .obj (.viewDense .ten) .s false], .vmlmat_msin, [0, 1]⟩,
  ⟨.vml_sin, [.obj (.viewDense .ten) .s true, .obj .dense .s false], .vmlmat_msin, [0, 1]⟩,
  ⟨.vml_sin, [.obj (.viewDense .ten) .s true, .obj (.viewDense .vec) .s false], .vmlmat_msin, [0, 1]⟩,
  ⟨.vml_sin, [.obj (.viewDense .ten) .s true, .obj (.viewDense .mat) .s false], .vmlmat_msin, [0, 1]⟩,
  ⟨.vml_sin, [.obj (.viewDense .ten) .s true, .obj (.viewDense .ten) .s false], .vmlmat_msin, [0, 1]⟩,
  ⟨.vml_sqrt, [.obj .crs .d true, .obj .crs .d false], .vmlmat_msqrt, [0, 1]⟩,
  ⟨.vml_sqrt, [.obj .dense .d true, .obj .dense .d false], .vmlmat_msqrt, [0, 1]⟩,
  ⟨.vml_sqrt, [.obj .dense .d true, .obj (.viewDense .vec) .d false], .vmlmat_msqrt, [0, 1]⟩,
  ⟨.vml_sqrt, [.obj .dense .d true, .obj (.viewDense .mat) .d false], .vmlmat_msqrt, [0, 1]⟩,
  ⟨.vml_sqrt, [.obj .dense .d true, .obj (.viewDense .ten) .d false], .vmlmat_msqrt, [0, 1]⟩,
  ⟨.vml_sqrt, [.obj (.viewDense .vec) .d true, .obj .dense .d false], .vmlmat_msqrt, [0, 1]⟩,
  ⟨.vml_sqrt, [.obj (.viewDense .vec) .d true, .obj (.viewDense .vec) .d false], .vmlmat_msqrt, [0, 1]⟩,
  ⟨.vml_sqrt, [.obj (.viewDense .vec) .d true, .obj (.viewDense .mat) .d false], .vmlmat_msqrt, [0, 1]⟩,
  ⟨.vml_sqrt, [.obj (.viewDense .vec) .d true, .obj (.viewDense .ten) .d false], .vmlmat_msqrt, [0, 1]⟩,
  ⟨.vml_sqrt, [.obj (.viewDense .mat) .d true, .obj .dense .d false], .vmlmat_msqrt, [0, 1]⟩,
  ⟨.vml_sqrt, [.obj (.viewDense .mat) .d true, .obj (.viewDense .vec) .d false], .vmlmat_msqrt, [0, 1]⟩,
  ⟨.vml_sqrt, [.obj (.viewDense .mat) .d true, .obj (.viewDense .mat) .d false], .vmlmat_msqrt, [0, 1]⟩,
  ⟨.vml_sqrt, [.obj (.viewDense .mat) .d true, .obj (.viewDense .ten) .d false], .vmlmat_msqrt, [0, 1]⟩,
  ⟨.vml_sqrt, [.obj (.viewDense .ten) .d true, .obj .dense .d false], .vmlmat_msqrt, [0, 1]⟩,
  ⟨.vml_sqrt, [.obj (.viewDense .ten) .d true, .obj (.viewDense .vec) .d false], .vmlmat_msqrt, [0, 1]⟩,
  ⟨.vml_sqrt, [.obj (.viewDense .ten) .d true, .obj (.viewDense .mat) .d false], .vmlmat_msqrt, [0, 1]⟩,
  ⟨.vml_sqrt, [.obj (.viewDense .ten) .d true, .obj (.viewDense .ten) .d false], .vmlmat_msqrt, [0, 1]⟩,
  ⟨.vml_sqrt, [.obj .crs .s true, .obj .crs .s false], .vmlmat_msqrt, [0, 1]⟩,
  ⟨.vml_sqrt, [.obj .dense .s true, .obj .dense .s false], .vmlmat_msqrt, [0, 1]⟩,
  ⟨.vml_sqrt, [.obj .dense .s true, .obj (.viewDense .vec) .s false], .vmlmat_msqrt, [0, 1]⟩,
  ⟨.vml_sqrt, [.obj .dense .s true, .obj (.viewDense .mat) .s false], .vmlmat_msqrt, [0, 1]⟩,
  ⟨.vml_sqrt, [.obj .dense .s true, .obj (.viewDense .ten) .s false], .vmlmat_msqrt, [0, 1]⟩,
  ⟨.vml_sqrt, [.obj (.viewDense .vec) .s true, .obj .dense .s false], .vmlmat_msqrt, [0, 1]⟩,
  ⟨.vml_sqrt, [.obj (.viewDense .vec) .s true, .obj (.viewDense .vec) .s false], .vmlmat_msqrt, [0, 1]⟩,
  ⟨.vml_sqrt, [.obj (.viewDense .vec) .s true, .obj (.viewDense .mat) .s false], .vmlmat_msqrt, [0, 1]⟩,
  ⟨.vml_sqrt, [.obj (.viewDense .vec) .s true, .obj (.viewDense .ten) .s false], .vmlmat_msqrt, [0, 1]⟩,
  ⟨.vml_sqrt, [.obj (.viewDense .mat) .s true, .obj .dense .s false], .vmlmat_msqrt, [0, 1]⟩,
  ⟨.vml_sqrt, [.obj (.viewDense .mat) .s true, .obj (.viewDense .vec) .s false], .vmlmat_msqrt, [0, 1]⟩,
  ⟨.vml_sqrt, [.obj (.viewDense .mat) .s true, .obj (.viewDense .mat) .s false], .vmlmat_msqrt, [0, 1]⟩,
  ⟨.vml_sqrt, [.obj (.viewDense .mat) .s true, .obj (.viewDense .ten) .s false], .vmlmat_msqrt, [0, 1]⟩,
  ⟨.vml_sqrt, [.obj (.viewDense .ten) .s true, .obj .dense .s false], .vmlmat_msqrt, [0, 1]⟩,
  ⟨.vml_sqrt, [.obj (.viewDense .ten) .s true, .obj (.viewDense .vec) .s false], .vmlmat_msqrt, [0, 1]⟩,
  ⟨.vml_sqrt, [.obj (.viewDense .ten) .s true, .obj (.viewDense .mat) .s false], .vmlmat_msqrt, [0, 1]⟩,
  ⟨.vml_sqrt, [.obj (.viewDense .ten) .s true, .obj (.viewDense .ten) .s false], .vmlmat_msqrt, [0, 1]⟩,
  ⟨.vml_sinh, [.obj .crs .d true, .obj .crs .d false], .vmlmat_msinh, [0, 1]⟩,
  ⟨.vml_sinh, [.obj .dense .d true, .obj .dense .d false], .vmlmat_msinh, [0, 1]⟩,
  ⟨.vml_sinh, [.obj .dense .d true, .obj (.viewDense .vec) .d false], .vmlmat_msinh, [0, 1]⟩,
  ⟨.vml_sinh, [.obj .dense .d true, .obj (.viewDense .mat) .d false], .vmlmat_msinh, [0, 1]⟩,
  ⟨.vml_sinh, [.obj .dense .d true, .obj (.viewDense .ten) .d false], .vmlmat_msinh, [0, 1]⟩,
  ⟨.vml_sinh, [.obj (.viewDense .vec) .d true, .obj .dense .d false], .vmlmat_msinh, [0, 1]⟩,
  ⟨.vml_sinh, [.obj (.viewDense .vec) .d true, .obj (.viewDense .vec) .d false], .vmlmat_msinh, [0, 1]⟩,
  ⟨.vml_sinh, [.obj (.viewDense .vec) .d true, .obj (.viewDense .mat) .d false], .vmlmat_msinh, [0, 1]⟩,
  ⟨.vml_sinh, [.obj (.viewDense .vec) .d true, .obj (.viewDense .ten) .d false], .vmlmat_msinh, [0, 1]⟩,
  ⟨.vml_sinh, [.obj (.viewDense .mat) .d true, .obj .dense .d false], .vmlmat_msinh, [0, 1]⟩,
  ⟨.vml_sinh, [.obj (.viewDense .mat) .d true, .obj (.viewDense .vec) .d false], .vmlmat_msinh, [0, 1]⟩,
  ⟨.vml_sinh, [.obj (.viewDense .mat) .d true, .obj (.viewDense .mat) .d false], .vmlmat_msinh, [0, 1]⟩,
  ⟨.vml_sinh, [.obj (.viewDense .mat) .d true, .obj (.viewDense .ten) .d false], .vmlmat_msinh, [0, 1]⟩,
  ⟨.vml_sinh, [.obj (.viewDense .ten) .d true, .obj .dense .d false], .vmlmat_msinh, [0, 1]⟩,
  ⟨.vml_sinh, [.obj (.viewDense .ten) .d true, .obj (.viewDense .vec) .d false], .vmlmat_msinh, [0, 1]⟩,
  ⟨.vml_sinh, [.obj (.viewDense .ten) .d true, .obj (.viewDense .mat) .d false], .vmlmat_msinh, [0, 1]⟩,
  ⟨.vml_sinh, [.obj (.viewDense .ten) .d true, .obj (.viewDense .ten) .d false], .vmlmat_msinh, [0, 1]⟩,
  ⟨.vml_sinh, [.obj .crs .s true, .obj .crs .s false], .vmlmat_msinh, [0, 1]⟩,
  ⟨.vml_sinh, [.obj .dense .s true, .obj .dense .s false], .vmlmat_msinh, [0, 1]⟩,
  ⟨.vml_sinh, [.obj .dense .s true, .obj (.viewDense .vec) .s false], .vmlmat_msinh, [0, 1]⟩,
  ⟨.vml_sinh, [.obj .dense .s true, .obj (.viewDense .mat) .s false], .vmlmat_msinh, [0, 1]⟩,
  ⟨.vml_sinh, [.obj .dense .s true, .obj (.viewDense .ten) .s false], .vmlmat_msinh, [0, 1]⟩,
  ⟨.vml_sinh, [.obj (.viewDense .vec) .s true, .obj .dense .s false], .vmlmat_msinh, [0, 1]⟩,
  ⟨.vml_sinh, [.obj (.viewDense .vec) .s true, .obj (.viewDense .vec) .s false], .vmlmat_msinh, [0, 1]⟩,
  ⟨.vml_sinh, [.obj (.viewDense .vec) .s true, .obj (.viewDense .mat) .s false], .vmlmat_msinh, [0, 1]⟩,
  ⟨.vml_sinh, [.obj (.viewDense .vec) .s true, .obj (.viewDense .ten) .s false], .vmlmat_msinh, [0, 1]⟩,
  ⟨.vml_sinh, [.obj (.viewDense .mat) .s true, .obj .dense .s false], .vmlmat_msinh, [0, 1]⟩,
  ⟨.vml_sinh, [.obj (.viewDense .mat) .s true, .obj (.viewDense .vec) .s false], .vmlmat_msinh, [0, 1]⟩,
  ⟨.vml_sinh, [.obj (.viewDense .mat) .s true, .obj (.viewDense .mat) .s false], .vmlmat_msinh, [0, 1]⟩,
  ⟨.vml_sinh, [.obj (.viewDense .mat) .s true, .obj (.viewDense .ten) .s false], .vmlmat_msinh, [0, 1]⟩,
  ⟨.vml_sinh, [.obj (.viewDense .ten) .s true, .obj .dense .s false], .vmlmat_msinh, [0, 1]⟩,
  ⟨.vml_sinh, [.obj (.viewDense .ten) .s true, .obj (.viewDense .vec) .s false], .vmlmat_msinh, [0, 1]⟩,
  ⟨.vml_sinh, [.obj (.viewDense .ten) .s true, .obj (.viewDense .mat) .s false], .vmlmat_msinh, [0, 1]⟩,
  ⟨.vml_sinh, [.obj (.viewDense .ten) .s true, .obj (.viewDense .ten) .s false], .vmlmat_msinh, [0, 1]⟩,
  ⟨.vml_asin, [.obj .crs .d true, .obj .crs .d false], .vmlmat_masin, [0, 1]⟩,
  ⟨.vml_asin, [.obj .dense .d true, .obj .dense .d false], .vmlmat_masin, [0, 1]⟩,
  ⟨.vml_asin, [.obj .dense .d true, .obj (.viewDense .vec) .d false], .vmlmat_masin, [0, 1]⟩,
  ⟨.vml_asin, [.obj .dense .d true, .obj (.viewDense .mat) .d false], .vmlmat_masin, [0, 1]⟩]

/-- src/vml/matrix/matrix_vml.cpp:4402-4709 -/
def tVmlMat_12 : List Overload := [
  ⟨.vml_asin, [.obj .dense .d true, .obj (.viewDense .ten) .d false], .vmlmat_masin, [0, 1]⟩,
  ⟨.vml_asin, [.obj (.viewDense .vec) .d true, .obj .dense .d false], .vmlmat_masin, [0, 1]⟩,
  ⟨.vml_asin, [.obj (.viewDense .vec) .d true, .obj (.viewDense .vec) .d false], .vmlmat_masin, [0, 1]⟩,
  ⟨.vml_asin, [.obj (.viewDense .vec) .d true, .obj (.viewDense .mat) .d false], .vmlmat_masin, [0, 1]⟩,
  ⟨.vml_asin, [.obj (.viewDense .vec) .d true, .obj (.viewDense .ten) .d false], .vmlmat_masin, [0, 1]⟩,
  ⟨.vml_asin, [.obj (.viewDense .mat) .d true, .obj .dense .d false], .vmlmat_masin, [0, 1]⟩,
  ⟨.vml_asin, [.obj (.viewDense .mat) .d true, .obj (.viewDense .vec) .d false], .vmlmat_masin, [0, 1]⟩,
  ⟨.vml_asin, [.obj (.viewDense .mat) .d true, .obj (.viewDense .mat) .d false], .vmlmat_masin, [0, 1]⟩,
  ⟨.vml_asin, [.obj (.viewDense .mat) .d true, .obj (.viewDense .ten) .d false], .vmlmat_masin, [0, 1]⟩,
  ⟨.vml_asin, [.obj (.viewDense .ten) .d true, .obj .dense .d false], .vmlmat_masin, [0, 1]⟩,
  ⟨.vml_asin, [.obj (.viewDense .ten) .d true, .obj (.viewDense .vec) .d false], .vmlmat_masin, [0, 1]⟩,
  ⟨.vml_asin, [.obj (.viewDense .ten) .d true, .obj (.viewDense .mat) .d false], .vmlmat_masin, [0, 1]⟩,
  ⟨.vml_asin, [.obj (.viewDense .ten) .d true, .obj (.viewDense .ten) .d false], .vmlmat_masin, [0, 1]⟩,
  ⟨.vml_asin, [.obj .crs .s true, .obj .crs .s false], .vmlmat_masin, [0, 1]⟩,
  ⟨.vml_asin, [.obj .dense .s true, .obj .dense .s false], .vmlmat_masin, [0, 1]⟩,
  ⟨.vml_asin, [.obj .dense .s true, .obj (.viewDense .vec) .s false], .vmlmat_masin, [0, 1]⟩,
  ⟨.vml_asin, [.obj .dense .s true, .obj (.viewDense .mat) .s false], .vmlmat_masin, [0, 1]⟩,
  ⟨.vml_asin, [.obj .dense .s true, .obj (.viewDense .ten) .s false], .vmlmat_masin, [0, 1]⟩,
  ⟨.vml_asin, [.obj (.viewDense .vec) .s true, .obj .dense .s false], .vmlmat_masin, [0, 1]⟩,
  ⟨.vml_asin, [.obj (.viewDense .vec) .s true, .obj (.viewDense .vec) .s false], .vmlmat_masin, [0, 1]⟩,
  ⟨.vml_asin, [.obj (.viewDense .vec) .s true, .obj (.viewDense .mat) .s false], .vmlmat_masin, [0, 1]⟩,
  ⟨.vml_asin, [.obj (.viewDense .vec) .s true, .obj (.viewDense .ten) .s false], .vmlmat_masin, [0, 1]⟩,
  ⟨.vml_asin, [.obj (.viewDense .mat) .s true, .obj .dense .s false], .vmlmat_masin, [0, 1]⟩,
  ⟨.vml_asin, [.obj (.viewDense .mat) .s true, .obj (.viewDense .vec) .s false], .vmlmat_masin, [0, 1]⟩,
  ⟨.vml_asin, [.obj (.viewDense .mat) .s true, .obj (.viewDense .mat) .s false], .vmlmat_masin, [0, 1]⟩,
  ⟨.vml_asin, [.obj (.viewDense .mat) .s true, .obj (.viewDense .ten) .s false], .vmlmat_masin, [0, 1]⟩,
  ⟨.vml_asin, [.obj (.viewDense .ten) .s true, .obj .dense .s false], .vmlmat_masin, [0, 1]⟩,
  ⟨.vml_asin, [.obj (.viewDense .ten) .s true, .obj (.viewDense .vec) .s false], .vmlmat_masin, [0, 1]⟩,
  ⟨.vml_asin, [.obj (.viewDense .ten) .s true, .obj (.viewDense .mat) .s false], .vmlmat_masin, [0, 1]⟩,
  ⟨.vml_asin, [.obj (.viewDense .ten) .s true, .obj (.viewDense .ten) .s false], .vmlmat_masin, [0, 1]⟩,
  ⟨.vml_asinh, [.obj .crs .d true, .obj .crs .d false], .vmlmat_masinh, [0, 1]⟩,
  ⟨.vml_asinh, [.obj .dense .d true, .obj .dense .d false], .vmlmat_masinh, [0, 1]⟩,
  ⟨.vml_asinh, [.obj .dense .d true, .obj (.viewDense .vec) .d false], .vmlmat_masinh, [0, 1]⟩,
  ⟨.vml_asinh, [.obj .dense .d true, .obj (.viewDense .mat) .d false], .vmlmat_masinh, [0, 1]⟩,
  ⟨.vml_asinh, [.obj .dense .d true, .obj (.viewDense .ten) .d false], .vmlmat_masinh, [0, 1]⟩,
  ⟨.vml_asinh, [.obj (.viewDense .vec) .d true, .obj .dense .d false], .vmlmat_masinh, [0, 1]⟩,
  ⟨.vml_asinh, [.obj (.viewDense .vec) .d true, .obj (.viewDense .vec) .d false], .vmlmat_masinh, [0, 1]⟩,
  ⟨.vml_asinh, [.obj (.viewDense .vec) .d true, .obj (.viewDense .mat) .d false], .vmlmat_masinh, [0, 1]⟩,
  ⟨.vml_asinh, [.obj (.viewDense .vec) .d true, .obj (.viewDense .ten) .d false], .vmlmat_masinh, [0, 1]⟩,
  ⟨.vml_asinh, [.obj (.viewDense .mat) .d true, .obj .dense .d false], .vmlmat_masinh, [0, 1]⟩,
  ⟨.vml_asinh, [.obj (.viewDense .mat) .d true, .obj (.viewDense .vec) .d false], .vmlmat_masinh, [0, 1]⟩,
  ⟨.vml_asinh, [.obj (.viewDense .mat) .d true, .obj (.viewDense .mat) .d false], .vmlmat_masinh, [0, 1]⟩,
  ⟨.vml_asinh, [.obj (.viewDense .mat) .d true, .obj (.viewDense .ten) .d false], .vmlmat_masinh, [0, 1]⟩,
  ⟨.vml_asinh, [.obj (.viewDense .ten) .d true, .obj .dense .d false], .vmlmat_masinh, [0, 1]⟩,
  ⟨.vml_asinh, [.obj (.viewDense .ten) .d true, .obj (.viewDense .vec) .d false], .vmlmat_masinh, [0, 1]⟩,
  ⟨.vml_asinh, [.obj (.viewDense .ten) .d true, .obj (.viewDense .mat) .d false], .vmlmat_masinh, [0, 1]⟩,
  ⟨.vml_asinh, [.obj (.viewDense .ten) .d true, .obj (.viewDense .ten) .d false], .vmlmat_masinh, [0, 1]⟩,
  ⟨.vml_asinh, [.obj .crs .s true, .obj .crs .s false], .vmlmat_masinh, [0, 1]⟩,
  ⟨.vml_asinh, [.obj .dense .s true, .obj .dense .s false], .vmlmat_masinh, [0, 1]⟩,
  ⟨.vml_asinh, [.obj .dense .s true, .obj (.viewDense .vec) .s false], .vmlmat_masinh, [0, 1]⟩,
  ⟨.vml_asinh, [.obj .dense .s true, .obj (.viewDense .mat) .s false], .vmlmat_masinh, [0, 1]⟩,
  ⟨.vml_asinh, [.obj .dense .s true, .obj (.viewDense .ten) .s false], .vmlmat_masinh, [0, 1]⟩,
  ⟨.vml_asinh, [.obj (.viewDense .vec) .s true, .obj .dense .s false], .vmlmat_masinh, [0, 1]⟩,
  ⟨.vml_asinh, [.obj (.viewDense .vec) .s true, .obj (.viewDense .vec) .s false], .vmlmat_masinh, [0, 1]⟩,
  ⟨.vml_asinh, [.obj (.viewDense .vec) .s true, .obj (.viewDense .mat) .s false], .vmlmat_masinh, [0, 1]⟩,
  ⟨.vml_asinh, [.obj (.viewDense .vec) .s true, .obj (.viewDense .ten) .s false], .vmlmat_masinh, [0, 1]⟩,
  ⟨.vml_asinh, [.obj (.viewDense .mat) .s true, .obj .dense .s false], .vmlmat_masinh, [0, 1]⟩,
  ⟨.vml_asinh, [.obj (.viewDense .mat) .s true, .obj (.viewDense .vec) .s false], .vmlmat_masinh, [0, 1]⟩,
  ⟨.vml_asinh, [.obj (.viewDense .mat) .s true, .obj (.viewDense .mat) .s false], .vmlmat_masinh, [0, 1]⟩,
  ⟨.vml_asinh, [.obj (.viewDense .mat) .s true, .obj (.viewDense .ten) .s false], .vmlmat_masinh, [0, 1]⟩,
  ⟨.vml_asinh, [.obj (.viewDense .ten) .s true, .obj .dense .s false], .vmlmat_masinh, [0, 1]⟩,
  ⟨.vml_asinh, [.obj (.viewDense .ten) .s true, .obj (.viewDense .vec) .s false], .vmlmat_masinh, [0, 1]⟩,
  ⟨.vml_asinh, [.obj (.viewDense .ten) .s true, .obj (.viewDense .mat) .s false], .vmlmat_masinh, [0, 1]⟩,
  ⟨.vml_asinh, [.obj (.viewDense .ten) .s true, .obj (.viewDense .ten) .s false], .vmlmat_masinh, [0, 1]⟩,
  ⟨.vml_tan, [.obj .crs .d true, .obj .crs .d false], .vmlmat_mtan, [0, 1]⟩,
  ⟨.vml_tan, [.obj .dense .d true, .obj .dense .d false], .vmlmat_mtan, [0, 1]⟩,
  ⟨.vml_tan, [.obj .dense .d true, .obj (.viewDense .vec) .d false], .vmlmat_mtan, [0, 1]⟩,
  ⟨.vml_tan, [.obj .dense .d true, .obj (.viewDense .mat) .d false], .vmlmat_mtan, [0, 1]⟩,
  ⟨.vml_tan, [.obj .dense .d true, .obj (.viewDense .ten) .d false], .vmlmat_mtan, [0, 1]⟩,
  ⟨.vml_tan, [.obj (.viewDense .vec) .d true, .obj .dense .d false], .vmlmat_mtan, [0, 1]⟩,
  ⟨.vml_tan, [.obj (.viewDense .vec) .d true, .obj (.viewDense .vec) .d false], .vmlmat_mtan, [0, 1]⟩,
  ⟨.vml_tan, [.obj (.viewDense .vec) .d true, .obj (.viewDense .mat) .d false], .vmlmat_mtan, [0, 1]⟩,
  ⟨.vml_tan, [.obj (.viewDense .vec) .d true, .obj (.viewDense .ten) .d false], .vmlmat_mtan, [0, 1]⟩,
  ⟨.vml_tan, [.obj (.viewDense .mat) .d true, .obj .dense .d false], .vmlmat_mtan, [0, 1]⟩,
  ⟨.vml_tan, [.obj (.viewDense .mat) .d true, .obj (.viewDense .vec) .d false], .vmlmat_mtan, [0, 1]⟩,
  ⟨.vml_tan, [.obj (.viewDense .mat) .d true, .obj (.viewDense .mat) .d false], .vmlmat_mtan, [0, 1]⟩,
  ⟨.vml_tan, [.obj (.viewDense .mat) .d true, .obj (.viewDense .ten) .d false], .vmlmat_mtan, [0, 1]⟩,
  ⟨.vml_tan, [.obj (.viewDense .ten) .d true, .obj .dense .d false], .vmlmat_mtan, [0, 1]⟩,
  ⟨.vml_tan, [.obj (.viewDense .ten) .d true, .obj (.viewDense .vec) .d false], .vmlmat_mtan, [0, 1]⟩,
  ⟨.vml_tan, [.obj (.viewDense .ten) .d true, .obj (.viewDense .mat) .d false], .vmlmat_mtan, [0, 1]⟩]

/-- src/vml/matrix/matrix_vml.cpp:4710-5013 -/
def tVmlMat_13 : List Overload := [
  ⟨.vml_tan, [.obj (.viewDense .ten) .d true, .obj (.viewDense .ten) .d false], .vmlmat_mtan, [0, 1]⟩,
  ⟨.vml_tan, [.obj .crs .s true, .obj .crs .s false], .vmlmat_mtan, [0, 1]⟩,
  ⟨.vml_tan, [.obj .dense .s true, .obj .dense .s false], .vmlmat_mtan, [0, 1]⟩,
  ⟨.vml_tan, [.obj .dense .s true, .obj (.viewDense .vec) .s false], .vmlmat_mtan, [0, 1]⟩,
  ⟨.vml_tan, [.obj .dense .s true, .obj (.viewDense .mat) .s false], .vmlmat_mtan, [0, 1]⟩,
  ⟨.vml_tan, [.obj .dense .s true, .obj (.viewDense .ten) .s false], .vmlmat_mtan, [0, 1]⟩,
  ⟨.vml_tan, [.obj (.viewDense .vec) .s true, .obj .dense .s false], .vmlmat_mtan, [0, 1]⟩,
  ⟨.vml_tan, [.obj (.viewDense .vec) .s true, .obj (.viewDense .vec) .s false], .vmlmat_mtan, [0, 1]⟩,
  ⟨.vml_tan, [.obj (.viewDense .vec) .s true, .obj (.viewDense .mat) .s false], .vmlmat_mtan, [0, 1]⟩,
  ⟨.vml_tan, [.obj (.viewDense .vec) .s true, .obj (.viewDense .ten) .s false], .vmlmat_mtan, [0, 1]⟩,
  ⟨.vml_tan, [.obj (.viewDense .mat) .s true, .obj .dense .s false], .vmlmat_mtan, [0, 1]⟩,
  ⟨.vml_tan, [.obj (.viewDense .mat) .s true, .obj (.viewDense .vec) .s false], .vmlmat_mtan, [0, 1]⟩,
  ⟨.vml_tan, [.obj (.viewDense .mat) .s true, .obj (.viewDense .mat) .s false], .vmlmat_mtan, [0, 1]⟩,
  ⟨.vml_tan, [.obj (.viewDense .mat) .s true, .obj (.viewDense .ten) .s false], .vmlmat_mtan, [0, 1]⟩,
  ⟨.vml_tan, [.obj (.viewDense .ten) .s true, .obj .dense .s false], .vmlmat_mtan, [0, 1]⟩,
  ⟨.vml_tan, [.obj (.viewDense .ten) .s true, .obj (.viewDense .vec) .s false], .vmlmat_mtan, [0, 1]⟩,
  ⟨.vml_tan, [.obj (.viewDense .ten) .s true, .obj (.viewDense .mat) .s false], .vmlmat_mtan, [0, 1]⟩,
  ⟨.vml_tan, [.obj (.viewDense .ten) .s true, .obj (.viewDense .ten) .s false], .vmlmat_mtan, [0, 1]⟩,
  ⟨.vml_tanh, [.obj .crs .d true, .obj .crs .d false], .vmlmat_mtanh, [0, 1]⟩,
  ⟨.vml_tanh, [.obj .dense .d true, .obj .dense .d false], .vmlmat_mtanh, [0, 1]⟩,
  ⟨.vml_tanh, [.obj .dense .d true, .obj (.viewDense .vec) .d false], .vmlmat_mtanh, [0, 1]⟩,
  ⟨.vml_tanh, [.obj .dense .d true, .obj (.viewDense .mat) .d false], .vmlmat_mtanh, [0, 1]⟩,
  ⟨.vml_tanh, [.obj .dense .d true, .obj (.viewDense .ten) .d false], .vmlmat_mtanh, [0, 1]⟩,
  ⟨.vml_tanh, [.obj (.viewDense .vec) .d true, .obj .dense .d false], .vmlmat_mtanh, [0, 1]⟩,
  ⟨.vml_tanh, [.obj (.viewDense .vec) .d true, .obj (.viewDense .vec) .d false], .vmlmat_mtanh, [0, 1]⟩,
  ⟨.vml_tanh, [.obj (.viewDense .vec) .d true, .obj (.viewDense .mat) .d false], .vmlmat_mtanh, [0, 1]⟩,
  ⟨.vml_tanh, [.obj (.viewDense .vec) .d true, .obj (.viewDense .ten) .d false], .vmlmat_mtanh, [0, 1]⟩,
  ⟨.vml_tanh, [.obj (.viewDense .mat) .d true, .obj .dense .d false], .vmlmat_mtanh, [0, 1]⟩,
  ⟨.vml_tanh, [.obj (.viewDense .mat) .d true, .obj (.viewDense .vec) .d false], .vmlmat_mtanh, [0, 1]⟩,
  ⟨.vml_tanh, [.obj (.viewDense .mat) .d true, .obj (.viewDense .mat) .d false], .vmlmat_mtanh, [0, 1]⟩,
  ⟨.vml_tanh, [.obj (.viewDense .mat) .d true, .obj (.viewDense .ten) .d false], .vmlmat_mtanh, [0, 1]⟩,
  ⟨.vml_tanh, [.obj (.viewDense .ten) .d true, .obj .dense .d false], .vmlmat_mtanh, [0, 1]⟩,
  ⟨.vml_tanh, [.obj (.viewDense .ten) .d true, .obj (.viewDense .vec) .d false], .vmlmat_mtanh, [0, 1]⟩,
  ⟨.vml_tanh, [.obj (.viewDense .ten) .d true, .obj (.viewDense .mat) .d false], .vmlmat_mtanh, [0, 1]⟩,
  ⟨.vml_tanh, [.obj (.viewDense .ten) .d true, .obj (.viewDense .ten) .d false], .vmlmat_mtanh, [0, 1]⟩,
  ⟨.vml_tanh, [.obj .crs .s true, .obj .crs .s false], .vmlmat_mtanh, [0, 1]⟩,
  ⟨.vml_tanh, [.obj .dense .s true, .obj .dense .s false], .vmlmat_mtanh, [0, 1]⟩,
  ⟨.vml_tanh, [.obj .dense .s true, .obj (.viewDense .vec) .s false], .vmlmat_mtanh, [0, 1]⟩,
  ⟨.vml_tanh, [.obj .dense .s true, .obj (.viewDense .mat) .s false], .vmlmat_mtanh, [0, 1]⟩,
  ⟨.vml_tanh, [.obj .dense .s true, .obj (.viewDense .ten) .s false], .vmlmat_mtanh, [0, 1]⟩,
  ⟨.vml_tanh, [.obj (.viewDense .vec) .s true, .obj .dense .s false], .vmlmat_mtanh, [0, 1]⟩,
  ⟨.vml_tanh, [.obj (.viewDense .vec) .s true, .obj (.viewDense .vec) .s false], .vmlmat_mtanh, [0, 1]⟩,
  ⟨.vml_tanh, [.obj (.viewDense .vec) .s true, .obj (.viewDense .mat) .s false], .vmlmat_mtanh, [0, 1]⟩,
  ⟨.vml_tanh, [.obj (.viewDense .vec) .s true, .obj (.viewDense .ten) .s false], .vmlmat_mtanh, [0, 1]⟩,
  ⟨.vml_tanh, [.obj (.viewDense .mat) .s true, .obj .dense .s false], .vmlmat_mtanh, [0, 1]⟩,
  ⟨.vml_tanh, [.obj (.viewDense .mat) .s true, .obj (.viewDense .vec) .s false], .vmlmat_mtanh, [0, 1]⟩,
  ⟨.vml_tanh, [.obj (.viewDense .mat) .s true, .obj (.viewDense .mat) .s false], .vmlmat_mtanh, [0, 1]⟩,
  ⟨.vml_tanh, [.obj (.viewDense .mat) .s true, .obj (.viewDense .ten) .s false], .vmlmat_mtanh, [0, 1]⟩,
  ⟨.vml_tanh, [.obj (.viewDense .ten) .s true, .obj .dense .s false], .vmlmat_mtanh, [0, 1]⟩,
  ⟨.vml_tanh, [.obj (.viewDense .ten) .s true, .obj (.viewDense .vec) .s false], .vmlmat_mtanh, [0, 1]⟩,
  ⟨.vml_tanh, [.obj (.viewDense .ten) .s true, .obj (.viewDense .mat) .s false], .vmlmat_mtanh, [0, 1]⟩,
  ⟨.vml_tanh, [.obj (.viewDense .ten) .s true, .obj (.viewDense .ten) .s false], .vmlmat_mtanh, [0, 1]⟩,
  ⟨.vml_atan, [.obj .crs .d true, .obj .crs .d false], .vmlmat_matan, [0, 1]⟩,
  ⟨.vml_atan, [.obj .dense .d true, .obj .dense .d false], .vmlmat_matan, [0, 1]⟩,
  ⟨.vml_atan, [.obj .dense .d true, .obj (.viewDense .vec) .d false], .vmlmat_matan, [0, 1]⟩,
  ⟨.vml_atan, [.obj .dense .d true, .obj (.viewDense .mat) .d false], .vmlmat_matan, [0, 1]⟩,
  ⟨.vml_atan, [.obj .dense .d true, .obj (.viewDense .ten) .d false], .vmlmat_matan, [0, 1]⟩,
  ⟨.vml_atan, [.obj (.viewDense .vec) .d true, .obj .dense .d false], .vmlmat_matan, [0, 1]⟩,
  ⟨.vml_atan, [.obj (.viewDense .vec) .d true, .obj (.viewDense .vec) .d false], .vmlmat_matan, [0, 1]⟩,
  ⟨.vml_atan, [.obj (.viewDense .vec) .d true, .obj (.viewDense .mat) .d false], .vmlmat_matan, [0, 1]⟩,
  ⟨.vml_atan, [.obj (.viewDense .vec) .d true, .obj (.viewDense .ten) .d false], .vmlmat_matan, [0, 1]⟩,
  ⟨.vml_atan, [.obj (.viewDense .mat) .d true, .obj .dense .d false], .vmlmat_matan, [0, 1]⟩,
  ⟨.vml_atan, [.obj (.viewDense .mat) .d true, .obj (.viewDense .vec) .d false], .vmlmat_matan, [0, 1]⟩,
  ⟨.vml_atan, [.obj (.viewDense .mat) .d true, .obj (.viewDense .mat) .d false], .vmlmat_matan, [0, 1]⟩,
  ⟨.vml_atan, [.obj (.viewDense .mat) .d true, .obj (.viewDense .ten) .d false], .vmlmat_matan, [0, 1]⟩,
  ⟨.vml_atan, [.obj (.viewDense .ten) .d true, .obj .dense .d false], .vmlmat_matan, [0, 1]⟩,
  ⟨.vml_atan, [.obj (.viewDense .ten) .d true, .obj (.viewDense .vec) .d false], .vmlmat_matan, [0, 1]⟩,
  ⟨.vml_atan, [.obj (.viewDense .ten) .d true, .obj (.viewDense .mat) .d false], .vmlmat_matan, [0, 1]⟩,
  ⟨.vml_atan, [.obj (.viewDense .ten) .d true, .obj (.viewDense .ten) .d false], .vmlmat_matan, [0, 1]⟩,
  ⟨.vml_atan, [.obj .crs .s true, .obj .crs .s false], .vmlmat_matan, [0, 1]⟩,
  ⟨.vml_atan, [.obj .dense .s true, .obj .dense .s false], .vmlmat_matan, [0, 1]⟩,
  ⟨.vml_atan, [.obj .dense .s true, .obj (.viewDense .vec) .s false], .vmlmat_matan, [0, 1]⟩,
  ⟨.vml_atan, [.obj .dense .s true, .obj (.viewDense .mat) .s false], .vmlmat_matan, [0, 1]⟩,
  ⟨.vml_atan, [.obj .dense .s true, .obj (.viewDense .ten) .s false], .vmlmat_matan, [0, 1]⟩,
  ⟨.vml_atan, [.obj (.viewDense .vec) .s true, .obj .dense .s false], .vmlmat_matan, [0, 1]⟩,
  ⟨.vml_atan, [.obj (.viewDense .vec) .s true, .obj (.viewDense .vec) .s false], .vmlmat_matan, [0, 1]⟩,
  ⟨.vml_atan, [.obj (.viewDense .vec) .s true, .obj (.viewDense .mat) .s false], .vmlmat_matan, [0, 1]⟩,
  ⟨.vml_atan, [.obj (.viewDense .vec) .s true, .obj (.viewDense .ten) .s false], .vmlmat_matan, [0, 1]⟩,
  ⟨.vml_atan, [.obj (.viewDense .mat) .s true, .obj .dense .s false], .vmlmat_matan, [0, 1]⟩,
  ⟨.vml_atan, [.obj (.viewDense .mat) .s true, .obj (.viewDense .vec) .s false], .vmlmat_matan, [0, 1]⟩]

/-- src/vml/matrix/matrix_vml.cpp:5014-5319 -/
def tVmlMat_14 : List Overload := [
  ⟨.vml_atan, [.obj (.viewDense .mat) .s true, .obj (.viewDense .mat) .s false], .vmlmat_matan, [0, 1]⟩,
  ⟨.vml_atan, [.obj (.viewDense .mat) .s true, .obj (.viewDense .ten) .s false], .vmlmat_matan, [0, 1]⟩,
  ⟨.vml_atan, [.obj (.viewDense .ten) .s true, .obj .dense .s false], .vmlmat_matan, [0, 1]⟩,
  ⟨.vml_atan, [.obj (.viewDense .ten) .s true, .obj (.viewDense .vec) .s false], .vmlmat_matan, [0, 1]⟩,
  ⟨.vml_atan, [.obj (.viewDense .ten) .s true, .obj (.viewDense .mat) .s false], .vmlmat_matan, [0, 1]⟩,
  ⟨.vml_atan, [.obj (.viewDense .ten) .s true, .obj (.viewDense .ten) .s false], .vmlmat_matan, [0, 1]⟩,
  ⟨.vml_atanh, [.obj .crs .d true, .obj .crs .d false], .vmlmat_matanh, [0, 1]⟩,
  ⟨.vml_atanh, [.obj .dense .d true, .obj .dense .d false], .vmlmat_matanh, [0, 1]⟩,
  ⟨.vml_atanh, [.obj .dense .d true, .obj (.viewDense .vec) .d false], .vmlmat_matanh, [0, 1]⟩,
  ⟨.vml_atanh, [.obj .dense .d true, .obj (.viewDense .mat) .d false], .vmlmat_matanh, [0, 1]⟩,
  ⟨.vml_atanh, [.obj .dense .d true, .obj (.viewDense .ten) .d false], .vmlmat_matanh, [0, 1]⟩,
  ⟨.vml_atanh, [.obj (.viewDense .vec) .d true, .obj .dense .d false], .vmlmat_matanh, [0, 1]⟩,
  ⟨.vml_atanh, [.obj (.viewDense .vec) .d true, .obj (.viewDense .vec) .d false], .vmlmat_matanh, [0, 1]⟩,
  ⟨.vml_atanh, [.obj (.viewDense .vec) .d true, .obj (.viewDense .mat) .d false], .vmlmat_matanh, [0, 1]⟩,
  ⟨.vml_atanh, [.obj (.viewDense .vec) .d true, .obj (.viewDense .ten) .d false], .vmlmat_matanh, [0, 1]⟩,
  ⟨.vml_atanh, [.obj (.viewDense .mat) .d true, .obj .dense .d false], .vmlmat_matanh, [0, 1]⟩,
  ⟨.vml_atanh, [.obj (.viewDense .mat) .d true, .obj (.viewDense .vec) .d false], .vmlmat_matanh, [0, 1]⟩,
  ⟨.vml_atanh, [.obj (.viewDense .mat) .d true, .obj (.viewDense .mat) .d false], .vmlmat_matanh, [0, 1]⟩,
  ⟨.vml_atanh, [.obj (.viewDense .mat) .d true, .obj (.viewDense .ten) .d false], .vmlmat_matanh, [0, 1]⟩,
  ⟨.vml_atanh, [.obj (.viewDense .ten) .d true, .obj .dense .d false], .vmlmat_matanh, [0, 1]⟩,
  ⟨.vml_atanh, [.obj (.viewDense .ten) .d true, .obj (.viewDense .vec) .d false], .vmlmat_matanh, [0, 1]⟩,
  ⟨.vml_atanh, [.obj (.viewDense .ten) .d true, .obj (.viewDense .mat) .d false], .vmlmat_matanh, [0, 1]⟩,
  ⟨.vml_atanh, [.obj (.viewDense .ten) .d true, .obj (.viewDense .ten) .d false], .vmlmat_matanh, [0, 1]⟩,
  ⟨.vml_atanh, [.obj .crs .s true, .obj .crs .s false], .vmlmat_matanh, [0, 1]⟩,
  ⟨.vml_atanh, [.obj .dense .s true, .obj .dense .s false], .vmlmat_matanh, [0, 1]⟩,
  ⟨.vml_atanh, [.obj .dense .s true, .obj (.viewDense .vec) .s false], .vmlmat_matanh, [0, 1]⟩,
  ⟨.vml_atanh, [.obj .dense .s true, .obj (.viewDense .mat) .s false], .vmlmat_matanh, [0, 1]⟩,
  ⟨.vml_atanh, [.obj .dense .s true, .obj (.viewDense .ten) .s false], .vmlmat_matanh, [0, 1]⟩,
  ⟨.vml_atanh, [.obj (.viewDense .vec) .s true, .obj .dense .s false], .vmlmat_matanh, [0, 1]⟩,
  ⟨.vml_atanh, [.obj (.viewDense .vec) .s true, .obj (.viewDense .vec) .s false], .vmlmat_matanh, [0, 1]⟩,
  ⟨.vml_atanh, [.obj (.viewDense .vec) .s true, .obj (.viewDense .mat) .s false], .vmlmat_matanh, [0, 1]⟩,
  ⟨.vml_atanh, [.obj (.viewDense .vec) .s true, .obj (.viewDense .ten) .s false], .vmlmat_matanh, [0, 1]⟩,
  ⟨.vml_atanh, [.obj (.viewDense .mat) .s true, .obj .dense .s false], .vmlmat_matanh, [0, 1]⟩,
  ⟨.vml_atanh, [.obj (.viewDense .mat) .s true, .obj (.viewDense .vec) .s false], .vmlmat_matanh, [0, 1]⟩,
  ⟨.vml_atanh, [.obj (.viewDense .mat) .s true, .obj (.viewDense .mat) .s false], .vmlmat_matanh, [0, 1]⟩,
  ⟨.vml_atanh, [.obj (.viewDense .mat) .s true, .obj (.viewDense .ten) .s false], .vmlmat_matanh, [0, 1]⟩,
  ⟨.vml_atanh, [.obj (.viewDense .ten) .s true, .obj .dense .s false], .vmlmat_matanh, [0, 1]⟩,
  ⟨.vml_atanh, [.obj (.viewDense .ten) .s true, .obj (.viewDense .vec) .s false], .vmlmat_matanh, [0, 1]⟩,
  ⟨.vml_atanh, [.obj (.viewDense .ten) .s true, .obj (.viewDense .mat) .s false], .vmlmat_matanh, [0, 1]⟩,
  ⟨.vml_atanh, [.obj (.viewDense .ten) .s true, .obj (.viewDense .ten) .s false], .vmlmat_matanh, [0, 1]⟩,
  ⟨.vml_ceil, [.obj .crs .d true, .obj .crs .d false], .vmlmat_mceil, [0, 1]⟩,
  ⟨.vml_ceil, [.obj .dense .d true, .obj .dense .d false], .vmlmat_mceil, [0, 1]⟩,
  ⟨.vml_ceil, [.obj .dense .d true, .obj (.viewDense .vec) .d false], .vmlmat_mceil, [0, 1]⟩,
  ⟨.vml_ceil, [.obj .dense .d true, .obj (.viewDense .mat) .d false], .vmlmat_mceil, [0, 1]⟩,
  ⟨.vml_ceil, [.obj .dense .d true, .obj (.viewDense .ten) .d false], .vmlmat_mceil, [0, 1]⟩,
  ⟨.vml_ceil, [.obj (.viewDense .vec) .d true, .obj .dense .d false], .vmlmat_mceil, [0, 1]⟩,
  ⟨.vml_ceil, [.obj (.viewDense .vec) .d true, .obj (.viewDense .vec) .d false], .vmlmat_mceil, [0, 1]⟩,
  ⟨.vml_ceil, [.obj (.viewDense .vec) .d true, .obj (.viewDense .mat) .d false], .vmlmat_mceil, [0, 1]⟩,
  ⟨.vml_ceil, [.obj (.viewDense .vec) .d true, .obj (.viewDense .ten) .d false], .vmlmat_mceil, [0, 1]⟩,
  ⟨.vml_ceil, [.obj (.viewDense .mat) .d true, .obj .dense .d false], .vmlmat_mceil, [0, 1]⟩,
  ⟨.vml_ceil, [.obj (.viewDense .mat) .d true, .obj (.viewDense .vec) .d false], .vmlmat_mceil, [0, 1]⟩,
  ⟨.vml_ceil, [.obj (.viewDense .mat) .d true, .obj (.viewDense .mat) .d false], .vmlmat_mceil, [0, 1]⟩,
  ⟨.vml_ceil, [.obj (.viewDense .mat) .d true, .obj (.viewDense .ten) .d false], .vmlmat_mceil, [0, 1]⟩,
  ⟨.vml_ceil, [.obj (.viewDense .ten) .d true, .obj .dense .d false], .vmlmat_mceil, [0, 1]⟩,
  ⟨.vml_ceil, [.obj (.viewDense .ten) .d true, .obj (.viewDense .vec) .d false], .vmlmat_mceil, [0, 1]⟩,
  ⟨.vml_ceil, [.obj (.viewDense .ten) .d true, .obj (.viewDense .mat) .d false], .vmlmat_mceil, [0, 1]⟩,
  ⟨.vml_ceil, [.obj (.viewDense .ten) .d true, .obj (.viewDense .ten) .d false], .vmlmat_mceil, [0, 1]⟩,
  ⟨.vml_ceil, [.obj .crs .s true, .obj .crs .s false], .vmlmat_mceil, [0, 1]⟩,
  ⟨.vml_ceil, [.obj .dense .s true, .obj .dense .s false], .vmlmat_mceil, [0, 1]⟩,
  ⟨.vml_ceil, [.obj .dense .s true, .obj (.viewDense .vec) .s false], .vmlmat_mceil, [0, 1]⟩,
  ⟨.vml_ceil, [.obj .dense .s true, .obj (.viewDense .mat) .s false], .vmlmat_mceil, [0, 1]⟩,
  ⟨.vml_ceil, [.obj .dense .s true, .obj (.viewDense .ten) .s false], .vmlmat_mceil, [0, 1]⟩,
  ⟨.vml_ceil, [.obj (.viewDense .vec) .s true, .obj .dense .s false], .vmlmat_mceil, [0, 1]⟩,
  ⟨.vml_ceil, [.obj (.viewDense .vec) .s true, .obj (.viewDense .vec) .s false], .vmlmat_mceil, [0, 1]⟩,
  ⟨.vml_ceil, [.obj (.viewDense .vec) .s true, .obj (.viewDense .mat) .s false], .vmlmat_mceil, [0, 1]⟩,
  ⟨.vml_ceil, [.obj (.viewDense .vec) .s true, .obj (.viewDense .ten) .s false], .vmlmat_mceil, [0, 1]⟩,
  ⟨.vml_ceil, [.obj (.viewDense .mat) .s true, .obj .dense .s false], .vmlmat_mceil, [0, 1]⟩,
  ⟨.vml_ceil, [.obj (.viewDense .mat) .s true, .obj (.viewDense .vec) .s false], .vmlmat_mceil, [0, 1]⟩,
  ⟨.vml_ceil, [.obj (.viewDense .mat) .s true, .obj (.viewDense .mat) .s false], .vmlmat_mceil, [0, 1]⟩,
  ⟨.vml_ceil, [.obj (.viewDense .mat) .s true, .obj (.viewDense .ten) .s false], .vmlmat_mceil, [0, 1]⟩,
  ⟨.vml_ceil, [.obj (.viewDense .ten) .s true, .obj .dense .s false], .vmlmat_mceil, [0, 1]⟩,
  ⟨.vml_ceil, [.obj (.viewDense .ten) .s true, .obj (.viewDense .vec) .s false], .vmlmat_mceil, [0, 1]⟩,
  ⟨.vml_ceil, [.obj (.viewDense .ten) .s true, .obj (.viewDense .mat) .s false], .vmlmat_mceil, [0, 1]⟩,
  ⟨.vml_ceil, [.obj (.viewDense .ten) .s true, .obj (.viewDense .ten) .s false], .vmlmat_mceil, [0, 1]⟩,
  ⟨.vml_floor, [.obj .crs .d true, .obj .crs .d false], .vmlmat_mfloor, [0, 1]⟩,
  ⟨.vml_floor, [.obj .dense .d true, .obj .dense .d false], .vmlmat_mfloor, [0, 1]⟩,
  ⟨.vml_floor, [.obj .dense .d true, .obj (.viewDense .vec) .d false], .vmlmat_mfloor, [0, 1]⟩,
  ⟨.vml_floor, [.obj .dense .d true, .obj (.viewDense .mat) .d false], .vmlmat_mfloor, [0, 1]⟩,
  ⟨.vml_floor, [.obj .dense .d true, .obj (.viewDense .ten) .d false], .vmlmat_mfloor, [0, 1]⟩,
  ⟨.vml_floor, [.obj (.viewDense .vec) .d true, .obj .dense .d false], .vmlmat_mfloor, [0, 1]⟩]

/-- src/vml/matrix/matrix_vml.cpp:5320-5626 -/
def tVmlMat_15 : List Overload := [
  ⟨.vml_floor, [.obj (.viewDense .vec) .d true, .obj (.viewDense .vec) .d false], .vmlmat_mfloor, [0, 1]⟩,
  ⟨.vml_floor, [.obj (.viewDense .vec) .d true, .obj (.viewDense .mat) .d false], .vmlmat_mfloor, [0, 1]⟩,
  ⟨.vml_floor, [.obj (.viewDense .vec) .d true, .obj (.viewDense .ten) .d false], .vmlmat_mfloor, [0, 1]⟩,
  ⟨.vml_floor, [.obj (.viewDense .mat) .d true, .obj .dense .d false], .vmlmat_mfloor, [0, 1]⟩,
  ⟨.vml_floor, [.obj (.viewDense .mat) .d true, .obj (.viewDense .vec) .d false], .vmlmat_mfloor, [0, 1]⟩,
  ⟨.vml_floor, [.obj (.viewDense .mat) .d true, .obj (.viewDense .mat) .d false], .vmlmat_mfloor, [0, 1]⟩,
  ⟨.vml_floor, [.obj (.viewDense .mat) .d true, .obj (.viewDense .ten) .d false], .vmlmat_mfloor, [0, 1]⟩,
  ⟨.vml_floor, [.obj (.viewDense .ten) .d true, .obj .dense .d false], .vmlmat_mfloor, [0, 1]⟩,
  ⟨.vml_floor, [.obj (.viewDense .ten) .d true, .obj (.viewDense .vec) .d false], .vmlmat_mfloor, [0, 1]⟩,
  ⟨.vml_floor, [.obj (.viewDense .ten) .d true, .obj (.viewDense .mat) .d false], .vmlmat_mfloor, [0, 1]⟩,
  ⟨.vml_floor, [.obj (.viewDense .ten) .d true, .obj (.viewDense .ten) .d false], .vmlmat_mfloor, [0, 1]⟩,
  ⟨.vml_floor, [.obj .crs .s true, .obj .crs .s false], .vmlmat_mfloor, [0, 1]⟩,
  ⟨.vml_floor, [.obj .dense .s true, .obj .dense .s false], .vmlmat_mfloor, [0, 1]⟩,
  ⟨.vml_floor, [.obj .dense .s true, .obj (.viewDense .vec) .s false], .vmlmat_mfloor, [0, 1]⟩,
  ⟨.vml_floor, [.obj .dense .s true, .obj (.viewDense .mat) .s false], .vmlmat_mfloor, [0, 1]⟩,
  ⟨.vml_floor, [.obj .dense .s true, .obj (.viewDense .ten) .s false], .vmlmat_mfloor, [0, 1]⟩,
  ⟨.vml_floor, [.obj (.viewDense .vec) .s true, .obj .dense .s false], .vmlmat_mfloor, [0, 1]⟩,
  ⟨.vml_floor, [.obj (.viewDense .vec) .s true, .obj (.viewDense .vec) .s false], .vmlmat_mfloor, [0, 1]⟩,
  ⟨.vml_floor, [.obj (.viewDense .vec) .s true, .obj (.viewDense .mat) .s false], .vmlmat_mfloor, [0, 1]⟩,
  ⟨.vml_floor, [.obj (.viewDense .vec) .s true, .obj (.viewDense .ten) .s false], .vmlmat_mfloor, [0, 1]⟩,
  ⟨.vml_floor, [.obj (.viewDense .mat) .s true, .obj .dense .s false], .vmlmat_mfloor, [0, 1]⟩,
  ⟨.vml_floor, [.obj (.viewDense .mat) .s true, .obj (.viewDense .vec) .s false], .vmlmat_mfloor, [0, 1]⟩,
  ⟨.vml_floor, [.obj (.viewDense .mat) .s true, .obj (.viewDense .mat) .s false], .vmlmat_mfloor, [0, 1]⟩,
  ⟨.vml_floor, [.obj (.viewDense .mat) .s true, .obj (.viewDense .ten) .s false], .vmlmat_mfloor, [0, 1]⟩,
  ⟨.vml_floor, [.obj (.viewDense .ten) .s true, .obj .dense .s false], .vmlmat_mfloor, [0, 1]⟩,
  ⟨.vml_floor, [.obj (.viewDense .ten) .s true, .obj (.viewDense .vec) .s false], .vmlmat_mfloor, [0, 1]⟩,
  ⟨.vml_floor, [.obj (.viewDense .ten) .s true, .obj (.viewDense .mat) .s false], .vmlmat_mfloor, [0, 1]⟩,
  ⟨.vml_floor, [.obj (.viewDense .ten) .s true, .obj (.viewDense .ten) .s false], .vmlmat_mfloor, [0, 1]⟩,
  ⟨.vml_sign, [.obj .crs .d true, .obj .crs .d false], .vmlmat_msign, [0, 1]⟩,
  ⟨.vml_sign, [.obj .dense .d true, .obj .dense .d false], .vmlmat_msign, [0, 1]⟩,
  ⟨.vml_sign, [.obj .dense .d true, .obj (.viewDense .vec) .d false], .vmlmat_msign, [0, 1]⟩,
  ⟨.vml_sign, [.obj .dense .d true, .obj (.viewDense .mat) .d false], .vmlmat_msign, [0, 1]⟩,
  ⟨.vml_sign, [.obj .dense .d true, .obj (.viewDense .ten) .d false], .vmlmat_msign, [0, 1]⟩,
  ⟨.vml_sign, [.obj (.viewDense .vec) .d true, .obj .dense .d false], .vmlmat_msign, [0, 1]⟩,
  ⟨.vml_sign, [.obj (.viewDense .vec) .d true, .obj (.viewDense .vec) .d false], .vmlmat_msign, [0, 1]⟩,
  ⟨.vml_sign, [.obj (.viewDense .vec) .d true, .obj (.viewDense .mat) .d false], .vmlmat_msign, [0, 1]⟩,
  ⟨.vml_sign, [.obj (.viewDense .vec) .d true, .obj (.viewDense .ten) .d false], .vmlmat_msign, [0, 1]⟩,
  ⟨.vml_sign, [.obj (.viewDense .mat) .d true, .obj .dense .d false], .vmlmat_msign, [0, 1]⟩,
  ⟨.vml_sign, [.obj (.viewDense .mat) .d true, .obj (.viewDense .vec) .d false], .vmlmat_msign, [0, 1]⟩,
  ⟨.vml_sign, [.obj (.viewDense .mat) .d true, .obj (.viewDense .mat) .d false], .vmlmat_msign, [0, 1]⟩,
  ⟨.vml_sign, [.obj (.viewDense .mat) .d true, .obj (.viewDense .ten) .d false], .vmlmat_msign, [0, 1]⟩,
  ⟨.vml_sign, [.obj (.viewDense .ten) .d true, .obj .dense .d false], .vmlmat_msign, [0, 1]⟩,
  ⟨.vml_sign, [.obj (.viewDense .ten) .d true, .obj (.viewDense .vec) .d false], .vmlmat_msign, [0, 1]⟩,
  ⟨.vml_sign, [.obj (.viewDense .ten) .d true, .obj (.viewDense .mat) .d false], .vmlmat_msign, [0, 1]⟩,
  ⟨.vml_sign, [.obj (.viewDense .ten) .d true, .obj (.viewDense .ten) .d false], .vmlmat_msign, [0, 1]⟩,
  ⟨.vml_sign, [.obj .crs .s true, .obj .crs .s false], .vmlmat_msign, [0, 1]⟩,
  ⟨.vml_sign, [.obj .dense .s true, .obj .dense .s false], .vmlmat_msign, [0, 1]⟩,
  ⟨.vml_sign, [.obj .dense .s true, .obj (.viewDense .vec) .s false], .vmlmat_msign, [0, 1]⟩,
  ⟨.vml_sign, [.obj .dense .s true, .obj (.viewDense .mat) .s false], .vmlmat_msign, [0, 1]⟩,
  ⟨.vml_sign, [.obj .dense .s true, .obj (.viewDense .ten) .s false], .vmlmat_msign, [0, 1]⟩,
  ⟨.vml_sign, [.obj (.viewDense .vec) .s true, .obj .dense .s false], .vmlmat_msign, [0, 1]⟩,
  ⟨.vml_sign, [.obj (.viewDense .vec) .s true, .obj (.viewDense .vec) .s false], .vmlmat_msign, [0, 1]⟩,
  ⟨.vml_sign, [.obj (.viewDense .vec) .s true, .obj (.viewDense .mat) .s false], .vmlmat_msign, [0, 1]⟩,
  ⟨.vml_sign, [.obj (.viewDense .vec) .s true, .obj (.viewDense .ten) .s false], .vmlmat_msign, [0, 1]⟩,
  ⟨.vml_sign, [.obj (.viewDense .mat) .s true, .obj .dense .s false], .vmlmat_msign, [0, 1]⟩,
  ⟨.vml_sign, [.obj (.viewDense .mat) .s true, .obj (.viewDense .vec) .s false], .vmlmat_msign, [0, 1]⟩,
  ⟨.vml_sign, [.obj (.viewDense .mat) .s true, .obj (.viewDense .mat) .s false], .vmlmat_msign, [0, 1]⟩,
  ⟨.vml_sign, [.obj (.viewDense .mat) .s true, .obj (.viewDense .ten) .s false], .vmlmat_msign, [0, 1]⟩,
  ⟨.vml_sign, [.obj (.viewDense .ten) .s true, .obj .dense .s false], .vmlmat_msign, [0, 1]⟩,
  ⟨.vml_sign, [.obj (.viewDense .ten) .s true, .obj (.viewDense .vec) .s false], .vmlmat_msign, [0, 1]⟩,
  ⟨.vml_sign, [.obj (.viewDense .ten) .s true, .obj (.viewDense .mat) .s false], .vmlmat_msign, [0, 1]⟩,
  ⟨.vml_sign, [.obj (.viewDense .ten) .s true, .obj (.viewDense .ten) .s false], .vmlmat_msign, [0, 1]⟩,
  ⟨.vml_reciprocal, [.obj .crs .d true, .obj .crs .d false], .vmlmat_mreciprocal, [0, 1]⟩,
  ⟨.vml_reciprocal, [.obj .dense .d true, .obj .dense .d false], .vmlmat_mreciprocal, [0, 1]⟩,
  ⟨.vml_reciprocal, [.obj .dense .d true, .obj (.viewDense .vec) .d false], .vmlmat_mreciprocal, [0, 1]⟩,
  ⟨.vml_reciprocal, [.obj .dense .d true, .obj (.viewDense .mat) .d false], .vmlmat_mreciprocal, [0, 1]⟩,
  ⟨.vml_reciprocal, [.obj .dense .d true, .obj (.viewDense .ten) .d false], .vmlmat_mreciprocal, [0, 1]⟩,
  ⟨.vml_reciprocal, [.obj (.viewDense .vec) .d true, .obj .dense .d false], .vmlmat_mreciprocal, [0, 1]⟩,
  ⟨.vml_reciprocal, [.obj (.viewDense .vec) .d true, .obj (.viewDense .vec) .d false], .vmlmat_mreciprocal, [0, 1]⟩,
  ⟨.vml_reciprocal, [.obj (.viewDense .vec) .d true, .obj (.viewDense .mat) .d false], .vmlmat_mreciprocal, [0, 1]⟩,
  ⟨.vml_reciprocal, [.obj (.viewDense .vec) .d true, .obj (.viewDense .ten) .d false], .vmlmat_mreciprocal, [0, 1]⟩,
  ⟨.vml_reciprocal, [.obj (.viewDense .mat) .d true, .obj .dense .d false], .vmlmat_mreciprocal, [0, 1]⟩,
  ⟨.vml_reciprocal, [.obj (.viewDense .mat) .d true, .obj (.viewDense .vec) .d false], .vmlmat_mreciprocal, [0, 1]⟩,
  ⟨.vml_reciprocal, [.obj (.viewDense .mat) .d true, .obj (.viewDense .mat) .d false], .vmlmat_mreciprocal, [0, 1]⟩,
  ⟨.vml_reciprocal, [.obj (.viewDense .mat) .d true, .obj (.viewDense .ten) .d false], .vmlmat_mreciprocal, [0, 1]⟩,
  ⟨.vml_reciprocal, [.obj (.viewDense .ten) .d true, .obj .dense .d false], .vmlmat_mreciprocal, [0, 1]⟩,
  ⟨.vml_reciprocal, [.obj (.viewDense .ten) .d true, .obj (.viewDense .vec) .d false], .vmlmat_mreciprocal, [0, 1]⟩,
  ⟨.vml_reciprocal, [.obj (.viewDense .ten) .d true, .obj (.viewDense .mat) .d false], .vmlmat_mreciprocal, [0, 1]⟩,
  ⟨.vml_reciprocal, [.obj (.viewDense .ten) .d true, .obj (.viewDense .ten) .d false], .vmlmat_mreciprocal, [0, 1]⟩,
  ⟨.vml_reciprocal, [.obj .crs .s true, .obj .crs .s false], .vmlmat_mreciprocal, [0, 1]⟩]

/-- src/vml/matrix/matrix_vml.cpp:5627-5964 -/
def tVmlMat_16 : List Overload := [
  ⟨.vml_reciprocal, [.obj .dense .s true, .obj .dense .s false], .vmlmat_mreciprocal, [0, 1]⟩,
  ⟨.vml_reciprocal, [.obj .dense .s true, .obj (.viewDense .vec) .s false], .vmlmat_mreciprocal, [0, 1]⟩,
  ⟨.vml_reciprocal, [.obj .dense .s true, .obj (.viewDense .mat) .s false], .vmlmat_mreciprocal, [0, 1]⟩,
  ⟨.vml_reciprocal, [.obj .dense .s true, .obj (.viewDense .ten) .s false], .vmlmat_mreciprocal, [0, 1]⟩,
  ⟨.vml_reciprocal, [.obj (.viewDense .vec) .s true, .obj .dense .s false], .vmlmat_mreciprocal, [0, 1]⟩,
  ⟨.vml_reciprocal, [.obj (.viewDense .vec) .s true, .obj (.viewDense .vec) .s false], .vmlmat_mreciprocal, [0, 1]⟩,
  ⟨.vml_reciprocal, [.obj (.viewDense .vec) .s true, .obj (.viewDense .mat) .s false], .vmlmat_mreciprocal, [0, 1]⟩,
  ⟨.vml_reciprocal, [.obj (.viewDense .vec) .s true, .obj (.viewDense .ten) .s false], .vmlmat_mreciprocal, [0, 1]⟩,
  ⟨.vml_reciprocal, [.obj (.viewDense .mat) .s true, .obj .dense .s false], .vmlmat_mreciprocal, [0, 1]⟩,
  ⟨.vml_reciprocal, [.obj (.viewDense .mat) .s true, .obj (.viewDense .vec) .s false], .vmlmat_mreciprocal, [0, 1]⟩,
  ⟨.vml_reciprocal, [.obj (.viewDense .mat) .s true, .obj (.viewDense .mat) .s false], .vmlmat_mreciprocal, [0, 1]⟩,
  ⟨.vml_reciprocal, [.obj (.viewDense .mat) .s true, .obj (.viewDense .ten) .s false], .vmlmat_mreciprocal, [0, 1]⟩,
  ⟨.vml_reciprocal, [.obj (.viewDense .ten) .s true, .obj .dense .s false], .vmlmat_mreciprocal, [0, 1]⟩,
  ⟨.vml_reciprocal, [.obj (.viewDense .ten) .s true, .obj (.viewDense .vec) .s false], .vmlmat_mreciprocal, [0, 1]⟩,
  ⟨.vml_reciprocal, [.obj (.viewDense .ten) .s true, .obj (.viewDense .mat) .s false], .vmlmat_mreciprocal, [0, 1]⟩,
  ⟨.vml_reciprocal, [.obj (.viewDense .ten) .s true, .obj (.viewDense .ten) .s false], .vmlmat_mreciprocal, [0, 1]⟩,
  ⟨.vml_exp, [.obj .crs .d true, .obj .crs .d false], .vmlmat_mexp, [0, 1]⟩,
  ⟨.vml_exp, [.obj .dense .d true, .obj .dense .d false], .vmlmat_mexp, [0, 1]⟩,
  ⟨.vml_exp, [.obj .dense .d true, .obj (.viewDense .vec) .d false], .vmlmat_mexp, [0, 1]⟩,
  ⟨.vml_exp, [.obj .dense .d true, .obj (.viewDense .mat) .d false], .vmlmat_mexp, [0, 1]⟩,
  ⟨.vml_exp, [.obj .dense .d true, .obj (.viewDense .ten) .d false], .vmlmat_mexp, [0, 1]⟩,
  ⟨.vml_exp, [.obj (.viewDense .vec) .d true, .obj .dense .d false], .vmlmat_mexp, [0, 1]⟩,
  ⟨.vml_exp, [.obj (.viewDense .vec) .d true, .obj (.viewDense .vec) .d false], .vmlmat_mexp, [0, 1]⟩,
  ⟨.vml_exp, [.obj (.viewDense .vec) .d true, .obj (.viewDense .mat) .d false], .vmlmat_mexp, [0, 1]⟩,
  ⟨.vml_exp, [.obj (.viewDense .vec) .d true, .obj (.viewDense .ten) .d false], .vmlmat_mexp, [0, 1]⟩,
  ⟨.vml_exp, [.obj (.viewDense .mat) .d true, .obj .dense .d false], .vmlmat_mexp, [0, 1]⟩,
  ⟨.vml_exp, [.obj (.viewDense .mat) .d true, .obj (.viewDense .vec) .d false], .vmlmat_mexp, [0, 1]⟩,
  ⟨.vml_exp, [.obj (.viewDense .mat) .d true, .obj (.viewDense .mat) .d false], .vmlmat_mexp, [0, 1]⟩,
  ⟨.vml_exp, [.obj (.viewDense .mat) .d true, .obj (.viewDense .ten) .d false], .vmlmat_mexp, [0, 1]⟩,
  ⟨.vml_exp, [.obj (.viewDense .ten) .d true, .obj .dense .d false], .vmlmat_mexp, [0, 1]⟩,
  ⟨.vml_exp, [.obj (.viewDense .ten) .d true, .obj (.viewDense .vec) .d false], .vmlmat_mexp, [0, 1]⟩,
  ⟨.vml_exp, [.obj (.viewDense .ten) .d true, .obj (.viewDense .mat) .d false], .vmlmat_mexp, [0, 1]⟩,
  ⟨.vml_exp, [.obj (.viewDense .ten) .d true, .obj (.viewDense .ten) .d false], .vmlmat_mexp, [0, 1]⟩,
  ⟨.vml_exp, [.obj .crs .s true, .obj .crs .s false], .vmlmat_mexp, [0, 1]⟩,
  ⟨.vml_exp, [.obj .dense .s true, .obj .dense .s false], .vmlmat_mexp, [0, 1]⟩,
  ⟨.vml_exp, [.obj .dense .s true, .obj (.viewDense .vec) .s false], .vmlmat_mexp, [0, 1]⟩,
  ⟨.vml_exp, [.obj .dense .s true, .obj (.viewDense .mat) .s false], .vmlmat_mexp, [0, 1]⟩,
  ⟨.vml_exp, [.obj .dense .s true, .obj (.viewDense .ten) .s false], .vmlmat_mexp, [0, 1]⟩,
  ⟨.vml_exp, [.obj (.viewDense .vec) .s true, .obj .dense .s false], .vmlmat_mexp, [0, 1]⟩,
  ⟨.vml_exp, [.obj (.viewDense .vec) .s true, .obj (.viewDense .vec) .s false], .vmlmat_mexp, [0, 1]⟩,
  ⟨.vml_exp, [.obj (.viewDense .vec) .s true, .obj (.viewDense .mat) .s false], .vmlmat_mexp, [0, 1]⟩,
  ⟨.vml_exp, [.obj (.viewDense .vec) .s true, .obj (.viewDense .ten) .s false], .vmlmat_mexp, [0, 1]⟩,
  ⟨.vml_exp, [.obj (.viewDense .mat) .s true, .obj .dense .s false], .vmlmat_mexp, [0, 1]⟩,
  ⟨.vml_exp, [.obj (.viewDense .mat) .s true, .obj (.viewDense .vec) .s false], .vmlmat_mexp, [0, 1]⟩,
  ⟨.vml_exp, [.obj (.viewDense .mat) .s true, .obj (.viewDense .mat) .s false], .vmlmat_mexp, [0, 1]⟩,
  ⟨.vml_exp, [.obj (.viewDense .mat) .s true, .obj (.viewDense .ten) .s false], .vmlmat_mexp, [0, 1]⟩,
  ⟨.vml_exp, [.obj (.viewDense .ten) .s true, .obj .dense .s false], .vmlmat_mexp, [0, 1]⟩,
  ⟨.vml_exp, [.obj (.viewDense .ten) .s true, .obj (.viewDense .vec) .s false], .vmlmat_mexp, [0, 1]⟩,
  ⟨.vml_exp, [.obj (.viewDense .ten) .s true, .obj (.viewDense .mat) .s false], .vmlmat_mexp, [0, 1]⟩,
  ⟨.vml_exp, [.obj (.viewDense .ten) .s true, .obj (.viewDense .ten) .s false], .vmlmat_mexp, [0, 1]⟩,
  ⟨.vml_max, [.obj .crs .d true, .obj .crs .d true, .obj .crs .d false], .vmlmat_mmmax, [0, 1, 2]⟩,
  ⟨.vml_max, [.obj .dense .d true, .obj .dense .d true, .obj .dense .d false], .vmlmat_mmmax, [0, 1, 2]⟩,
  ⟨.vml_max, [.obj .dense .d true, .obj .dense .d true, .obj (.viewDense .vec) .d false], .vmlmat_mmmax, [0, 1, 2]⟩,
  ⟨.vml_max, [.obj .dense .d true, .obj .dense .d true, .obj (.viewDense .mat) .d false], .vmlmat_mmmax, [0, 1, 2]⟩,
  ⟨.vml_max, [.obj .dense .d true, .obj .dense .d true, .obj (.viewDense .ten) .d false], .vmlmat_mmmax, [0, 1, 2]⟩,
  ⟨.vml_max, [.obj .dense .d true, .obj (.viewDense .vec) .d true, .obj .dense .d false], .vmlmat_mmmax, [0, 1, 2]⟩,
  ⟨.vml_max, [.obj .dense .d true, .obj (.viewDense .vec) .d true, .obj (.viewDense .vec) .d false], .vmlmat_mmmax, [0, 1, 2]⟩,
  ⟨.vml_max, [.obj .dense .d true, .obj (.viewDense .vec) .d true, .obj (.viewDense .mat) .d false], .vmlmat_mmmax, [0, 1, 2]⟩,
  ⟨.vml_max, [.obj .dense .d true, .obj (.viewDense .vec) .d true, .obj (.viewDense .ten) .d false], .vmlmat_mmmax, [0, 1, 2]⟩,
  ⟨.vml_max, [.obj .dense .d true, .obj (.viewDense .mat) .d true, .obj .dense .d false], .vmlmat_mmmax, [0, 1, 2]⟩,
  ⟨.vml_max, [.obj .dense .d true, .obj (.viewDense .mat) .d true, .obj (.viewDense .vec) .d false], .vmlmat_mmmax, [0, 1, 2]⟩,
  ⟨.vml_max, [.obj .dense .d true, .obj (.viewDense .mat) .d true, .obj (.viewDense .mat) .d false], .vmlmat_mmmax, [0, 1, 2]⟩,
  ⟨.vml_max, [.obj .dense .d true, .obj (.viewDense .mat) .d true, .obj (.viewDense .ten) .d false], .vmlmat_mmmax, [0, 1, 2]⟩,
  ⟨.vml_max, [.obj .dense .d true, .obj (.viewDense .ten) .d true, .obj .dense .d false], .vmlmat_mmmax, [0, 1, 2]⟩,
  ⟨.vml_max, [.obj .dense .d true, .obj (.viewDense .ten) .d true, .obj (.viewDense .vec) .d false], .vmlmat_mmmax, [0, 1, 2]⟩,
  ⟨.vml_max, [.obj .dense .d true, .obj (.viewDense .ten) .d true, .obj (.viewDense .mat) .d false], .vmlmat_mmmax, [0, 1, 2]⟩,
  ⟨.vml_max, [.obj .dense .d true, .obj (.viewDense .ten) .d true, .obj (.viewDense .ten) .d false], .vmlmat_mmmax, [0, 1, 2]⟩,
  ⟨.vml_max, [.obj (.viewDense .vec) .d true, .obj .dense .d true, .obj .dense .d false], .vmlmat_mmmax, [0, 1, 2]⟩,
  ⟨.vml_max, [.obj (.viewDense .vec) .d true, .obj .dense .d true, .obj (.viewDense .vec) .d false], .vmlmat_mmmax, [0, 1, 2]⟩,
  ⟨.vml_max, [.obj (.viewDense .vec) .d true, .obj .dense .d true, .obj (.viewDense .mat) .d false], .vmlmat_mmmax, [0, 1, 2]⟩,
  ⟨.vml_max, [.obj (.viewDense .vec) .d true, .obj .dense .d true, .obj (.viewDense .ten) .d false], .vmlmat_mmmax, [0, 1, 2]⟩,
  ⟨.vml_max, [.obj (.viewDense .vec) .d true, .obj (.viewDense .vec) .d true, .obj .dense .d false], .vmlmat_mmmax, [0, 1, 2]⟩,
  ⟨.vml_max, [.obj (.viewDense .vec) .d true, .obj (.viewDense .vec) .d true, .obj (.viewDense .vec) .d false], .vmlmat_mmmax, [0, 1, 2]⟩,
  ⟨.vml_max, [.obj (.viewDense .vec) .d true, .obj (.viewDense .vec) .d true, .obj (.viewDense .mat) .d false], .vmlmat_mmmax, [0, 1, 2]⟩,
  ⟨.vml_max, [.obj (.viewDense .vec) .d true, .obj (.viewDense .vec) .d true, .obj (.viewDense .ten) .d false], .vmlmat_mmmax, [0, 1, 2]⟩,
  ⟨.vml_max, [.obj (.viewDense .vec) .d true, .obj (.viewDense .mat) .d true, .obj .dense .d false], .vmlmat_mmmax, [0, 1, 2]⟩,
  ⟨.vml_max, [.obj (.viewDense .vec) .d true, .obj (.viewDense .mat) .d true, .obj (.viewDense .vec) .d false], .vmlmat_mmmax, [0, 1, 2]⟩,
  ⟨.vml_max, [.obj (.viewDense .vec) .d true, .obj (.viewDense .mat) .d true, .obj (.viewDense .mat) .d false], .vmlmat_mmmax, [0, 1, 2]⟩,
  ⟨.vml_max, [.obj (.viewDense .vec) .d true, .obj (.viewDense .mat) .d true, .obj (.viewDense .ten) .d false], .vmlmat_mmmax, [0, 1, 2]⟩,
  ⟨.vml_max, [.obj (.viewDense .vec) .d true, .obj (.viewDense .ten) .d true, .obj .dense .d false], .vmlmat_mmmax, [0, 1, 2]⟩]

/-- src/vml/matrix/matrix_vml.cpp:5965-6350 -/
def tVmlMat_17 : List Overload := [
  ⟨.vml_max, [.obj (.viewDense .vec) .d true, .obj (.viewDense .ten) .d true, .obj (.viewDense .vec) .d false], .vmlmat_mmmax, [0, 1, 2]⟩,
  ⟨.vml_max, [.obj (.viewDense .vec) .d true, .obj (.viewDense .ten) .d true, .obj (.viewDense .mat) .d false], .vmlmat_mmmax, [0, 1, 2]⟩,
  ⟨.vml_max, [.obj (.viewDense .vec) .d true, .obj (.viewDense .ten) .d true, .obj (.viewDense .ten) .d false], .vmlmat_mmmax, [0, 1, 2]⟩,
  ⟨.vml_max, [.obj (.viewDense .mat) .d true, .obj .dense .d true, .obj .dense .d false], .vmlmat_mmmax, [0, 1, 2]⟩,
  ⟨.vml_max, [.obj (.viewDense .mat) .d true, .obj .dense .d true, .obj (.viewDense .vec) .d false], .vmlmat_mmmax, [0, 1, 2]⟩,
  ⟨.vml_max, [.obj (.viewDense .mat) .d true, .obj .dense .d true, .obj (.viewDense .mat) .d false], .vmlmat_mmmax, [0, 1, 2]⟩,
  ⟨.vml_max, [.obj (.viewDense .mat) .d true, .obj .dense .d true, .obj (.viewDense .ten) .d false], .vmlmat_mmmax, [0, 1, 2]⟩,
  ⟨.vml_max, [.obj (.viewDense .mat) .d true, .obj (.viewDense .vec) .d true, .obj .dense .d false], .vmlmat_mmmax, [0, 1, 2]⟩,
  ⟨.vml_max, [.obj (.viewDense .mat) .d true, .obj (.viewDense .vec) .d true, .obj (.viewDense .vec) .d false], .vmlmat_mmmax, [0, 1, 2]⟩,
  ⟨.vml_max, [.obj (.viewDense .mat) .d true, .obj (.viewDense .vec) .d true, .obj (.viewDense .mat) .d false], .vmlmat_mmmax, [0, 1, 2]⟩,
  ⟨.vml_max, [.obj (.viewDense .mat) .d true, .obj (.viewDense .vec) .d true, .obj (.viewDense .ten) .d false], .vmlmat_mmmax, [0, 1, 2]⟩,
  ⟨.vml_max, [.obj (.viewDense .mat) .d true, .obj (.viewDense .mat) .d true, .obj .dense .d false], .vmlmat_mmmax, [0, 1, 2]⟩,
  ⟨.vml_max, [.obj (.viewDense .mat) .d true, .obj (.viewDense .mat) .d true, .obj (.viewDense .vec) .d false], .vmlmat_mmmax, [0, 1, 2]⟩,
  ⟨.vml_max, [.obj (.viewDense .mat) .d true, .obj (.viewDense .mat) .d true, .obj (.viewDense .mat) .d false], .vmlmat_mmmax, [0, 1, 2]⟩,
  ⟨.vml_max, [.obj (.viewDense .mat) .d true, .obj (.viewDense .mat) .d true, .obj (.viewDense .ten) .d false], .vmlmat_mmmax, [0, 1, 2]⟩,
  ⟨.vml_max, [.obj (.viewDense .mat) .d true, .obj (.viewDense .ten) .d true, .obj .dense .d false], .vmlmat_mmmax, [0, 1, 2]⟩,
  ⟨.vml_max, [.obj (.viewDense .mat) .d true, .obj (.viewDense .ten) .d true, .obj (.viewDense .vec) .d false], .vmlmat_mmmax, [0, 1, 2]⟩,
  ⟨.vml_max, [.obj (.viewDense .mat) .d true, .obj (.viewDense .ten) .d true, .obj (.viewDense .mat) .d false], .vmlmat_mmmax, [0, 1, 2]⟩,
  ⟨.vml_max, [.obj (.viewDense .mat) .d true, .obj (.viewDense .ten) .d true, .obj (.viewDense .ten) .d false], .vmlmat_mmmax, [0, 1, 2]⟩,
  ⟨.vml_max, [.obj (.viewDense .ten) .d true, .obj .dense .d true, .obj .dense .d false], .vmlmat_mmmax, [0, 1, 2]⟩,
  ⟨.vml_max, [.obj (.viewDense .ten) .d true, .obj .dense .d true, .obj (.viewDense .vec) .d false], .vmlmat_mmmax, [0, 1, 2]⟩,
  ⟨.vml_max, [.obj (.viewDense .ten) .d true, .obj .dense .d true, .obj (.viewDense .mat) .d false], .vmlmat_mmmax, [0, 1, 2]⟩,
  ⟨.vml_max, [.obj (.viewDense .ten) .d true, .obj .dense .d true, .obj (.viewDense .ten) .d false], .vmlmat_mmmax, [0, 1, 2]⟩,
  ⟨.vml_max, [.obj (.viewDense .ten) .d true, .obj (.viewDense .vec) .d true, .obj .dense .d false], .vmlmat_mmmax, [0, 1, 2]⟩,
  ⟨.vml_max, [.obj (.viewDense .ten) .d true, .obj (.viewDense .vec) .d true, .obj (.viewDense .vec) .d false], .vmlmat_mmmax, [0, 1, 2]⟩,
  ⟨.vml_max, [.obj (.viewDense .ten) .d true, .obj (.viewDense .vec) .d true, .obj (.viewDense .mat) .d false], .vmlmat_mmmax, [0, 1, 2]⟩,
  ⟨.vml_max, [.obj (.viewDense .ten) .d true, .obj (.viewDense .vec) .d true, .obj (.viewDense .ten) .d false], .vmlmat_mmmax, [0, 1, 2]⟩,
  ⟨.vml_max, [.obj (.viewDense .ten) .d true, .obj (.viewDense .mat) .d true, .obj .dense .d false], .vmlmat_mmmax, [0, 1, 2]⟩,
  ⟨.vml_max, [.obj (.viewDense .ten) .d true, .obj (.viewDense .mat) .d true, .obj (.viewDense .vec) .d false], .vmlmat_mmmax, [0, 1, 2]⟩,
  ⟨.vml_max, [.obj (.viewDense .ten) .d true, .obj (.viewDense .mat) .d true, .obj (.viewDense .mat) .d false], .vmlmat_mmmax, [0, 1, 2]⟩,
  ⟨.vml_max, [.obj (.viewDense .ten) .d true, .obj (.viewDense .mat) .d true, .obj (.viewDense .ten) .d false], .vmlmat_mmmax, [0, 1, 2]⟩,
  ⟨.vml_max, [.obj (.viewDense .ten) .d true, .obj (.viewDense .ten) .d true, .obj .dense .d false], .vmlmat_mmmax, [0, 1, 2]⟩,
  ⟨.vml_max, [.obj (.viewDense .ten) .d true, .obj (.viewDense .ten) .d true, .obj (.viewDense .vec) .d false], .vmlmat_mmmax, [0, 1, 2]⟩,
  ⟨.vml_max, [.obj (.viewDense .ten) .d true, .obj (.viewDense .ten) .d true, .obj (.viewDense .mat) .d false], .vmlmat_mmmax, [0, 1, 2]⟩,
  ⟨.vml_max, [.obj (.viewDense .ten) .d true, .obj (.viewDense .ten) .d true, .obj (.viewDense .ten) .d false], .vmlmat_mmmax, [0, 1, 2]⟩,
  ⟨.vml_max, [.obj .crs .s true, .obj .crs .s true, .obj .crs .s false], .vmlmat_mmmax, [0, 1, 2]⟩,
  ⟨.vml_max, [.obj .dense .s true, .obj .dense .s true, .obj .dense .s false], .vmlmat_mmmax, [0, 1, 2]⟩,
  ⟨.vml_max, [.obj .dense .s true, .obj .dense .s true, .obj (.viewDense .vec) .s false], .vmlmat_mmmax, [0, 1, 2]⟩,
  ⟨.vml_max, [.obj .dense .s true, .obj .dense .s true, .obj (.viewDense .mat) .s false], .vmlmat_mmmax, [0, 1, 2]⟩,
  ⟨.vml_max, [.obj .dense .s true, .obj .dense .s true, .obj (.viewDense .ten) .s false], .vmlmat_mmmax, [0, 1, 2]⟩,
  ⟨.vml_max, [.obj .dense .s true, .obj (.viewDense .vec) .s true, .obj .dense .s false], .vmlmat_mmmax, [0, 1, 2]⟩,
  ⟨.vml_max, [.obj .dense .s true, .obj (.viewDense .vec) .s true, .obj (.viewDense .vec) .s false], .vmlmat_mmmax, [0, 1, 2]⟩,
  ⟨.vml_max, [.obj .dense .s true, .obj (.viewDense .vec) .s true, .obj (.viewDense .mat) .s false], .vmlmat_mmmax, [0, 1, 2]⟩,
  ⟨.vml_max, [.obj .dense .s true, .obj (.viewDense .vec) .s true, .obj (.viewDense .ten) .s false], .vmlmat_mmmax, [0, 1, 2]⟩,
  ⟨.vml_max, [.obj .dense .s true, .obj (.viewDense .mat) .s true, .obj .dense .s false], .vmlmat_mmmax, [0, 1, 2]⟩,
  ⟨.vml_max, [.obj .dense .s true, .obj (.viewDense .mat) .s true, .obj (.viewDense .vec) .s false], .vmlmat_mmmax, [0, 1, 2]⟩,
  ⟨.vml_max, [.obj .dense .s true, .obj (.viewDense .mat) .s true, .obj (.viewDense .mat) .s false], .vmlmat_mmmax, [0, 1, 2]⟩,
  ⟨.vml_max, [.obj .dense .s true, .obj (.viewDense .mat) .s true, .obj (.viewDense .ten) .s false], .vmlmat_mmmax, [0, 1, 2]⟩,
  ⟨.vml_max, [.obj .dense .s true, .obj (.viewDense .ten) .s true, .obj .dense .s false], .vmlmat_mmmax, [0, 1, 2]⟩,
  ⟨.vml_max, [.obj .dense .s true, .obj (.viewDense .ten) .s true, .obj (.viewDense .vec) .s false], .vmlmat_mmmax, [0, 1, 2]⟩,
  ⟨.vml_max, [.obj .dense .s true, .obj (.viewDense .ten) .s true, .obj (.viewDense .mat) .s false], .vmlmat_mmmax, [0, 1, 2]⟩,
  ⟨.vml_max, [.obj .dense .s true, .obj (.viewDense .ten) .s true, .obj (.viewDense .ten) .s false], .vmlmat_mmmax, [0, 1, 2]⟩,
  ⟨.vml_max, [.obj (.viewDense .vec) .s true, .obj .dense .s true, .obj .dense .s false], .vmlmat_mmmax, [0, 1, 2]⟩,
  ⟨.vml_max, [.obj (.viewDense .vec) .s true, .obj .dense .s true, .obj (.viewDense .vec) .s false], .vmlmat_mmmax, [0, 1, 2]⟩,
  ⟨.vml_max, [.obj (.viewDense .vec) .s true, .obj .dense .s true, .obj (.viewDense .mat) .s false], .vmlmat_mmmax, [0, 1, 2]⟩,
  ⟨.vml_max, [.obj (.viewDense .vec) .s true, .obj .dense .s true, .obj (.viewDense .ten) .s false], .vmlmat_mmmax, [0, 1, 2]⟩,
  ⟨.vml_max, [.obj (.viewDense .vec) .s true, .obj (.viewDense .vec) .s true, .obj .dense .s false], .vmlmat_mmmax, [0, 1, 2]⟩,
  ⟨.vml_max, [.obj (.viewDense .vec) .s true, .obj (.viewDense .vec) .s true, .obj (.viewDense .vec) .s false], .vmlmat_mmmax, [0, 1, 2]⟩,
  ⟨.vml_max, [.obj (.viewDense .vec) .s true, .obj (.viewDense .vec) .s true, .obj (.viewDense .mat) .s false], .vmlmat_mmmax, [0, 1, 2]⟩,
  ⟨.vml_max, [.obj (.viewDense .vec) .s true, .obj (.viewDense .vec) .s true, .obj (.viewDense .ten) .s false], .vmlmat_mmmax, [0, 1, 2]⟩,
  ⟨.vml_max, [.obj (.viewDense .vec) .s true, .obj (.viewDense .mat) .s true, .obj .dense .s false], .vmlmat_mmmax, [0, 1, 2]⟩,
  ⟨.vml_max, [.obj (.viewDense .vec) .s true, .obj (.viewDense .mat) .s true, .obj (.viewDense .vec) .s false], .vmlmat_mmmax, [0, 1, 2]⟩,
  ⟨.vml_max, [.obj (.viewDense .vec) .s true, .obj (.viewDense .mat) .s true, .obj (.viewDense .mat) .s false], .vmlmat_mmmax, [0, 1, 2]⟩,
  ⟨.vml_max, [.obj (.viewDense .vec) .s true, .obj (.viewDense .mat) .s true, .obj (.viewDense .ten) .s false], .vmlmat_mmmax, [0, 1, 2]⟩,
  ⟨.vml_max, [.obj (.viewDense .vec) .s true, .obj (.viewDense .ten) .s true, .obj .dense .s false], .vmlmat_mmmax, [0, 1, 2]⟩,
  ⟨.vml_max, [.obj (.viewDense .vec) .s true, .obj (.viewDense .ten) .s true, .obj (.viewDense .vec) .s false], .vmlmat_mmmax, [0, 1, 2]⟩,
  ⟨.vml_max, [.obj (.viewDense .vec) .s true, .obj (.viewDense .ten) .s true, .obj (.viewDense .mat) .s false], .vmlmat_mmmax, [0, 1, 2]⟩,
  ⟨.vml_max, [.obj (.viewDense .vec) .s true, .obj (.viewDense .ten) .s true, .obj (.viewDense .ten) .s false], .vmlmat_mmmax, [0, 1, 2]⟩,
  ⟨.vml_max, [.obj (.viewDense .mat) .s true, .obj .dense .s true, .obj .dense .s false], .vmlmat_mmmax, [0, 1, 2]⟩,
  ⟨.vml_max, [.obj (.viewDense .mat) .s true, .obj .dense .s true, .obj (.viewDense .vec) .s false], .vmlmat_mmmax, [0, 1, 2]⟩,
  ⟨.vml_max, [.obj (.viewDense .mat) .s true, .obj .dense .s true, .obj (.viewDense .mat) .s false], .vmlmat_mmmax, [0, 1, 2]⟩,
  ⟨.vml_max, [.obj (.viewDense .mat) .s true, .obj .dense .s true, .obj (.viewDense .ten) .s false], .vmlmat_mmmax, [0, 1, 2]⟩,
  ⟨.vml_max, [.obj (.viewDense .mat) .s true, .obj (.viewDense .vec) .s true, .obj .dense .s false], .vmlmat_mmmax, [0, 1, 2]⟩,
  ⟨.vml_max, [.obj (.viewDense .mat) .s true, .obj (.viewDense .vec) .s true, .obj (.viewDense .vec) .s false], .vmlmat_mmmax, [0, 1, 2]⟩,
  ⟨.vml_max, [.obj (.viewDense .mat) .s true, .obj (.viewDense .vec) .s true, .obj (.viewDense .mat) .s false], .vmlmat_mmmax, [0, 1, 2]⟩,
  ⟨.vml_max, [.obj (.viewDense .mat) .s true, .obj (.viewDense .vec) .s true, .obj (.viewDense .ten) .s false], .vmlmat_mmmax, [0, 1, 2]⟩,
  ⟨.vml_max, [.obj (.viewDense .mat) .s true, .obj (.viewDense .mat) .s true, .obj .dense .s false], .vmlmat_mmmax, [0, 1, 2]⟩,
  ⟨.vml_max, [.obj (.viewDense .mat) .s true, .obj (.viewDense .mat) .s true, .obj (.viewDense .vec) .s false], .vmlmat_mmmax, [0, 1, 2]⟩,
  ⟨.vml_max, [.obj (.viewDense .mat) .s true, .obj (.viewDense .mat) .s true, .obj (.viewDense .mat) .s false], .vmlmat_mmmax, [0, 1, 2]⟩,
  ⟨.vml_max, [.obj (.viewDense .mat) .s true, .obj (.viewDense .mat) .s true, .obj (.viewDense .ten) .s false], .vmlmat_mmmax, [0, 1, 2]⟩]

/-- src/vml/matrix/matrix_vml.cpp:6351-6739 -/
def tVmlMat_18 : List Overload := [
  ⟨.vml_max, [.obj (.viewDense .mat) .s true, .obj (.viewDense .ten) .s true, .obj .dense .s false], .vmlmat_mmmax, [0, 1, 2]⟩,
  ⟨.vml_max, [.obj (.viewDense .mat) .s true, .obj (.viewDense .ten) .s true, .obj (.viewDense .vec) .s false], .vmlmat_mmmax, [0, 1, 2]⟩,
  ⟨.vml_max, [.obj (.viewDense .mat) .s true, .obj (.viewDense .ten) .s true, .obj (.viewDense .mat) .s false], .vmlmat_mmmax, [0, 1, 2]⟩,
  ⟨.vml_max, [.obj (.viewDense .mat) .s true, .obj (.viewDense .ten) .s true, .obj (.viewDense .ten) .s false], .vmlmat_mmmax, [0, 1, 2]⟩,
  ⟨.vml_max, [.obj (.viewDense .ten) .s true, .obj .dense .s true, .obj .dense .s false], .vmlmat_mmmax, [0, 1, 2]⟩,
  ⟨.vml_max, [.obj (.viewDense .ten) .s true, .obj .dense .s true, .obj (.viewDense .vec) .s false], .vmlmat_mmmax, [0, 1, 2]⟩,
  ⟨.vml_max, [.obj (.viewDense .ten) .s true, .obj .dense .s true, .obj (.viewDense .mat) .s false], .vmlmat_mmmax, [0, 1, 2]⟩,
  ⟨.vml_max, [.obj (.viewDense .ten) .s true, .obj .dense .s true, .obj (.viewDense .ten) .s false], .vmlmat_mmmax, [0, 1, 2]⟩,
  ⟨.vml_max, [.obj (.viewDense .ten) .s true, .obj (.viewDense .vec) .s true, .obj .dense .s false], .vmlmat_mmmax, [0, 1, 2]⟩,
  ⟨.vml_max, [.obj (.viewDense .ten) .s true, .obj (.viewDense .vec) .s true, .obj (.viewDense .vec) .s false], .vmlmat_mmmax, [0, 1, 2]⟩,
  ⟨.vml_max, [.obj (.viewDense .ten) .s true, .obj (.viewDense .vec) .s true, .obj (.viewDense .mat) .s false], .vmlmat_mmmax, [0, 1, 2]⟩,
  ⟨.vml_max, [.obj (.viewDense .ten) .s true, .obj (.viewDense .vec) .s true, .obj (.viewDense .ten) .s false], .vmlmat_mmmax, [0, 1, 2]⟩,
  ⟨.vml_max, [.obj (.viewDense .ten) .s true, .obj (.viewDense .mat) .s true, .obj .dense .s false], .vmlmat_mmmax, [0, 1, 2]⟩,
  ⟨.vml_max, [.obj (.viewDense .ten) .s true, .obj (.viewDense .mat) .s true, .obj (.viewDense .vec) .s false], .vmlmat_mmmax, [0, 1, 2]⟩,
  ⟨.vml_max, [.obj (.viewDense .ten) .s true, .obj (.viewDense .mat) .s true, .obj (.viewDense .mat) .s false], .vmlmat_mmmax, [0, 1, 2]⟩,
  ⟨.vml_max, [.obj (.viewDense .ten) .s true, .obj (.viewDense .mat) .s true, .obj (.viewDense .ten) .s false], .vmlmat_mmmax, [0, 1, 2]⟩,
  ⟨.vml_max, [.obj (.viewDense .ten) .s true, .obj (.viewDense .ten) .s true, .obj .dense .s false], .vmlmat_mmmax, [0, 1, 2]⟩,
  ⟨.vml_max, [.obj (.viewDense .ten) .s true, .obj (.viewDense .ten) .s true, .obj (.viewDense .vec) .s false], .vmlmat_mmmax, [0, 1, 2]⟩,
  ⟨.vml_max, [.obj (.viewDense .ten) .s true, .obj (.viewDense .ten) .s true, .obj (.viewDense .mat) .s false], .vmlmat_mmmax, [0, 1, 2]⟩,
  ⟨.vml_max, [.obj (.viewDense .ten) .s true, .obj (.viewDense .ten) .s true, .obj (.viewDense .ten) .s false], .vmlmat_mmmax, [0, 1, 2]⟩,
  ⟨.vml_min, [.obj .crs .d true, .obj .crs .d true, .obj .crs .d false], .vmlmat_mmmin, [0, 1, 2]⟩,
  ⟨.vml_min, [.obj .dense .d true, .obj .dense .d true, .obj .dense .d false], .vmlmat_mmmin, [0, 1, 2]⟩,
  ⟨.vml_min, [.obj .dense .d true, .obj .dense .d true, .obj (.viewDense .vec) .d false], .vmlmat_mmmin, [0, 1, 2]⟩,
  ⟨.vml_min, [.obj .dense .d true, .obj .dense .d true, .obj (.viewDense .mat) .d false], .vmlmat_mmmin, [0, 1, 2]⟩,
  ⟨.vml_min, [.obj .dense .d true, .obj .dense .d true, .obj (.viewDense .ten) .d false], .vmlmat_mmmin, [0, 1, 2]⟩,
  ⟨.vml_min, [.obj .dense .d true, .obj (.viewDense .vec) .d true, .obj .dense .d false], .vmlmat_mmmin, [0, 1, 2]⟩,
  ⟨.vml_min, [.obj .dense .d true, .obj (.viewDense .vec) .d true, .obj (.viewDense .vec) .d false], .vmlmat_mmmin, [0, 1, 2]⟩,
  ⟨.vml_min, [.obj .dense .d true, .obj (.viewDense .vec) .d true, .obj (.viewDense .mat) .d false], .vmlmat_mmmin, [0, 1, 2]⟩,
  ⟨.vml_min, [.obj .dense .d true, .obj (.viewDense .vec) .d true, .obj (.viewDense .ten) .d false], .vmlmat_mmmin, [0, 1, 2]⟩,
  ⟨.vml_min, [.obj .dense .d true, .obj (.viewDense .mat) .d true, .obj .dense .d false], .vmlmat_mmmin, [0, 1, 2]⟩,
  ⟨.vml_min, [.obj .dense .d true, .obj (.viewDense .mat) .d true, .obj (.viewDense .vec) .d false], .vmlmat_mmmin, [0, 1, 2]⟩,
  ⟨.vml_min, [.obj .dense .d true, .obj (.viewDense .mat) .d true, .obj (.viewDense .mat) .d false], .vmlmat_mmmin, [0, 1, 2]⟩,
  ⟨.vml_min, [.obj .dense .d true, .obj (.viewDense .mat) .d true, .obj (.viewDense .ten) .d false], .vmlmat_mmmin, [0, 1, 2]⟩,
  ⟨.vml_min, [.obj .dense .d true, .obj (.viewDense .ten) .d true, .obj .dense .d false], .vmlmat_mmmin, [0, 1, 2]⟩,
  ⟨.vml_min, [.obj .dense .d true, .obj (.viewDense .ten) .d true, .obj (.viewDense .vec) .d false], .vmlmat_mmmin, [0, 1, 2]⟩,
  ⟨.vml_min, [.obj .dense .d true, .obj (.viewDense .ten) .d true, .obj (.viewDense .mat) .d false], .vmlmat_mmmin, [0, 1, 2]⟩,
  ⟨.vml_min, [.obj .dense .d true, .obj (.viewDense .ten) .d true, .obj (.viewDense .ten) .d false], .vmlmat_mmmin, [0, 1, 2]⟩,
  ⟨.vml_min, [.obj (.viewDense .vec) .d true, .obj .dense .d true, .obj .dense .d false], .vmlmat_mmmin, [0, 1, 2]⟩,
  ⟨.vml_min, [.obj (.viewDense .vec) .d true, .obj .dense .d true, .obj (.viewDense .vec) .d false], .vmlmat_mmmin, [0, 1, 2]⟩,
  ⟨.vml_min, [.obj (.viewDense .vec) .d true, .obj .dense .d true, .obj (.viewDense .mat) .d false], .vmlmat_mmmin, [0, 1, 2]⟩,
  ⟨.vml_min, [.obj (.viewDense .vec) .d true, .obj .dense .d true, .obj (.viewDense .ten) .d false], .vmlmat_mmmin, [0, 1, 2]⟩,
  ⟨.vml_min, [.obj (.viewDense .vec) .d true, .obj (.viewDense .vec) .d true, .obj .dense .d false], .vmlmat_mmmin, [0, 1, 2]⟩,
  ⟨.vml_min, [.obj (.viewDense .vec) .d true, .obj (.viewDense .vec) .d true, .obj (.viewDense .vec) .d false], .vmlmat_mmmin, [0, 1, 2]⟩,
  ⟨.vml_min, [.obj (.viewDense .vec) .d true, .obj (.viewDense .vec) .d true, .obj (.viewDense .mat) .d false], .vmlmat_mmmin, [0, 1, 2]⟩,
  ⟨.vml_min, [.obj (.viewDense .vec) .d true, .obj (.viewDense .vec) .d true, .obj (.viewDense .ten) .d false], .vmlmat_mmmin, [0, 1, 2]⟩,
  ⟨.vml_min, [.obj (.viewDense .vec) .d true, .obj (.viewDense .mat) .d true, .obj .dense .d false], .vmlmat_mmmin, [0, 1, 2]⟩,
  ⟨.vml_min, [.obj (.viewDense .vec) .d true, .obj (.viewDense .mat) .d true, .obj (.viewDense .vec) .d false], .vmlmat_mmmin, [0, 1, 2]⟩,
  ⟨.vml_min, [.obj (.viewDense .vec) .d true, .obj (.viewDense .mat) .d true, .obj (.viewDense .mat) .d false], .vmlmat_mmmin, [0, 1, 2]⟩,
  ⟨.vml_min, [.obj (.viewDense .vec) .d true, .obj (.viewDense .mat) .d true, .obj (.viewDense .ten) .d false], .vmlmat_mmmin, [0, 1, 2]⟩,
  ⟨.vml_min, [.obj (.viewDense .vec) .d true, .obj (.viewDense .ten) .d true, .obj .dense .d false], .vmlmat_mmmin, [0, 1, 2]⟩,
  ⟨.vml_min, [.obj (.viewDense .vec) .d true, .obj (.viewDense .ten) .d true, .obj (.viewDense .vec) .d false], .vmlmat_mmmin, [0, 1, 2]⟩,
  ⟨.vml_min, [.obj (.viewDense .vec) .d true, .obj (.viewDense .ten) .d true, .obj (.viewDense .mat) .d false], .vmlmat_mmmin, [0, 1, 2]⟩,
  ⟨.vml_min, [.obj (.viewDense .vec) .d true, .obj (.viewDense .ten) .d true, .obj (.viewDense .ten) .d false], .vmlmat_mmmin, [0, 1, 2]⟩,
  ⟨.vml_min, [.obj (.viewDense .mat) .d true, .obj .dense .d true, .obj .dense .d false], .vmlmat_mmmin, [0, 1, 2]⟩,
  ⟨.vml_min, [.obj (.viewDense .mat) .d true, .obj .dense .d true, .obj (.viewDense .vec) .d false], .vmlmat_mmmin, [0, 1, 2]⟩,
  ⟨.vml_min, [.obj (.viewDense .mat) .d true, .obj .dense .d true, .obj (.viewDense .mat) .d false], .vmlmat_mmmin, [0, 1, 2]⟩,
  ⟨.vml_min, [.obj (.viewDense .mat) .d true, .obj .dense .d true, .obj (.viewDense .ten) .d false], .vmlmat_mmmin, [0, 1, 2]⟩,
  ⟨.vml_min, [.obj (.viewDense .mat) .d true, .obj (.viewDense .vec) .d true, .obj .dense .d false], .vmlmat_mmmin, [0, 1, 2]⟩,
  ⟨.vml_min, [.obj (.viewDense .mat) .d true, .obj (.viewDense .vec) .d true, .obj (.viewDense .vec) .d false], .vmlmat_mmmin, [0, 1, 2]⟩,
  ⟨.vml_min, [.obj (.viewDense .mat) .d true, .obj (.viewDense .vec) .d true, .obj (.viewDense .mat) .d false], .vmlmat_mmmin, [0, 1, 2]⟩,
  ⟨.vml_min, [.obj (.viewDense .mat) .d true, .obj (.viewDense .vec) .d true, .obj (.viewDense .ten) .d false], .vmlmat_mmmin, [0, 1, 2]⟩,
  ⟨.vml_min, [.obj (.viewDense .mat) .d true, .obj (.viewDense .mat) .d true, .obj .dense .d false], .vmlmat_mmmin, [0, 1, 2]⟩,
  ⟨.vml_min, [.obj (.viewDense .mat) .d true, .obj (.viewDense .mat) .d true, .obj (.viewDense .vec) .d false], .vmlmat_mmmin, [0, 1, 2]⟩,
  ⟨.vml_min, [.obj (.viewDense .mat) .d true, .obj (.viewDense .mat) .d true, .obj (.viewDense .mat) .d false], .vmlmat_mmmin, [0, 1, 2]⟩,
  ⟨.vml_min, [.obj (.viewDense .mat) .d true, .obj (.viewDense .mat) .d true, .obj (.viewDense .ten) .d false], .vmlmat_mmmin, [0, 1, 2]⟩,
  ⟨.vml_min, [.obj (.viewDense .mat) .d true, .obj (.viewDense .ten) .d true, .obj .dense .d false], .vmlmat_mmmin, [0, 1, 2]⟩,
  ⟨.vml_min, [.obj (.viewDense .mat) .d true, .obj (.viewDense .ten) .d true, .obj (.viewDense .vec) .d false], .vmlmat_mmmin, [0, 1, 2]⟩,
  ⟨.vml_min, [.obj (.viewDense .mat) .d true, .obj (.viewDense .ten) .d true, .obj (.viewDense .mat) .d false], .vmlmat_mmmin, [0, 1, 2]⟩,
  ⟨.vml_min, [.obj (.viewDense .mat) .d true, .obj (.viewDense .ten) .d true, .obj (.viewDense .ten) .d false], .vmlmat_mmmin, [0, 1, 2]⟩,
  ⟨.vml_min, [.obj (.viewDense .ten) .d true, .obj .dense .d true, .obj .dense .d false], .vmlmat_mmmin, [0, 1, 2]⟩,
  ⟨.vml_min, [.obj (.viewDense .ten) .d true, .obj .dense .d true, .obj (.viewDense .vec) .d false], .vmlmat_mmmin, [0, 1, 2]⟩,
  ⟨.vml_min, [.obj (.viewDense .ten) .d true, .obj .dense .d true, .obj (.viewDense .mat) .d false], .vmlmat_mmmin, [0, 1, 2]⟩,
  ⟨.vml_min, [.obj (.viewDense .ten) .d true, .obj .dense .d true, .obj (.viewDense .ten) .d false], .vmlmat_mmmin, [0, 1, 2]⟩,
  ⟨.vml_min, [.obj (.viewDense .ten) .d true, .obj (.viewDense .vec) .d true, .obj .dense .d false], .vmlmat_mmmin, [0, 1, 2]⟩,
  ⟨.vml_min, [.obj (.viewDense .ten) .d true, .obj (.viewDense .vec) .d true, .obj (.viewDense .vec) .d false], .vmlmat_mmmin, [0, 1, 2]⟩,
  ⟨.vml_min, [.obj (.viewDense .ten) .d true, .obj (.viewDense .vec) .d true, .obj (.viewDense .mat) .d false], .vmlmat_mmmin, [0, 1, 2]⟩,
  ⟨.vml_min, [.obj (.viewDense .ten) .d true, .obj (.viewDense .vec) .d true, .obj (.viewDense .ten) .d false], .vmlmat_mmmin, [0, 1, 2]⟩,
  ⟨.vml_min, [.obj (.viewDense .ten) .d true, .obj (.viewDense .mat) .d true, .obj .dense .d false], .vmlmat_mmmin, [0, 1, 2]⟩,
  ⟨.vml_min, [.obj (.viewDense .ten) .d true, .obj (.viewDense .mat) .d true, .obj (.viewDense .vec) .d false], .vmlmat_mmmin, [0, 1, 2]⟩,
  ⟨.vml_min, [.obj (.viewDense .ten) .d true, .obj (.viewDense .mat) .d true, .obj (.viewDense .mat) .d false], .vmlmat_mmmin, [0, 1, 2]⟩]

/-- src/vml/matrix/matrix_vml.cpp:6740-7115 -/
def tVmlMat_19 : List Overload := [
  ⟨.vml_min, [.obj (.viewDense .ten) .d true, .obj (.viewDense .mat) .d true, .obj (.viewDense .ten) .d false], .vmlmat_mmmin, [0, 1, 2]⟩,
  ⟨.vml_min, [.obj (.viewDense .ten) .d true, .obj (.viewDense .ten) .d true, .obj .dense .d false], .vmlmat_mmmin, [0, 1, 2]⟩,
  ⟨.vml_min, [.obj (.viewDense .ten) .d true, .obj (.viewDense .ten) .d true, .obj (.viewDense .vec) .d false], .vmlmat_mmmin, [0, 1, 2]⟩,
  ⟨.vml_min, [.obj (.viewDense .ten) .d true, .obj (.viewDense .ten) .d true, .obj (.viewDense .mat) .d false], .vmlmat_mmmin, [0, 1, 2]⟩,
  ⟨.vml_min, [.obj (.viewDense .ten) .d true, .obj (.viewDense .ten) .d true, .obj (.viewDense .ten) .d false], .vmlmat_mmmin, [0, 1, 2]⟩,
  ⟨.vml_min, [.obj .crs .s true, .obj .crs .s true, .obj .crs .s false], .vmlmat_mmmin, [0, 1, 2]⟩,
  ⟨.vml_min, [.obj .dense .s true, .obj .dense .s true, .obj .dense .s false], .vmlmat_mmmin, [0, 1, 2]⟩,
  ⟨.vml_min, [.obj .dense .s true, .obj .dense .s true, .obj (.viewDense .vec) .s false], .vmlmat_mmmin, [0, 1, 2]⟩,
  ⟨.vml_min, [.obj .dense .s true, .obj .dense .s true, .obj (.viewDense .mat) .s false], .vmlmat_mmmin, [0, 1, 2]⟩,
  ⟨.vml_min, [.obj .dense .s true, .obj .dense .s true, .obj (.viewDense .ten) .s false], .vmlmat_mmmin, [0, 1, 2]⟩,
  ⟨.vml_min, [.obj .dense .s true, .obj (.viewDense .vec) .s true, .obj .dense .s false], .vmlmat_mmmin, [0, 1, 2]⟩,
  ⟨.vml_min, [.obj .dense .s true, .obj (.viewDense .vec) .s true, .obj (.viewDense .vec) .s false], .vmlmat_mmmin, [0, 1, 2]⟩,
  ⟨.vml_min, [.obj .dense .s true, .obj (.viewDense .vec) .s true, .obj (.viewDense .mat) .s false], .vmlmat_mmmin, [0, 1, 2]⟩,
  ⟨.vml_min, [.obj .dense .s true, .obj (.viewDense .vec) .s true, .obj (.viewDense .ten) .s false], .vmlmat_mmmin, [0, 1, 2]⟩,
  ⟨.vml_min, [.obj .dense .s true, .obj (.viewDense .mat) .s true, .obj .dense .s false], .vmlmat_mmmin, [0, 1, 2]⟩,
  ⟨.vml_min, [.obj .dense .s true, .obj (.viewDense .mat) .s true, .obj (.viewDense .vec) .s false], .vmlmat_mmmin, [0, 1, 2]⟩,
  ⟨.vml_min, [.obj .dense .s true, .obj (.viewDense .mat) .s true, .obj (.viewDense .mat) .s false], .vmlmat_mmmin, [0, 1, 2]⟩,
  ⟨.vml_min, [.obj .dense .s true, .obj (.viewDense .mat) .s true, .obj (.viewDense .ten) .s false], .vmlmat_mmmin, [0, 1, 2]⟩,
  ⟨.vml_min, [.obj .dense .s true, .obj (.viewDense .ten) .s true, .obj .dense .s false], .vmlmat_mmmin, [0, 1, 2]⟩,
  ⟨.vml_min, [.obj .dense .s true, .obj (.viewDense .ten) .s true, .obj (.viewDense .vec) .s false], .vmlmat_mmmin, [0, 1, 2]⟩,
  ⟨.vml_min, [.obj .dense .s true, .obj (.viewDense .ten) .s true, .obj (.viewDense .mat) .s false], .vmlmat_mmmin, [0, 1, 2]⟩,
  ⟨.vml_min, [.obj .dense .s true, .obj (.viewDense .ten) .s true, .obj (.viewDense .ten) .s false], .vmlmat_mmmin, [0, 1, 2]⟩,
  ⟨.vml_min, [.obj (.viewDense .vec) .s true, .obj .dense .s true, .obj .dense .s false], .vmlmat_mmmin, [0, 1, 2]⟩,
  ⟨.vml_min, [.obj (.viewDense .vec) .s true, .obj .dense .s true, .obj (.viewDense .vec) .s false], .vmlmat_mmmin, [0, 1, 2]⟩,
  ⟨.vml_min, [.obj (.viewDense .vec) .s true, .obj .dense .s true, .obj (.viewDense .mat) .s false], .vmlmat_mmmin, [0, 1, 2]⟩,
  ⟨.vml_min, [.obj (.viewDense .vec) .s true, .obj .dense .s true, .obj (.viewDense .ten) .s false], .vmlmat_mmmin, [0, 1, 2]⟩,
  ⟨.vml_min, [.obj (.viewDense .vec) .s true, .obj (.viewDense .vec) .s true, .obj .dense .s false], .vmlmat_mmmin, [0, 1, 2]⟩,
  ⟨.vml_min, [.obj (.viewDense .vec) .s true, .obj (.viewDense .vec) .s true, .obj (.viewDense .vec) .s false], .vmlmat_mmmin, [0, 1, 2]⟩,
  ⟨.vml_min, [.obj (.viewDense .vec) .s true, .obj (.viewDense .vec) .s true, .obj (.viewDense .mat) .s false], .vmlmat_mmmin, [0, 1, 2]⟩,
  ⟨.vml_min, [.obj (.viewDense .vec) .s true, .obj (.viewDense .vec) .s true, .obj (.viewDense .ten) .s false], .vmlmat_mmmin, [0, 1, 2]⟩,
  ⟨.vml_min, [.obj (.viewDense .vec) .s true, .obj (.viewDense .mat) .s true, .obj .dense .s false], .vmlmat_mmmin, [0, 1, 2]⟩,
  ⟨.vml_min, [.obj (.viewDense .vec) .s true, .obj (.viewDense .mat) .s true, .obj (.viewDense .vec) .s false], .vmlmat_mmmin, [0, 1, 2]⟩,
  ⟨.vml_min, [.obj (.viewDense .vec) .s true, .obj (.viewDense .mat) .s true, .obj (.viewDense .mat) .s false], .vmlmat_mmmin, [0, 1, 2]⟩,
  ⟨.vml_min, [.obj (.viewDense .vec) .s true, .obj (.viewDense .mat) .s true, .obj (.viewDense .ten) .s false], .vmlmat_mmmin, [0, 1, 2]⟩,
  ⟨.vml_min, [.obj (.viewDense .vec) .s true, .obj (.viewDense .ten) .s true, .obj .dense .s false], .vmlmat_mmmin, [0, 1, 2]⟩,
  ⟨.vml_min, [.obj (.viewDense .vec) .s true, .obj (.viewDense .ten) .s true, .obj (.viewDense .vec) .s false], .vmlmat_mmmin, [0, 1, 2]⟩,
  ⟨.vml_min, [.obj (.viewDense .vec) .s true, .obj (.viewDense .ten) .s true, .obj (.viewDense .mat) .s false], .vmlmat_mmmin, [0, 1, 2]⟩,
  ⟨.vml_min, [.obj (.viewDense .vec) .s true, .obj (.viewDense .ten) .s true, .obj (.viewDense .ten) .s false], .vmlmat_mmmin, [0, 1, 2]⟩,
  ⟨.vml_min, [.obj (.viewDense .mat) .s true, .obj .dense .s true, .obj .dense .s false], .vmlmat_mmmin, [0, 1, 2]⟩,
  ⟨.vml_min, [.obj (.viewDense .mat) .s true, .obj .dense .s true, .obj (.viewDense .vec) .s false], .vmlmat_mmmin, [0, 1, 2]⟩,
  ⟨.vml_min, [.obj (.viewDense .mat) .s true, .obj .dense .s true, .obj (.viewDense .mat) .s false], .vmlmat_mmmin, [0, 1, 2]⟩,
  ⟨.vml_min, [.obj (.viewDense .mat) .s true, .obj .dense .s true, .obj (.viewDense .ten) .s false], .vmlmat_mmmin, [0, 1, 2]⟩,
  ⟨.vml_min, [.obj (.viewDense .mat) .s true, .obj (.viewDense .vec) .s true, .obj .dense .s false], .vmlmat_mmmin, [0, 1, 2]⟩,
  ⟨.vml_min, [.obj (.viewDense .mat) .s true, .obj (.viewDense .vec) .s true, .obj (.viewDense .vec) .s false], .vmlmat_mmmin, [0, 1, 2]⟩,
  ⟨.vml_min, [.obj (.viewDense .mat) .s true, .obj (.viewDense .vec) .s true, .obj (.viewDense .mat) .s false], .vmlmat_mmmin, [0, 1, 2]⟩,
  ⟨.vml_min, [.obj (.viewDense .mat) .s true, .obj (.viewDense .vec) .s true, .obj (.viewDense .ten) .s false], .vmlmat_mmmin, [0, 1, 2]⟩,
  ⟨.vml_min, [.obj (.viewDense .mat) .s true, .obj (.viewDense .mat) .s true, .obj .dense .s false], .vmlmat_mmmin, [0, 1, 2]⟩,
  ⟨.vml_min, [.obj (.viewDense .mat) .s true, .obj (.viewDense .mat) .s true, .obj (.viewDense .vec) .s false], .vmlmat_mmmin, [0, 1, 2]⟩,
  ⟨.vml_min, [.obj (.viewDense .mat) .s true, .obj (.viewDense .mat) .s true, .obj (.viewDense .mat) .s false], .vmlmat_mmmin, [0, 1, 2]⟩,
  ⟨.vml_min, [.obj (.viewDense .mat) .s true, .obj (.viewDense .mat) .s true, .obj (.viewDense .ten) .s false], .vmlmat_mmmin, [0, 1, 2]⟩,
  ⟨.vml_min, [.obj (.viewDense .mat) .s true, .obj (.viewDense .ten) .s true, .obj .dense .s false], .vmlmat_mmmin, [0, 1, 2]⟩,
  ⟨.vml_min, [.obj (.viewDense .mat) .s true, .obj (.viewDense .ten) .s true, .obj (.viewDense .vec) .s false], .vmlmat_mmmin, [0, 1, 2]⟩,
  ⟨.vml_min, [.obj (.viewDense .mat) .s true, .obj (.viewDense .ten) .s true, .obj (.viewDense .mat) .s false], .vmlmat_mmmin, [0, 1, 2]⟩,
  ⟨.vml_min, [.obj (.viewDense .mat) .s true, .obj (.viewDense .ten) .s true, .obj (.viewDense .ten) .s false], .vmlmat_mmmin, [0, 1, 2]⟩,
  ⟨.vml_min, [.obj (.viewDense .ten) .s true, .obj .dense .s true, .obj .dense .s false], .vmlmat_mmmin, [0, 1, 2]⟩,
  ⟨.vml_min, [.obj (.viewDense .ten) .s true, .obj .dense .s true, .obj (.viewDense .vec) .s false], .vmlmat_mmmin, [0, 1, 2]⟩,
  ⟨.vml_min, [.obj (.viewDense .ten) .s true, .obj .dense .s true, .obj (.viewDense .mat) .s false], .vmlmat_mmmin, [0, 1, 2]⟩,
  ⟨.vml_min, [.obj (.viewDense .ten) .s true, .obj .dense .s true, .obj (.viewDense .ten) .s false], .vmlmat_mmmin, [0, 1, 2]⟩,
  ⟨.vml_min, [.obj (.viewDense .ten) .s true, .obj (.viewDense .vec) .s true, .obj .dense .s false], .vmlmat_mmmin, [0, 1, 2]⟩,
  ⟨.vml_min, [.obj (.viewDense .ten) .s true, .obj (.viewDense .vec) .s true, .obj (.viewDense .vec) .s false], .vmlmat_mmmin, [0, 1, 2]⟩,
  ⟨.vml_min, [.obj (.viewDense .ten) .s true, .obj (.viewDense .vec) .s true, .obj (.viewDense .mat) .s false], .vmlmat_mmmin, [0, 1, 2]⟩,
  ⟨.vml_min, [.obj (.viewDense .ten) .s true, .obj (.viewDense .vec) .s true, .obj (.viewDense .ten) .s false], .vmlmat_mmmin, [0, 1, 2]⟩,
  ⟨.vml_min, [.obj (.viewDense .ten) .s true, .obj (.viewDense .mat) .s true, .obj .dense .s false], .vmlmat_mmmin, [0, 1, 2]⟩,
  ⟨.vml_min, [.obj (.viewDense .ten) .s true, .obj (.viewDense .mat) .s true, .obj (.viewDense .vec) .s false], .vmlmat_mmmin, [0, 1, 2]⟩,
  ⟨.vml_min, [.obj (.viewDense .ten) .s true, .obj (.viewDense .mat) .s true, .obj (.viewDense .mat) .s false], .vmlmat_mmmin, [0, 1, 2]⟩,
  ⟨.vml_min, [.obj (.viewDense .ten) .s true, .obj (.viewDense .mat) .s true, .obj (.viewDense .ten) .s false], .vmlmat_mmmin, [0, 1, 2]⟩,
  ⟨.vml_min, [.obj (.viewDense .ten) .s true, .obj (.viewDense .ten) .s true, .obj .dense .s false], .vmlmat_mmmin, [0, 1, 2]⟩,
  ⟨.vml_min, [.obj (.viewDense .ten) .s true, .obj (.viewDense .ten) .s true, .obj (.viewDense .vec) .s false], .vmlmat_mmmin, [0, 1, 2]⟩,
  ⟨.vml_min, [.obj (.viewDense .ten) .s true, .obj (.viewDense .ten) .s true, .obj (.viewDense .mat) .s false], .vmlmat_mmmin, [0, 1, 2]⟩,
  ⟨.vml_min, [.obj (.viewDense .ten) .s true, .obj (.viewDense .ten) .s true, .obj (.viewDense .ten) .s false], .vmlmat_mmmin, [0, 1, 2]⟩,
  ⟨.vml_max, [.obj .crs .d true, .scal .d, .obj .crs .d false], .vmlmat_smmax, [0, 1, 2]⟩,
  ⟨.vml_max, [.obj .dense .d true, .scal .d, .obj .dense .d false], .vmlmat_smmax, [0, 1, 2]⟩,
  ⟨.vml_max, [.obj .dense .d true, .scal .d, .obj (.viewDense .vec) .d false], .vmlmat_smmax, [0, 1, 2]⟩,
  ⟨.vml_max, [.obj .dense .d true, .scal .d, .obj (.viewDense .mat) .d false], .vmlmat_smmax, [0, 1, 2]⟩,
  ⟨.vml_max, [.obj .dense .d true, .scal .d, .obj (.viewDense .ten) .d false], .vmlmat_smmax, [0, 1, 2]⟩,
  ⟨.vml_max, [.obj (.viewDense .vec) .d true, .scal .d, .obj .dense .d false], .vmlmat_smmax, [0, 1, 2]⟩,
  ⟨.vml_max, [.obj (.viewDense .vec) .d true, .scal .d, .obj (.viewDense .vec) .d false], .vmlmat_smmax, [0, 1, 2]⟩,
  ⟨.vml_max, [.obj (.viewDense .vec) .d true, .scal .d, .obj (.viewDense .mat) .d false], .vmlmat_smmax, [0, 1, 2]⟩,
  ⟨.vml_max, [.obj (.viewDense .vec) .d true, .scal .d, .obj (.viewDense .ten) .d false], .vmlmat_smmax, [0, 1, 2]⟩,
  ⟨.vml_max, [.obj (.viewDense .mat) .d true, .scal .d, .obj .dense .d false], .vmlmat_smmax, [0, 1, 2]⟩]

/-- src/vml/matrix/matrix_vml.cpp:7116-7349 -/
def tVmlMat_20 : List Overload := [
  ⟨.vml_max, [.obj (.viewDense .mat) .d true, .scal .d, .obj (.viewDense .vec) .d false], .vmlmat_smmax, [0, 1, 2]⟩,
  ⟨.vml_max, [.obj (.viewDense .mat) .d true, .scal .d, .obj (.viewDense .mat) .d false], .vmlmat_smmax, [0, 1, 2]⟩,
  ⟨.vml_max, [.obj (.viewDense .mat) .d true, .scal .d, .obj (.viewDense .ten) .d false], .vmlmat_smmax, [0, 1, 2]⟩,
  ⟨.vml_max, [.obj (.viewDense .ten) .d true, .scal .d, .obj .dense .d false], .vmlmat_smmax, [0, 1, 2]⟩,
  ⟨.vml_max, [.obj (.viewDense .ten) .d true, .scal .d, .obj (.viewDense .vec) .d false], .vmlmat_smmax, [0, 1, 2]⟩,
  ⟨.vml_max, [.obj (.viewDense .ten) .d true, .scal .d, .obj (.viewDense .mat) .d false], .vmlmat_smmax, [0, 1, 2]⟩,
  ⟨.vml_max, [.obj (.viewDense .ten) .d true, .scal .d, .obj (.viewDense .ten) .d false], .vmlmat_smmax, [0, 1, 2]⟩,
  ⟨.vml_max, [.obj .crs .s true, .scal .s, .obj .crs .s false], .vmlmat_smmax, [0, 1, 2]⟩,
  ⟨.vml_max, [.obj .dense .s true, .scal .s, .obj .dense .s false], .vmlmat_smmax, [0, 1, 2]⟩,
  ⟨.vml_max, [.obj .dense .s true, .scal .s, .obj (.viewDense .vec) .s false], .vmlmat_smmax, [0, 1, 2]⟩,
  ⟨.vml_max, [.obj .dense .s true, .scal .s, .obj (.viewDense .mat) .s false], .vmlmat_smmax, [0, 1, 2]⟩,
  ⟨.vml_max, [.obj .dense .s true, .scal .s, .obj (.viewDense .ten) .s false], .vmlmat_smmax, [0, 1, 2]⟩,
  ⟨.vml_max, [.obj (.viewDense .vec) .s true, .scal .s, .obj .dense .s false], .vmlmat_smmax, [0, 1, 2]⟩,
  ⟨.vml_max, [.obj (.viewDense .vec) .s true, .scal .s, .obj (.viewDense .vec) .s false], .vmlmat_smmax, [0, 1, 2]⟩,
  ⟨.vml_max, [.obj (.viewDense .vec) .s true, .scal .s, .obj (.viewDense .mat) .s false], .vmlmat_smmax, [0, 1, 2]⟩,
  ⟨.vml_max, [.obj (.viewDense .vec) .s true, .scal .s, .obj (.viewDense .ten) .s false], .vmlmat_smmax, [0, 1, 2]⟩,
  ⟨.vml_max, [.obj (.viewDense .mat) .s true, .scal .s, .obj .dense .s false], .vmlmat_smmax, [0, 1, 2]⟩,
  ⟨.vml_max, [.obj (.viewDense .mat) .s true, .scal .s, .obj (.viewDense .vec) .s false], .vmlmat_smmax, [0, 1, 2]⟩,
  ⟨.vml_max, [.obj (.viewDense .mat) .s true, .scal .s, .obj (.viewDense .mat) .s false], .vmlmat_smmax, [0, 1, 2]⟩,
  ⟨.vml_max, [.obj (.viewDense .mat) .s true, .scal .s, .obj (.viewDense .ten) .s false], .vmlmat_smmax, [0, 1, 2]⟩,
  ⟨.vml_max, [.obj (.viewDense .ten) .s true, .scal .s, .obj .dense .s false], .vmlmat_smmax, [0, 1, 2]⟩,
  ⟨.vml_max, [.obj (.viewDense .ten) .s true, .scal .s, .obj (.viewDense .vec) .s false], .vmlmat_smmax, [0, 1, 2]⟩,
  ⟨.vml_max, [.obj (.viewDense .ten) .s true, .scal .s, .obj (.viewDense .mat) .s false], .vmlmat_smmax, [0, 1, 2]⟩,
  ⟨.vml_max, [.obj (.viewDense .ten) .s true, .scal .s, .obj (.viewDense .ten) .s false], .vmlmat_smmax, [0, 1, 2]⟩,
  ⟨.vml_min, [.obj .crs .d true, .scal .d, .obj .crs .d false], .vmlmat_smmin, [0, 1, 2]⟩,
  ⟨.vml_min, [.obj .dense .d true, .scal .d, .obj .dense .d false], .vmlmat_smmin, [0, 1, 2]⟩,
  ⟨.vml_min, [.obj .dense .d true, .scal .d, .obj (.viewDense .vec) .d false], .vmlmat_smmin, [0, 1, 2]⟩,
  ⟨.vml_min, [.obj .dense .d true, .scal .d, .obj (.viewDense .mat) .d false], .vmlmat_smmin, [0, 1, 2]⟩,
  ⟨.vml_min, [.obj .dense .d true, .scal .d, .obj (.viewDense .ten) .d false], .vmlmat_smmin, [0, 1, 2]⟩,
  ⟨.vml_min, [.obj (.viewDense .vec) .d true, .scal .d, .obj .dense .d false], .vmlmat_smmin, [0, 1, 2]⟩,
  ⟨.vml_min, [.obj (.viewDense .vec) .d true, .scal .d, .obj (.viewDense .vec) .d false], .vmlmat_smmin, [0, 1, 2]⟩,
  ⟨.vml_min, [.obj (.viewDense .vec) .d true, .scal .d, .obj (.viewDense .mat) .d false], .vmlmat_smmin, [0, 1, 2]⟩,
  ⟨.vml_min, [.obj (.viewDense .vec) .d true, .scal .d, .obj (.viewDense .ten) .d false], .vmlmat_smmin, [0, 1, 2]⟩,
  ⟨.vml_min, [.obj (.viewDense .mat) .d true, .scal .d, .obj .dense .d false], .vmlmat_smmin, [0, 1, 2]⟩,
  ⟨.vml_min, [.obj (.viewDense .mat) .d true, .scal .d, .obj (.viewDense .vec) .d false], .vmlmat_smmin, [0, 1, 2]⟩,
  ⟨.vml_min, [.obj (.viewDense .mat) .d true, .scal .d, .obj (.viewDense .mat) .d false], .vmlmat_smmin, [0, 1, 2]⟩,
  ⟨.vml_min, [.obj (.viewDense .mat) .d true, .scal .d, .obj (.viewDense .ten) .d false], .vmlmat_smmin, [0, 1, 2]⟩,
  ⟨.vml_min, [.obj (.viewDense .ten) .d true, .scal .d, .obj .dense .d false], .vmlmat_smmin, [0, 1, 2]⟩,
  ⟨.vml_min, [.obj (.viewDense .ten) .d true, .scal .d, .obj (.viewDense .vec) .d false], .vmlmat_smmin, [0, 1, 2]⟩,
  ⟨.vml_min, [.obj (.viewDense .ten) .d true, .scal .d, .obj (.viewDense .mat) .d false], .vmlmat_smmin, [0, 1, 2]⟩,
  ⟨.vml_min, [.obj (.viewDense .ten) .d true, .scal .d, .obj (.viewDense .ten) .d false], .vmlmat_smmin, [0, 1, 2]⟩,
  ⟨.vml_min, [.obj .crs .s true, .scal .s, .obj .crs .s false], .vmlmat_smmin, [0, 1, 2]⟩,
  ⟨.vml_min, [.obj .dense .s true, .scal .s, .obj .dense .s false], .vmlmat_smmin, [0, 1, 2]⟩,
  ⟨.vml_min, [.obj .dense .s true, .scal .s, .obj (.viewDense .vec) .s false], .vmlmat_smmin, [0, 1, 2]⟩,
  ⟨.vml_min, [.obj .dense .s true, .scal .s, .obj (.viewDense .mat) .s false], .vmlmat_smmin, [0, 1, 2]⟩,
  ⟨.vml_min, [.obj .dense .s true, .scal .s, .obj (.viewDense .ten) .s false], .vmlmat_smmin, [0, 1, 2]⟩,
  ⟨.vml_min, [.obj (.viewDense .vec) .s true, .scal .s, .obj .dense .s false], .vmlmat_smmin, [0, 1, 2]⟩,
  ⟨.vml_min, [.obj (.viewDense .vec) .s true, .scal .s, .obj (.viewDense .vec) .s false], .vmlmat_smmin, [0, 1, 2]⟩,
  ⟨.vml_min, [.obj (.viewDense .vec) .s true, .scal .s, .obj (.viewDense .mat) .s false], .vmlmat_smmin, [0, 1, 2]⟩,
  ⟨.vml_min, [.obj (.viewDense .vec) .s true, .scal .s, .obj (.viewDense .ten) .s false], .vmlmat_smmin, [0, 1, 2]⟩,
  ⟨.vml_min, [.obj (.viewDense .mat) .s true, .scal .s, .obj .dense .s false], .vmlmat_smmin, [0, 1, 2]⟩,
  ⟨.vml_min, [.obj (.viewDense .mat) .s true, .scal .s, .obj (.viewDense .vec) .s false], .vmlmat_smmin, [0, 1, 2]⟩,
  ⟨.vml_min, [.obj (.viewDense .mat) .s true, .scal .s, .obj (.viewDense .mat) .s false], .vmlmat_smmin, [0, 1, 2]⟩,
  ⟨.vml_min, [.obj (.viewDense .mat) .s true, .scal .s, .obj (.viewDense .ten) .s false], .vmlmat_smmin, [0, 1, 2]⟩,
  ⟨.vml_min, [.obj (.viewDense .ten) .s true, .scal .s, .obj .dense .s false], .vmlmat_smmin, [0, 1, 2]⟩,
  ⟨.vml_min, [.obj (.viewDense .ten) .s true, .scal .s, .obj (.viewDense .vec) .s false], .vmlmat_smmin, [0, 1, 2]⟩,
  ⟨.vml_min, [.obj (.viewDense .ten) .s true, .scal .s, .obj (.viewDense .mat) .s false], .vmlmat_smmin, [0, 1, 2]⟩,
  ⟨.vml_min, [.obj (.viewDense .ten) .s true, .scal .s, .obj (.viewDense .ten) .s false], .vmlmat_smmin, [0, 1, 2]⟩]

/-- the element-wise overloads of src/vml/matrix/matrix_vml.cpp (1658 of them) -/
def tVmlMat : List (List Overload) :=
  [tVmlMat_0, tVmlMat_1, tVmlMat_2, tVmlMat_3, tVmlMat_4, tVmlMat_5, tVmlMat_6, tVmlMat_7, tVmlMat_8, tVmlMat_9, tVmlMat_10, tVmlMat_11, tVmlMat_12, tVmlMat_13, tVmlMat_14, tVmlMat_15, tVmlMat_16, tVmlMat_17, tVmlMat_18, tVmlMat_19, tVmlMat_20]

end Verif.Dispatch
