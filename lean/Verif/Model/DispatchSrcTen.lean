import Verif.Model.DispatchApi

/-!
Generated by tools/dispatch_gen.py from /repo: public overloads of the element-wise functions. Do not edit.
-/

namespace Verif.Dispatch

/-- src/vml/tensor/tensor_vml.cpp:30-426 -/
def tVmlTen_0 : List Overload := [
  ⟨.vml_add, [.obj .tcrs .d true, .obj .tcrs .d true, .obj .tcrs .d false], .vmlten_ttadd, [0, 1, 2]⟩,
  ⟨.vml_add, [.obj .tdense .d true, .obj .tdense .d true, .obj .tdense .d false], .vmlten_ttadd, [0, 1, 2]⟩,
  ⟨.vml_add, [.obj .tdense .d true, .obj .tdense .d true, .obj (.viewTDense .vec) .d false], .vmlten_ttadd, [0, 1, 2]⟩,
  ⟨.vml_add, [.obj .tdense .d true, .obj .tdense .d true, .obj (.viewTDense .mat) .d false], .vmlten_ttadd, [0, 1, 2]⟩,
  ⟨.vml_add, [.obj .tdense .d true, .obj .tdense .d true, .obj (.viewTDense .ten) .d false], .vmlten_ttadd, [0, 1, 2]⟩,
  ⟨.vml_add, [.obj .tdense .d true, .obj (.viewTDense .vec) .d true, .obj .tdense .d false], .vmlten_ttadd, [0, 1, 2]⟩,
  ⟨.vml_add, [.obj .tdense .d true, .obj (.viewTDense .vec) .d true, .obj (.viewTDense .vec) .d false], .vmlten_ttadd, [0, 1, 2]⟩,
  ⟨.vml_add, [.obj .tdense .d true, .obj (.viewTDense .vec) .d true, .obj (.viewTDense .mat) .d false], .vmlten_ttadd, [0, 1, 2]⟩,
  ⟨.vml_add, [.obj .tdense .d true, .obj (.viewTDense .vec) .d true, .obj (.viewTDense .ten) .d false], .vmlten_ttadd, [0, 1, 2]⟩,
  ⟨.vml_add, [.obj .tdense .d true, .obj (.viewTDense .mat) .d true, .obj .tdense .d false], .vmlten_ttadd, [0, 1, 2]⟩,
  ⟨.vml_add, [.obj .tdense .d true, .obj (.viewTDense .mat) .d true, .obj (.viewTDense .vec) .d false], .vmlten_ttadd, [0, 1, 2]⟩,
  ⟨.vml_add, [.obj .tdense .d true, .obj (.viewTDense .mat) .d true, .obj (.viewTDense .mat) .d false], .vmlten_ttadd, [0, 1, 2]⟩,
  ⟨.vml_add, [.obj .tdense .d true, .obj (.viewTDense .mat) .d true, .obj (.viewTDense .ten) .d false], .vmlten_ttadd, [0, 1, 2]⟩,
  ⟨.vml_add, [.obj .tdense .d true, .obj (.viewTDense .ten) .d true, .obj .tdense .d false], .vmlten_ttadd, [0, 1, 2]⟩,
  ⟨.vml_add, [.obj .tdense .d true, .obj (.viewTDense .ten) .d true, .obj (.viewTDense .vec) .d false], .vmlten_ttadd, [0, 1, 2]⟩,
  ⟨.vml_add, [.obj .tdense .d true, .obj (.viewTDense .ten) .d true, .obj (.viewTDense .mat) .d false], .vmlten_ttadd, [0, 1, 2]⟩,
  ⟨.vml_add, [.obj .tdense .d true, .obj (.viewTDense .ten) .d true, .obj (.viewTDense .ten) .d false], .vmlten_ttadd, [0, 1, 2]⟩,
  ⟨.vml_add, [.obj (.viewTDense .vec) .d true, .obj .tdense .d true, .obj .tdense .d false], .vmlten_ttadd, [0, 1, 2]⟩,
  ⟨.vml_add, [.obj (.viewTDense .vec) .d true, .obj .tdense .d true, .obj (.viewTDense .vec) .d false], .vmlten_ttadd, [0, 1, 2]⟩,
  ⟨.vml_add, [.obj (.viewTDense .vec) .d true, .obj .tdense .d true, .obj (.viewTDense .mat) .d false], .vmlten_ttadd, [0, 1, 2]⟩,
  ⟨.vml_add, [.obj (.viewTDense .vec) .d true, .obj .tdense .d true, .obj (.viewTDense .ten) .d false], .vmlten_ttadd, [0, 1, 2]⟩,
  ⟨.vml_add, [.obj (.viewTDense .vec) .d true, .obj (.viewTDense .vec) .d true, .obj .tdense .d false], .vmlten_ttadd, [0, 1, 2]⟩,
  ⟨.vml_add, [.obj (.viewTDense .vec) .d true, .obj (.viewTDense .vec) .d true, .obj (.viewTDense .vec) .d false], .vmlten_ttadd, [0, 1, 2]⟩,
  ⟨.vml_add, [.obj (.viewTDense .vec) .d true, .obj (.viewTDense .vec) .d true, .obj (.viewTDense .mat) .d false], .vmlten_ttadd, [0, 1, 2]⟩,
  ⟨.vml_add, [.obj (.viewTDense .vec) .d true, .obj (.viewTDense .vec) .d true, .obj (.viewTDense .ten) .d false], .vmlten_ttadd, [0, 1, 2]⟩,
  ⟨.vml_add, [.obj (.viewTDense .vec) .d true, .obj (.viewTDense .mat) .d true, .obj .tdense .d false], .vmlten_ttadd, [0, 1, 2]⟩,
  ⟨.vml_add, [.obj (.viewTDense .vec) .d true, .obj (.viewTDense .mat) .d true, .obj (.viewTDense .vec) .d false], .vmlten_ttadd, [0, 1, 2]⟩,
  ⟨.vml_add, [.obj (.viewTDense .vec) .d true, .obj (.viewTDense .mat) .d true, .obj (.viewTDense .mat) .d false], .vmlten_ttadd, [0, 1, 2]⟩,
  ⟨.vml_add, [.obj (.viewTDense .vec) .d true, .obj (.viewTDense .mat) .d true, .obj (.viewTDense .ten) .d false], .vmlten_ttadd, [0, 1, 2]⟩,
  ⟨.vml_add, [.obj (.viewTDense .vec) .d true, .obj (.viewTDense .ten) .d true, .obj .tdense .d false], .vmlten_ttadd, [0, 1, 2]⟩,
  ⟨.vml_add, [.obj (.viewTDense .vec) .d true, .obj (.viewTDense .ten) .d true, .obj (.viewTDense .vec) .d false], .vmlten_ttadd, [0, 1, 2]⟩,
  ⟨.vml_add, [.obj (.viewTDense .vec) .d true, .obj (.viewTDense .ten) .d true, .obj (.viewTDense .mat) .d false], .vmlten_ttadd, [0, 1, 2]⟩,
  ⟨.vml_add, [.obj (.viewTDense .vec) .d true, .obj (.viewTDense .ten) .d true, .obj (.viewTDense .ten) .d false], .vmlten_ttadd, [0, 1, 2]⟩,
  ⟨.vml_add, [.obj (.viewTDense .mat) .d true, .obj .tdense .d true, .obj .tdense .d false], .vmlten_ttadd, [0, 1, 2]⟩,
  ⟨.vml_add, [.obj (.viewTDense .mat) .d true, .obj .tdense .d true, .obj (.viewTDense .vec) .d false], .vmlten_ttadd, [0, 1, 2]⟩,
  ⟨.vml_add, [.obj (.viewTDense .mat) .d true, .obj .tdense .d true, .obj (.viewTDense .mat) .d false], .vmlten_ttadd, [0, 1, 2]⟩,
  ⟨.vml_add, [.obj (.viewTDense .mat) .d true, .obj .tdense .d true, .obj (.viewTDense .ten) .d false], .vmlten_ttadd, [0, 1, 2]⟩,
  ⟨.vml_add, [.obj (.viewTDense .mat) .d true, .obj (.viewTDense .vec) .d true, .obj .tdense .d false], .vmlten_ttadd, [0, 1, 2]⟩,
  ⟨.vml_add, [.obj (.viewTDense .mat) .d true, .obj (.viewTDense .vec) .d true, .obj (.viewTDense .vec) .d false], .vmlten_ttadd, [0, 1, 2]⟩,
  ⟨.vml_add, [.obj (.viewTDense .mat) .d true, .obj (.viewTDense .vec) .d true, .obj (.viewTDense .mat) .d false], .vmlten_ttadd, [0, 1, 2]⟩,
  ⟨.vml_add, [.obj (.viewTDense .mat) .d true, .obj (.viewTDense .vec) .d true, .obj (.viewTDense .ten) .d false], .vmlten_ttadd, [0, 1, 2]⟩,
  ⟨.vml_add, [.obj (.viewTDense .mat) .d true, .obj (.viewTDense .mat) .d true, .obj .tdense .d false], .vmlten_ttadd, [0, 1, 2]⟩,
  ⟨.vml_add, [.obj (.viewTDense .mat) .d true, .obj (.viewTDense .mat) .d true, .obj (.viewTDense .vec) .d false], .vmlten_ttadd, [0, 1, 2]⟩,
  ⟨.vml_add, [.obj (.viewTDense .mat) .d true, .obj (.viewTDense .mat) .d true, .obj (.viewTDense .mat) .d false], .vmlten_ttadd, [0, 1, 2]⟩,
  ⟨.vml_add, [.obj (.viewTDense .mat) .d true, .obj (.viewTDense .mat) .d true, .obj (.viewTDense .ten) .d false], .vmlten_ttadd, [0, 1, 2]⟩,
  ⟨.vml_add, [.obj (.viewTDense .mat) .d true, .obj (.viewTDense .ten) .d true, .obj .tdense .d false], .vmlten_ttadd, [0, 1, 2]⟩,
  ⟨.vml_add, [.obj (.viewTDense .mat) .d true, .obj (.viewTDense .ten) .d true, .obj (.viewTDense .vec) .d false], .vmlten_ttadd, [0, 1, 2]⟩,
  ⟨.vml_add, [.obj (.viewTDense .mat) .d true, .obj (.viewTDense .ten) .d true, .obj (.viewTDense .mat) .d false], .vmlten_ttadd, [0, 1, 2]⟩,
  ⟨.vml_add, [.obj (.viewTDense .mat) .d true, .obj (.viewTDense .ten) .d true, .obj (.viewTDense .ten) .d false], .vmlten_ttadd, [0, 1, 2]⟩,
  ⟨.vml_add, [.obj (.viewTDense .ten) .d true, .obj .tdense .d true, .obj .tdense .d false], .vmlten_ttadd, [0, 1, 2]⟩,
  ⟨.vml_add, [.obj (.viewTDense .ten) .d true, .obj .tdense .d true, .obj (.viewTDense .vec) .d false], .vmlten_ttadd, [0, 1, 2]⟩,
  ⟨.vml_add, [.obj (.viewTDense .ten) .d true, .obj .tdense .d true, .obj (.viewTDense .mat) .d false], .vmlten_ttadd, [0, 1, 2]⟩,
  ⟨.vml_add, [.obj (.viewTDense .ten) .d true, .obj .tdense .d true, .obj (.viewTDense .ten) .d false], .vmlten_ttadd, [0, 1, 2]⟩,
  ⟨.vml_add, [.obj (.viewTDense .ten) .d true, .obj (.viewTDense .vec) .d true, .obj .tdense .d false], .vmlten_ttadd, [0, 1, 2]⟩,
  ⟨.vml_add, [.obj (.viewTDense .ten) .d true, .obj (.viewTDense .vec) .d true, .obj (.viewTDense .vec) .d false], .vmlten_ttadd, [0, 1, 2]⟩,
  ⟨.vml_add, [.obj (.viewTDense .ten) .d true, .obj (.viewTDense .vec) .d true, .obj (.viewTDense .mat) .d false], .vmlten_ttadd, [0, 1, 2]⟩,
  ⟨.vml_add, [.obj (.viewTDense .ten) .d true, .obj (.viewTDense .vec) .d true, .obj (.viewTDense .ten) .d false], .vmlten_ttadd, [0, 1, 2]⟩,
  ⟨.vml_add, [.obj (.viewTDense .ten) .d true, .obj (.viewTDense .mat) .d true, .obj .tdense .d false], .vmlten_ttadd, [0, 1, 2]⟩,
  ⟨.vml_add, [.obj (.viewTDense .ten) .d true, .obj (.viewTDense .mat) .d true, .obj (.viewTDense .vec) .d false], .vmlten_ttadd, [0, 1, 2]⟩,
  ⟨.vml_add, [.obj (.viewTDense .ten) .d true, .obj (.viewTDense .mat) .d true, .obj (.viewTDense .mat) .d false], .vmlten_ttadd, [0, 1, 2]⟩,
  ⟨.vml_add, [.obj (.viewTDense .ten) .d true, .obj (.viewTDense .mat) .d true, .obj (.viewTDense .ten) .d false], .vmlten_ttadd, [0, 1, 2]⟩,
  ⟨.vml_add, [.obj (.viewTDense .ten) .d true, .obj (.viewTDense .ten) .d true, .obj .tdense .d false], .vmlten_ttadd, [0, 1, 2]⟩,
  ⟨.vml_add, [.obj (.viewTDense .ten) .d true, .obj (.viewTDense .ten) .d true, .obj (.viewTDense .vec) .d false], .vmlten_ttadd, [0, 1, 2]⟩,
  ⟨.vml_add, [.obj (.viewTDense .ten) .d true, .obj (.viewTDense .ten) .d true, .obj (.viewTDense .mat) .d false], .vmlten_ttadd, [0, 1, 2]⟩,
  ⟨.vml_add, [.obj (.viewTDense .ten) .d true, .obj (.viewTDense .ten) .d true, .obj (.viewTDense .ten) .d false], .vmlten_ttadd, [0, 1, 2]⟩,
  ⟨.vml_add, [.obj .tcrs .s true, .obj .tcrs .s true, .obj .tcrs .s false], .vmlten_ttadd, [0, 1, 2]⟩,
  ⟨.vml_add, [.obj .tdense .s true, .obj .tdense .s true, .obj .tdense .s false], .vmlten_ttadd, [0, 1, 2]⟩,
  ⟨.vml_add, [.obj .tdense .s true, .obj .tdense .s true, .obj (.viewTDense .vec) .s false], .vmlten_ttadd, [0, 1, 2]⟩,
  ⟨.vml_add, [.obj .tdense .s true, .obj .tdense .s true, .obj (.viewTDense .mat) .s false], .vmlten_ttadd, [0, 1, 2]⟩,
  ⟨.vml_add, [.obj .tdense .s true, .obj .tdense .s true, .obj (.viewTDense .ten) .s false], .vmlten_ttadd, [0, 1, 2]⟩,
  ⟨.vml_add, [.obj .tdense .s true, .obj (.viewTDense .vec) .s true, .obj .tdense .s false], .vmlten_ttadd, [0, 1, 2]⟩,
  ⟨.vml_add, [.obj .tdense .s true, .obj (.viewTDense .vec) .s true, .obj (.viewTDense .vec) .s false], .vmlten_ttadd, [0, 1, 2]⟩,
  ⟨.vml_add, [.obj .tdense .s true, .obj (.viewTDense .vec) .s true, .obj (.viewTDense .mat) .s false], .vmlten_ttadd, [0, 1, 2]⟩,
  ⟨.vml_add, [.obj .tdense .s true, .obj (.viewTDense .vec) .s true, .obj (.viewTDense .ten) .s false], .vmlten_ttadd, [0, 1, 2]⟩,
  ⟨.vml_add, [.obj .tdense .s true, .obj (.viewTDense .mat) .s true, .obj .tdense .s false], .vmlten_ttadd, [0, 1, 2]⟩,
  ⟨.vml_add, [.obj .tdense .s true, .obj (.viewTDense .mat) .s true, .obj (.viewTDense .vec) .s false], .vmlten_ttadd, [0, 1, 2]⟩,
  ⟨.vml_add, [.obj .tdense .s true, .obj (.viewTDense .mat) .s true, .obj (.viewTDense .mat) .s false], .vmlten_ttadd, [0, 1, 2]⟩,
  ⟨.vml_add, [.obj .tdense .s true, .obj (.viewTDense .mat) .s true, .obj (.viewTDense .ten) .s false], .vmlten_ttadd, [0, 1, 2]⟩,
  ⟨.vml_add, [.obj .tdense .s true, .obj (.viewTDense .ten) .s true, .obj .tdense .s false], .vmlten_ttadd, [0, 1, 2]⟩,
  ⟨.vml_add, [.obj .tdense .s true, .obj (.viewTDense .ten) .s true, .obj (.viewTDense .vec) .s false], .vmlten_ttadd, [0, 1, 2]⟩]

/-- src/vml/tensor/tensor_vml.cpp:427-822 -/
def tVmlTen_1 : List Overload := [
  ⟨.vml_add, [.obj .tdense .s true, .obj (.viewTDense .ten) .s true, .obj (.viewTDense .mat) .s false], .vmlten_ttadd, [0, 1, 2]⟩,
  ⟨.vml_add, [.obj .tdense .s true, .obj (.viewTDense .ten) .s true, .obj (.viewTDense .ten) .s false], .vmlten_ttadd, [0, 1, 2]⟩,
  ⟨.vml_add, [.obj (.viewTDense .vec) .s true, .obj .tdense .s true, .obj .tdense .s false], .vmlten_ttadd, [0, 1, 2]⟩,
  ⟨.vml_add, [.obj (.viewTDense .vec) .s true, .obj .tdense .s true, .obj (.viewTDense .vec) .s false], .vmlten_ttadd, [0, 1, 2]⟩,
  ⟨.vml_add, [.obj (.viewTDense .vec) .s true, .obj .tdense .s true, .obj (.viewTDense .mat) .s false], .vmlten_ttadd, [0, 1, 2]⟩,
  ⟨.vml_add, [.obj (.viewTDense .vec) .s true, .obj .tdense .s true, .obj (.viewTDense .ten) .s false], .vmlten_ttadd, [0, 1, 2]⟩,
  ⟨.vml_add, [.obj (.viewTDense .vec) .s true, .obj (.viewTDense .vec) .s true, .obj .tdense .s false], .vmlten_ttadd, [0, 1, 2]⟩,
  ⟨.vml_add, [.obj (.viewTDense .vec) .s true, .obj (.viewTDense .vec) .s true, .obj (.viewTDense .vec) .s false], .vmlten_ttadd, [0, 1, 2]⟩,
  ⟨.vml_add, [.obj (.viewTDense .vec) .s true, .obj (.viewTDense .vec) .s true, .obj (.viewTDense .mat) .s false], .vmlten_ttadd, [0, 1, 2]⟩,
  ⟨.vml_add, [.obj (.viewTDense .vec) .s true, .obj (.viewTDense .vec) .s true, .obj (.viewTDense .ten) .s false], .vmlten_ttadd, [0, 1, 2]⟩,
  ⟨.vml_add, [.obj (.viewTDense .vec) .s true, .obj (.viewTDense .mat) .s true, .obj .tdense .s false], .vmlten_ttadd, [0, 1, 2]⟩,
  ⟨.vml_add, [.obj (.viewTDense .vec) .s true, .obj (.viewTDense .mat) .s true, .obj (.viewTDense .vec) .s false], .vmlten_ttadd, [0, 1, 2]⟩,
  ⟨.vml_add, [.obj (.viewTDense .vec) .s true, .obj (.viewTDense .mat) .s true, .obj (.viewTDense .mat) .s false], .vmlten_ttadd, [0, 1, 2]⟩,
  ⟨.vml_add, [.obj (.viewTDense .vec) .s true, .obj (.viewTDense .mat) .s true, .obj (.viewTDense .ten) .s false], .vmlten_ttadd, [0, 1, 2]⟩,
  ⟨.vml_add, [.obj (.viewTDense .vec) .s true, .obj (.viewTDense .ten) .s true, .obj .tdense .s false], .vmlten_ttadd, [0, 1, 2]⟩,
  ⟨.vml_add, [.obj (.viewTDense .vec) .s true, .obj (.viewTDense .ten) .s true, .obj (.viewTDense .vec) .s false], .vmlten_ttadd, [0, 1, 2]⟩,
  ⟨.vml_add, [.obj (.viewTDense .vec) .s true, .obj (.viewTDense .ten) .s true, .obj (.viewTDense .mat) .s false], .vmlten_ttadd, [0, 1, 2]⟩,
  ⟨.vml_add, [.obj (.viewTDense .vec) .s true, .obj (.viewTDense .ten) .s true, .obj (.viewTDense .ten) .s false], .vmlten_ttadd, [0, 1, 2]⟩,
  ⟨.vml_add, [.obj (.viewTDense .mat) .s true, .obj .tdense .s true, .obj .tdense .s false], .vmlten_ttadd, [0, 1, 2]⟩,
  ⟨.vml_add, [.obj (.viewTDense .mat) .s true, .obj .tdense .s true, .obj (.viewTDense .vec) .s false], .vmlten_ttadd, [0, 1, 2]⟩,
  ⟨.vml_add, [.obj (.viewTDense .mat) .s true, .obj .tdense .s true, .obj (.viewTDense .mat) .s false], .vmlten_ttadd, [0, 1, 2]⟩,
  ⟨.vml_add, [.obj (.viewTDense .mat) .s true, .obj .tdense .s true, .obj (.viewTDense .ten) .s false], .vmlten_ttadd, [0, 1, 2]⟩,
  ⟨.vml_add, [.obj (.viewTDense .mat) .s true, .obj (.viewTDense .vec) .s true, .obj .tdense .s false], .vmlten_ttadd, [0, 1, 2]⟩,
  ⟨.vml_add, [.obj (.viewTDense .mat) .s true, .obj (.viewTDense .vec) .s true, .obj (.viewTDense .vec) .s false], .vmlten_ttadd, [0, 1, 2]⟩,
  ⟨.vml_add, [.obj (.viewTDense .mat) .s true, .obj (.viewTDense .vec) .s true, .obj (.viewTDense .mat) .s false], .vmlten_ttadd, [0, 1, 2]⟩,
  ⟨.vml_add, [.obj (.viewTDense .mat) .s true, .obj (.viewTDense .vec) .s true, .obj (.viewTDense .ten) .s false], .vmlten_ttadd, [0, 1, 2]⟩,
  ⟨.vml_add, [.obj (.viewTDense .mat) .s true, .obj (.viewTDense .mat) .s true, .obj .tdense .s false], .vmlten_ttadd, [0, 1, 2]⟩,
  ⟨.vml_add, [.obj (.viewTDense .mat) .s true, .obj (.viewTDense .mat) .s true, .obj (.viewTDense .vec) .s false], .vmlten_ttadd, [0, 1, 2]⟩,
  ⟨.vml_add, [.obj (.viewTDense .mat) .s true, .obj (.viewTDense .mat) .s true, .obj (.viewTDense .mat) .s false], .vmlten_ttadd, [0, 1, 2]⟩,
  ⟨.vml_add, [.obj (.viewTDense .mat) .s true, .obj (.viewTDense .mat) .s true, .obj (.viewTDense .ten) .s false], .vmlten_ttadd, [0, 1, 2]⟩,
  ⟨.vml_add, [.obj (.viewTDense .mat) .s true, .obj (.viewTDense .ten) .s true, .obj .tdense .s false], .vmlten_ttadd, [0, 1, 2]⟩,
  ⟨.vml_add, [.obj (.viewTDense .mat) .s true, .obj (.viewTDense .ten) .s true, .obj (.viewTDense .vec) .s false], .vmlten_ttadd, [0, 1, 2]⟩,
  ⟨.vml_add, [.obj (.viewTDense .mat) .s true, .obj (.viewTDense .ten) .s true, .obj (.viewTDense .mat) .s false], .vmlten_ttadd, [0, 1, 2]⟩,
  ⟨.vml_add, [.obj (.viewTDense .mat) .s true, .obj (.viewTDense .ten) .s true, .obj (.viewTDense .ten) .s false], .vmlten_ttadd, [0, 1, 2]⟩,
  ⟨.vml_add, [.obj (.viewTDense .ten) .s true, .obj .tdense .s true, .obj .tdense .s false], .vmlten_ttadd, [0, 1, 2]⟩,
  ⟨.vml_add, [.obj (.viewTDense .ten) .s true, .obj .tdense .s true, .obj (.viewTDense .vec) .s false], .vmlten_ttadd, [0, 1, 2]⟩,
  ⟨.vml_add, [.obj (.viewTDense .ten) .s true, .obj .tdense .s true, .obj (.viewTDense .mat) .s false], .vmlten_ttadd, [0, 1, 2]⟩,
  ⟨.vml_add, [.obj (.viewTDense .ten) .s true, .obj .tdense .s true, .obj (.viewTDense .ten) .s false], .vmlten_ttadd, [0, 1, 2]⟩,
  ⟨.vml_add, [.obj (.viewTDense .ten) .s true, .obj (.viewTDense .vec) .s true, .obj .tdense .s false], .vmlten_ttadd, [0, 1, 2]⟩,
  ⟨.vml_add, [.obj (.viewTDense .ten) .s true, .obj (.viewTDense .vec) .s true, .obj (.viewTDense .vec) .s false], .vmlten_ttadd, [0, 1, 2]⟩,
  ⟨.vml_add, [.obj (.viewTDense .ten) .s true, .obj (.viewTDense .vec) .s true, .obj (.viewTDense .mat) .s false], .vmlten_ttadd, [0, 1, 2]⟩,
  ⟨.vml_add, [.obj (.viewTDense .ten) .s true, .obj (.viewTDense .vec) .s true, .obj (.viewTDense .ten) .s false], .vmlten_ttadd, [0, 1, 2]⟩,
  ⟨.vml_add, [.obj (.viewTDense .ten) .s true, .obj (.viewTDense .mat) .s true, .obj .tdense .s false], .vmlten_ttadd, [0, 1, 2]⟩,
  ⟨.vml_add, [.obj (.viewTDense .ten) .s true, .obj (.viewTDense .mat) .s true, .obj (.viewTDense .vec) .s false], .vmlten_ttadd, [0, 1, 2]⟩,
  ⟨.vml_add, [.obj (.viewTDense .ten) .s true, .obj (.viewTDense .mat) .s true, .obj (.viewTDense .mat) .s false], .vmlten_ttadd, [0, 1, 2]⟩,
  ⟨.vml_add, [.obj (.viewTDense .ten) .s true, .obj (.viewTDense .mat) .s true, .obj (.viewTDense .ten) .s false], .vmlten_ttadd, [0, 1, 2]⟩,
  ⟨.vml_add, [.obj (.viewTDense .ten) .s true, .obj (.viewTDense .ten) .s true, .obj .tdense .s false], .vmlten_ttadd, [0, 1, 2]⟩,
  ⟨.vml_add, [.obj (.viewTDense .ten) .s true, .obj (.viewTDense .ten) .s true, .obj (.viewTDense .vec) .s false], .vmlten_ttadd, [0, 1, 2]⟩,
  ⟨.vml_add, [.obj (.viewTDense .ten) .s true, .obj (.viewTDense .ten) .s true, .obj (.viewTDense .mat) .s false], .vmlten_ttadd, [0, 1, 2]⟩,
  ⟨.vml_add, [.obj (.viewTDense .ten) .s true, .obj (.viewTDense .ten) .s true, .obj (.viewTDense .ten) .s false], .vmlten_ttadd, [0, 1, 2]⟩,
  ⟨.vml_sub, [.obj .tcrs .d true, .obj .tcrs .d true, .obj .tcrs .d false], .vmlten_ttsub, [0, 1, 2]⟩,
  ⟨.vml_sub, [.obj .tdense .d true, .obj .tdense .d true, .obj .tdense .d false], .vmlten_ttsub, [0, 1, 2]⟩,
  ⟨.vml_sub, [.obj .tdense .d true, .obj .tdense .d true, .obj (.viewTDense .vec) .d false], .vmlten_ttsub, [0, 1, 2]⟩,
  ⟨.vml_sub, [.obj .tdense .d true, .obj .tdense .d true, .obj (.viewTDense .mat) .d false], .vmlten_ttsub, [0, 1, 2]⟩,
  ⟨.vml_sub, [.obj .tdense .d true, .obj .tdense .d true, .obj (.viewTDense .ten) .d false], .vmlten_ttsub, [0, 1, 2]⟩,
  ⟨.vml_sub, [.obj .tdense .d true, .obj (.viewTDense .vec) .d true, .obj .tdense .d false], .vmlten_ttsub, [0, 1, 2]⟩,
  ⟨.vml_sub, [.obj .tdense .d true, .obj (.viewTDense .vec) .d true, .obj (.viewTDense .vec) .d false], .vmlten_ttsub, [0, 1, 2]⟩,
  ⟨.vml_sub, [.obj .tdense .d true, .obj (.viewTDense .vec) .d true, .obj (.viewTDense .mat) .d false], .vmlten_ttsub, [0, 1, 2]⟩,
  ⟨.vml_sub, [.obj .tdense .d true, .obj (.viewTDense .vec) .d true, .obj (.viewTDense .ten) .d false], .vmlten_ttsub, [0, 1, 2]⟩,
  ⟨.vml_sub, [.obj .tdense .d true, .obj (.viewTDense .mat) .d true, .obj .tdense .d false], .vmlten_ttsub, [0, 1, 2]⟩,
  ⟨.vml_sub, [.obj .tdense .d true, .obj (.viewTDense .mat) .d true, .obj (.viewTDense .vec) .d false], .vmlten_ttsub, [0, 1, 2]⟩,
  ⟨.vml_sub, [.obj .tdense .d true, .obj (.viewTDense .mat) .d true, .obj (.viewTDense .mat) .d false], .vmlten_ttsub, [0, 1, 2]⟩,
  ⟨.vml_sub, [.obj .tdense .d true, .obj (.viewTDense .mat) .d true, .obj (.viewTDense .ten) .d false], .vmlten_ttsub, [0, 1, 2]⟩,
  ⟨.vml_sub, [.obj .tdense .d true, .obj (.viewTDense .ten) .d true, .obj .tdense .d false], .vmlten_ttsub, [0, 1, 2]⟩,
  ⟨.vml_sub, [.obj .tdense .d true, .obj (.viewTDense .ten) .d true, .obj (.viewTDense .vec) .d false], .vmlten_ttsub, [0, 1, 2]⟩,
  ⟨.vml_sub, [.obj .tdense .d true, .obj (.viewTDense .ten) .d true, .obj (.viewTDense .mat) .d false], .vmlten_ttsub, [0, 1, 2]⟩,
  ⟨.vml_sub, [.obj .tdense .d true, .obj (.viewTDense .ten) .d true, .obj (.viewTDense .ten) .d false], .vmlten_ttsub, [0, 1, 2]⟩,
  ⟨.vml_sub, [.obj (.viewTDense .vec) .d true, .obj .tdense .d true, .obj .tdense .d false], .vmlten_ttsub, [0, 1, 2]⟩,
  ⟨.vml_sub, [.obj (.viewTDense .vec) .d true, .obj .tdense .d true, .obj (.viewTDense .vec) .d false], .vmlten_ttsub, [0, 1, 2]⟩,
  ⟨.vml_sub, [.obj (.viewTDense .vec) .d true, .obj .tdense .d true, .obj (.viewTDense .mat) .d false], .vmlten_ttsub, [0, 1, 2]⟩,
  ⟨.vml_sub, [.obj (.viewTDense .vec) .d true, .obj .tdense .d true, .obj (.viewTDense .ten) .d false], .vmlten_ttsub, [0, 1, 2]⟩,
  ⟨.vml_sub, [.obj (.viewTDense .vec) .d true, .obj (.viewTDense .vec) .d true, .obj .tdense .d false], .vmlten_ttsub, [0, 1, 2]⟩,
  ⟨.vml_sub, [.obj (.viewTDense .vec) .d true, .obj (.viewTDense .vec) .d true, .obj (.viewTDense .vec) .d false], .vmlten_ttsub, [0, 1, 2]⟩,
  ⟨.vml_sub, [.obj (.viewTDense .vec) .d true, .obj (.viewTDense .vec) .d true, .obj (.viewTDense .mat) .d false], .vmlten_ttsub, [0, 1, 2]⟩,
  ⟨.vml_sub, [.obj (.viewTDense .vec) .d true, .obj (.viewTDense .vec) .d true, .obj (.viewTDense .ten) .d false], .vmlten_ttsub, [0, 1, 2]⟩,
  ⟨.vml_sub, [.obj (.viewTDense .vec) .d true, .obj (.viewTDense .mat) .d true, .obj .tdense .d false], .vmlten_ttsub, [0, 1, 2]⟩,
  ⟨.vml_sub, [.obj (.viewTDense .vec) .d true, .obj (.viewTDense .mat) .d true, .obj (.viewTDense .vec) .d false], .vmlten_ttsub, [0, 1, 2]⟩,
  ⟨.vml_sub, [.obj (.viewTDense .vec) .d true, .obj (.viewTDense .mat) .d true, .obj (.viewTDense .mat) .d false], .vmlten_ttsub, [0, 1, 2]⟩,
  ⟨.vml_sub, [.obj (.viewTDense .vec) .d true, .obj (.viewTDense .mat) .d true, .obj (.viewTDense .ten) .d false], .vmlten_ttsub, [0, 1, 2]⟩,
  ⟨.vml_sub, [.obj (.viewTDense .vec) .d true, .obj (.viewTDense .ten) .d true, .obj .tdense .d false], .vmlten_ttsub, [0, 1, 2]⟩]

/-- src/vml/tensor/tensor_vml.cpp:823-1218 -/
def tVmlTen_2 : List Overload := [
  ⟨.vml_sub, [.obj (.viewTDense .vec) .d true, .obj (.viewTDense .ten) .d true, .obj (.viewTDense .vec) .d false], .vmlten_ttsub, [0, 1, 2]⟩,
  ⟨.vml_sub, [.obj (.viewTDense .vec) .d true, .obj (.viewTDense .ten) .d true, .obj (.viewTDense .mat) .d false], .vmlten_ttsub, [0, 1, 2]⟩,
  ⟨.vml_sub, [.obj (.viewTDense .vec) .d true, .obj (.viewTDense .ten) .d true, .obj (.viewTDense .ten) .d false], .vmlten_ttsub, [0, 1, 2]⟩,
  ⟨.vml_sub, [.obj (.viewTDense .mat) .d true, .obj .tdense .d true, .obj .tdense .d false], .vmlten_ttsub, [0, 1, 2]⟩,
  ⟨.vml_sub, [.obj (.viewTDense .mat) .d true, .obj .tdense .d true, .obj (.viewTDense .vec) .d false], .vmlten_ttsub, [0, 1, 2]⟩,
  ⟨.vml_sub, [.obj (.viewTDense .mat) .d true, .obj .tdense .d true, .obj (.viewTDense .mat) .d false], .vmlten_ttsub, [0, 1, 2]⟩,
  ⟨.vml_sub, [.obj (.viewTDense .mat) .d true, .obj .tdense .d true, .obj (.viewTDense .ten) .d false], .vmlten_ttsub, [0, 1, 2]⟩,
  ⟨.vml_sub, [.obj (.viewTDense .mat) .d true, .obj (.viewTDense .vec) .d true, .obj .tdense .d false], .vmlten_ttsub, [0, 1, 2]⟩,
  ⟨.vml_sub, [.obj (.viewTDense .mat) .d true, .obj (.viewTDense .vec) .d true, .obj (.viewTDense .vec) .d false], .vmlten_ttsub, [0, 1, 2]⟩,
  ⟨.vml_sub, [.obj (.viewTDense .mat) .d true, .obj (.viewTDense .vec) .d true, .obj (.viewTDense .mat) .d false], .vmlten_ttsub, [0, 1, 2]⟩,
  ⟨.vml_sub, [.obj (.viewTDense .mat) .d true, .obj (.viewTDense .vec) .d true, .obj (.viewTDense .ten) .d false], .vmlten_ttsub, [0, 1, 2]⟩,
  ⟨.vml_sub, [.obj (.viewTDense .mat) .d true, .obj (.viewTDense .mat) .d true, .obj .tdense .d false], .vmlten_ttsub, [0, 1, 2]⟩,
  ⟨.vml_sub, [.obj (.viewTDense .mat) .d true, .obj (.viewTDense .mat) .d true, .obj (.viewTDense .vec) .d false], .vmlten_ttsub, [0, 1, 2]⟩,
  ⟨.vml_sub, [.obj (.viewTDense .mat) .d true, .obj (.viewTDense .mat) .d true, .obj (.viewTDense .mat) .d false], .vmlten_ttsub, [0, 1, 2]⟩,
  ⟨.vml_sub, [.obj (.viewTDense .mat) .d true, .obj (.viewTDense .mat) .d true, .obj (.viewTDense .ten) .d false], .vmlten_ttsub, [0, 1, 2]⟩,
  ⟨.vml_sub, [.obj (.viewTDense .mat) .d true, .obj (.viewTDense .ten) .d true, .obj .tdense .d false], .vmlten_ttsub, [0, 1, 2]⟩,
  ⟨.vml_sub, [.obj (.viewTDense .mat) .d true, .obj (.viewTDense .ten) .d true, .obj (.viewTDense .vec) .d false], .vmlten_ttsub, [0, 1, 2]⟩,
  ⟨.vml_sub, [.obj (.viewTDense .mat) .d true, .obj (.viewTDense .ten) .d true, .obj (.viewTDense .mat) .d false], .vmlten_ttsub, [0, 1, 2]⟩,
  ⟨.vml_sub, [.obj (.viewTDense .mat) .d true, .obj (.viewTDense .ten) .d true, .obj (.viewTDense .ten) .d false], .vmlten_ttsub, [0, 1, 2]⟩,
  ⟨.vml_sub, [.obj (.viewTDense .ten) .d true, .obj .tdense .d true, .obj .tdense .d false], .vmlten_ttsub, [0, 1, 2]⟩,
  ⟨.vml_sub, [.obj (.viewTDense .ten) .d true, .obj .tdense .d true, .obj (.viewTDense .vec) .d false], .vmlten_ttsub, [0, 1, 2]⟩,
  ⟨.vml_sub, [.obj (.viewTDense .ten) .d true, .obj .tdense .d true, .obj (.viewTDense .mat) .d false], .vmlten_ttsub, [0, 1, 2]⟩,
  ⟨.vml_sub, [.obj (.viewTDense .ten) .d true, .obj .tdense .d true, .obj (.viewTDense .ten) .d false], .vmlten_ttsub, [0, 1, 2]⟩,
  ⟨.vml_sub, [.obj (.viewTDense .ten) .d true, .obj (.viewTDense .vec) .d true, .obj .tdense .d false], .vmlten_ttsub, [0, 1, 2]⟩,
  ⟨.vml_sub, [.obj (.viewTDense .ten) .d true, .obj (.viewTDense .vec) .d true, .obj (.viewTDense .vec) .d false], .vmlten_ttsub, [0, 1, 2]⟩,
  ⟨.vml_sub, [.obj (.viewTDense .ten) .d true, .obj (.viewTDense .vec) .d true, .obj (.viewTDense .mat) .d false], .vmlten_ttsub, [0, 1, 2]⟩,
  ⟨.vml_sub, [.obj (.viewTDense .ten) .d true, .obj (.viewTDense .vec) .d true, .obj (.viewTDense .ten) .d false], .vmlten_ttsub, [0, 1, 2]⟩,
  ⟨.vml_sub, [.obj (.viewTDense .ten) .d true, .obj (.viewTDense .mat) .d true, .obj .tdense .d false], .vmlten_ttsub, [0, 1, 2]⟩,
  ⟨.vml_sub, [.obj (.viewTDense .ten) .d true, .obj (.viewTDense .mat) .d true, .obj (.viewTDense .vec) .d false], .vmlten_ttsub, [0, 1, 2]⟩,
  ⟨.vml_sub, [.obj (.viewTDense .ten) .d true, .obj (.viewTDense .mat) .d true, .obj (.viewTDense .mat) .d false], .vmlten_ttsub, [0, 1, 2]⟩,
  ⟨.vml_sub, [.obj (.viewTDense .ten) .d true, .obj (.viewTDense .mat) .d true, .obj (.viewTDense .ten) .d false], .vmlten_ttsub, [0, 1, 2]⟩,
  ⟨.vml_sub, [.obj (.viewTDense .ten) .d true, .obj (.viewTDense .ten) .d true, .obj .tdense .d false], .vmlten_ttsub, [0, 1, 2]⟩,
  ⟨.vml_sub, [.obj (.viewTDense .ten) .d true, .obj (.viewTDense .ten) .d true, .obj (.viewTDense .vec) .d false], .vmlten_ttsub, [0, 1, 2]⟩,
  ⟨.vml_sub, [.obj (.viewTDense .ten) .d true, .obj (.viewTDense .ten) .d true, .obj (.viewTDense .mat) .d false], .vmlten_ttsub, [0, 1, 2]⟩,
  ⟨.vml_sub, [.obj (.viewTDense .ten) .d true, .obj (.viewTDense .ten) .d true, .obj (.viewTDense .ten) .d false], .vmlten_ttsub, [0, 1, 2]⟩,
  ⟨.vml_sub, [.obj .tcrs .s true, .obj .tcrs .s true, .obj .tcrs .s false], .vmlten_ttsub, [0, 1, 2]⟩,
  ⟨.vml_sub, [.obj .tdense .s true, .obj .tdense .s true, .obj .tdense .s false], .vmlten_ttsub, [0, 1, 2]⟩,
  ⟨.vml_sub, [.obj .tdense .s true, .obj .tdense .s true, .obj (.viewTDense .vec) .s false], .vmlten_ttsub, [0, 1, 2]⟩,
  ⟨.vml_sub, [.obj .tdense .s true, .obj .tdense .s true, .obj (.viewTDense .mat) .s false], .vmlten_ttsub, [0, 1, 2]⟩,
  ⟨.vml_sub, [.obj .tdense .s true, .obj .tdense .s true, .obj (.viewTDense .ten) .s false], .vmlten_ttsub, [0, 1, 2]⟩,
  ⟨.vml_sub, [.obj .tdense .s true, .obj (.viewTDense .vec) .s true, .obj .tdense .s false], .vmlten_ttsub, [0, 1, 2]⟩,
  ⟨.vml_sub, [.obj .tdense .s true, .obj (.viewTDense .vec) .s true, .obj (.viewTDense .vec) .s false], .vmlten_ttsub, [0, 1, 2]⟩,
  ⟨.vml_sub, [.obj .tdense .s true, .obj (.viewTDense .vec) .s true, .obj (.viewTDense .mat) .s false], .vmlten_ttsub, [0, 1, 2]⟩,
  ⟨.vml_sub, [.obj .tdense .s true, .obj (.viewTDense .vec) .s true, .obj (.viewTDense .ten) .s false], .vmlten_ttsub, [0, 1, 2]⟩,
  ⟨.vml_sub, [.obj .tdense .s true, .obj (.viewTDense .mat) .s true, .obj .tdense .s false], .vmlten_ttsub, [0, 1, 2]⟩,
  ⟨.vml_sub, [.obj .tdense .s true, .obj (.viewTDense .mat) .s true, .obj (.viewTDense .vec) .s false], .vmlten_ttsub, [0, 1, 2]⟩,
  ⟨.vml_sub, [.obj .tdense .s true, .obj (.viewTDense .mat) .s true, .obj (.viewTDense .mat) .s false], .vmlten_ttsub, [0, 1, 2]⟩,
  ⟨.vml_sub, [.obj .tdense .s true, .obj (.viewTDense .mat) .s true, .obj (.viewTDense .ten) .s false], .vmlten_ttsub, [0, 1, 2]⟩,
  ⟨.vml_sub, [.obj .tdense .s true, .obj (.viewTDense .ten) .s true, .obj .tdense .s false], .vmlten_ttsub, [0, 1, 2]⟩,
  ⟨.vml_sub, [.obj .tdense .s true, .obj (.viewTDense .ten) .s true, .obj (.viewTDense .vec) .s false], .vmlten_ttsub, [0, 1, 2]⟩,
  ⟨.vml_sub, [.obj .tdense .s true, .obj (.viewTDense .ten) .s true, .obj (.viewTDense .mat) .s false], .vmlten_ttsub, [0, 1, 2]⟩,
  ⟨.vml_sub, [.obj .tdense .s true, .obj (.viewTDense .ten) .s true, .obj (.viewTDense .ten) .s false], .vmlten_ttsub, [0, 1, 2]⟩,
  ⟨.vml_sub, [.obj (.viewTDense .vec) .s true, .obj .tdense .s true, .obj .tdense .s false], .vmlten_ttsub, [0, 1, 2]⟩,
  ⟨.vml_sub, [.obj (.viewTDense .vec) .s true, .obj .tdense .s true, .obj (.viewTDense .vec) .s false], .vmlten_ttsub, [0, 1, 2]⟩,
  ⟨.vml_sub, [.obj (.viewTDense .vec) .s true, .obj .tdense .s true, .obj (.viewTDense .mat) .s false], .vmlten_ttsub, [0, 1, 2]⟩,
  ⟨.vml_sub, [.obj (.viewTDense .vec) .s true, .obj .tdense .s true, .obj (.viewTDense .ten) .s false], .vmlten_ttsub, [0, 1, 2]⟩,
  ⟨.vml_sub, [.obj (.viewTDense .vec) .s true, .obj (.viewTDense .vec) .s true, .obj .tdense .s false], .vmlten_ttsub, [0, 1, 2]⟩,
  ⟨.vml_sub, [.obj (.viewTDense .vec) .s true, .obj (.viewTDense .vec) .s true, .obj (.viewTDense .vec) .s false], .vmlten_ttsub, [0, 1, 2]⟩,
  ⟨.vml_sub, [.obj (.viewTDense .vec) .s true, .obj (.viewTDense .vec) .s true, .obj (.viewTDense .mat) .s false], .vmlten_ttsub, [0, 1, 2]⟩,
  ⟨.vml_sub, [.obj (.viewTDense .vec) .s true, .obj (.viewTDense .vec) .s true, .obj (.viewTDense .ten) .s false], .vmlten_ttsub, [0, 1, 2]⟩,
  ⟨.vml_sub, [.obj (.viewTDense .vec) .s true, .obj (.viewTDense .mat) .s true, .obj .tdense .s false], .vmlten_ttsub, [0, 1, 2]⟩,
  ⟨.vml_sub, [.obj (.viewTDense .vec) .s true, .obj (.viewTDense .mat) .s true, .obj (.viewTDense .vec) .s false], .vmlten_ttsub, [0, 1, 2]⟩,
  ⟨.vml_sub, [.obj (.viewTDense .vec) .s true, .obj (.viewTDense .mat) .s true, .obj (.viewTDense .mat) .s false], .vmlten_ttsub, [0, 1, 2]⟩,
  ⟨.vml_sub, [.obj (.viewTDense .vec) .s true, .obj (.viewTDense .mat) .s true, .obj (.viewTDense .ten) .s false], .vmlten_ttsub, [0, 1, 2]⟩,
  ⟨.vml_sub, [.obj (.viewTDense .vec) .s true, .obj (.viewTDense .ten) .s true, .obj .tdense .s false], .vmlten_ttsub, [0, 1, 2]⟩,
  ⟨.vml_sub, [.obj (.viewTDense .vec) .s true, .obj (.viewTDense .ten) .s true, .obj (.viewTDense .vec) .s false], .vmlten_ttsub, [0, 1, 2]⟩,
  ⟨.vml_sub, [.obj (.viewTDense .vec) .s true, .obj (.viewTDense .ten) .s true, .obj (.viewTDense .mat) .s false], .vmlten_ttsub, [0, 1, 2]⟩,
  ⟨.vml_sub, [.obj (.viewTDense .vec) .s true, .obj (.viewTDense .ten) .s true, .obj (.viewTDense .ten) .s false], .vmlten_ttsub, [0, 1, 2]⟩,
  ⟨.vml_sub, [.obj (.viewTDense .mat) .s true, .obj .tdense .s true, .obj .tdense .s false], .vmlten_ttsub, [0, 1, 2]⟩,
  ⟨.vml_sub, [.obj (.viewTDense .mat) .s true, .obj .tdense .s true, .obj (.viewTDense .vec) .s false], .vmlten_ttsub, [0, 1, 2]⟩,
  ⟨.vml_sub, [.obj (.viewTDense .mat) .s true, .obj .tdense .s true, .obj (.viewTDense .mat) .s false], .vmlten_ttsub, [0, 1, 2]⟩,
  ⟨.vml_sub, [.obj (.viewTDense .mat) .s true, .obj .tdense .s true, .obj (.viewTDense .ten) .s false], .vmlten_ttsub, [0, 1, 2]⟩,
  ⟨.vml_sub, [.obj (.viewTDense .mat) .s true, .obj (.viewTDense .vec) .s true, .obj .tdense .s false], .vmlten_ttsub, [0, 1, 2]⟩,
  ⟨.vml_sub, [.obj (.viewTDense .mat) .s true, .obj (.viewTDense .vec) .s true, .obj (.viewTDense .vec) .s false], .vmlten_ttsub, [0, 1, 2]⟩,
  ⟨.vml_sub, [.obj (.viewTDense .mat) .s true, .obj (.viewTDense .vec) .s true, .obj (.viewTDense .mat) .s false], .vmlten_ttsub, [0, 1, 2]⟩,
  ⟨.vml_sub, [.obj (.viewTDense .mat) .s true, .obj (.viewTDense .vec) .s true, .obj (.viewTDense .ten) .s false], .vmlten_ttsub, [0, 1, 2]⟩,
  ⟨.vml_sub, [.obj (.viewTDense .mat) .s true, .obj (.viewTDense .mat) .s true, .obj .tdense .s false], .vmlten_ttsub, [0, 1, 2]⟩,
  ⟨.vml_sub, [.obj (.viewTDense .mat) .s true, .obj (.viewTDense .mat) .s true, .obj (.viewTDense .vec) .s false], .vmlten_ttsub, [0, 1, 2]⟩,
  ⟨.vml_sub, [.obj (.viewTDense .mat) .s true, .obj (.viewTDense .mat) .s true, .obj (.viewTDense .mat) .s false], .vmlten_ttsub, [0, 1, 2]⟩,
  ⟨.vml_sub, [.obj (.viewTDense .mat) .s true, .obj (.viewTDense .mat) .s true, .obj (.viewTDense .ten) .s false], .vmlten_ttsub, [0, 1, 2]⟩]

/-- src/vml/tensor/tensor_vml.cpp:1219-1616 -/
def tVmlTen_3 : List Overload := [
  ⟨.vml_sub, [.obj (.viewTDense .mat) .s true, .obj (.viewTDense .ten) .s true, .obj .tdense .s false], .vmlten_ttsub, [0, 1, 2]⟩,
  ⟨.vml_sub, [.obj (.viewTDense .mat) .s true, .obj (.viewTDense .ten) .s true, .obj (.viewTDense .vec) .s false], .vmlten_ttsub, [0, 1, 2]⟩,
  ⟨.vml_sub, [.obj (.viewTDense .mat) .s true, .obj (.viewTDense .ten) .s true, .obj (.viewTDense .mat) .s false], .vmlten_ttsub, [0, 1, 2]⟩,
  ⟨.vml_sub, [.obj (.viewTDense .mat) .s true, .obj (.viewTDense .ten) .s true, .obj (.viewTDense .ten) .s false], .vmlten_ttsub, [0, 1, 2]⟩,
  ⟨.vml_sub, [.obj (.viewTDense .ten) .s true, .obj .tdense .s true, .obj .tdense .s false], .vmlten_ttsub, [0, 1, 2]⟩,
  ⟨.vml_sub, [.obj (.viewTDense .ten) .s true, .obj .tdense .s true, .obj (.viewTDense .vec) .s false], .vmlten_ttsub, [0, 1, 2]⟩,
  ⟨.vml_sub, [.obj (.viewTDense .ten) .s true, .obj .tdense .s true, .obj (.viewTDense .mat) .s false], .vmlten_ttsub, [0, 1, 2]⟩,
  ⟨.vml_sub, [.obj (.viewTDense .ten) .s true, .obj .tdense .s true, .obj (.viewTDense .ten) .s false], .vmlten_ttsub, [0, 1, 2]⟩,
  ⟨.vml_sub, [.obj (.viewTDense .ten) .s true, .obj (.viewTDense .vec) .s true, .obj .tdense .s false], .vmlten_ttsub, [0, 1, 2]⟩,
  ⟨.vml_sub, [.obj (.viewTDense .ten) .s true, .obj (.viewTDense .vec) .s true, .obj (.viewTDense .vec) .s false], .vmlten_ttsub, [0, 1, 2]⟩,
  ⟨.vml_sub, [.obj (.viewTDense .ten) .s true, .obj (.viewTDense .vec) .s true, .obj (.viewTDense .mat) .s false], .vmlten_ttsub, [0, 1, 2]⟩,
  ⟨.vml_sub, [.obj (.viewTDense .ten) .s true, .obj (.viewTDense .vec) .s true, .obj (.viewTDense .ten) .s false], .vmlten_ttsub, [0, 1, 2]⟩,
  ⟨.vml_sub, [.obj (.viewTDense .ten) .s true, .obj (.viewTDense .mat) .s true, .obj .tdense .s false], .vmlten_ttsub, [0, 1, 2]⟩,
  ⟨.vml_sub, [.obj (.viewTDense .ten) .s true, .obj (.viewTDense .mat) .s true, .obj (.viewTDense .vec) .s false], .vmlten_ttsub, [0, 1, 2]⟩,
  ⟨.vml_sub, [.obj (.viewTDense .ten) .s true, .obj (.viewTDense .mat) .s true, .obj (.viewTDense .mat) .s false], .vmlten_ttsub, [0, 1, 2]⟩,
  ⟨.vml_sub, [.obj (.viewTDense .ten) .s true, .obj (.viewTDense .mat) .s true, .obj (.viewTDense .ten) .s false], .vmlten_ttsub, [0, 1, 2]⟩,
  ⟨.vml_sub, [.obj (.viewTDense .ten) .s true, .obj (.viewTDense .ten) .s true, .obj .tdense .s false], .vmlten_ttsub, [0, 1, 2]⟩,
  ⟨.vml_sub, [.obj (.viewTDense .ten) .s true, .obj (.viewTDense .ten) .s true, .obj (.viewTDense .vec) .s false], .vmlten_ttsub, [0, 1, 2]⟩,
  ⟨.vml_sub, [.obj (.viewTDense .ten) .s true, .obj (.viewTDense .ten) .s true, .obj (.viewTDense .mat) .s false], .vmlten_ttsub, [0, 1, 2]⟩,
  ⟨.vml_sub, [.obj (.viewTDense .ten) .s true, .obj (.viewTDense .ten) .s true, .obj (.viewTDense .ten) .s false], .vmlten_ttsub, [0, 1, 2]⟩,
  ⟨.vml_mul, [.obj .tcrs .d true, .obj .tcrs .d true, .obj .tcrs .d false], .vmlten_ttmul, [0, 1, 2]⟩,
  ⟨.vml_mul, [.obj .tdense .d true, .obj .tdense .d true, .obj .tdense .d false], .vmlten_ttmul, [0, 1, 2]⟩,
  ⟨.vml_mul, [.obj .tdense .d true, .obj .tdense .d true, .obj (.viewTDense .vec) .d false], .vmlten_ttmul, [0, 1, 2]⟩,
  ⟨.vml_mul, [.obj .tdense .d true, .obj .tdense .d true, .obj (.viewTDense .mat) .d false], .vmlten_ttmul, [0, 1, 2]⟩,
  ⟨.vml_mul, [.obj .tdense .d true, .obj .tdense .d true, .obj (.viewTDense .ten) .d false], .vmlten_ttmul, [0, 1, 2]⟩,
  ⟨.vml_mul, [.obj .tdense .d true, .obj (.viewTDense .vec) .d true, .obj .tdense .d false], .vmlten_ttmul, [0, 1, 2]⟩,
  ⟨.vml_mul, [.obj .tdense .d true, .obj (.viewTDense .vec) .d true, .obj (.viewTDense .vec) .d false], .vmlten_ttmul, [0, 1, 2]⟩,
  ⟨.vml_mul, [.obj .tdense .d true, .obj (.viewTDense .vec) .d true, .obj (.viewTDense .mat) .d false], .vmlten_ttmul, [0, 1, 2]⟩,
  ⟨.vml_mul, [.obj .tdense .d true, .obj (.viewTDense .vec) .d true, .obj (.viewTDense .ten) .d false], .vmlten_ttmul, [0, 1, 2]⟩,
  ⟨.vml_mul, [.obj .tdense .d true, .obj (.viewTDense .mat) .d true, .obj .tdense .d false], .vmlten_ttmul, [0, 1, 2]⟩,
  ⟨.vml_mul, [.obj .tdense .d true, .obj (.viewTDense .mat) .d true, .obj (.viewTDense .vec) .d false], .vmlten_ttmul, [0, 1, 2]⟩,
  ⟨.vml_mul, [.obj .tdense .d true, .obj (.viewTDense .mat) .d true, .obj (.viewTDense .mat) .d false], .vmlten_ttmul, [0, 1, 2]⟩,
  ⟨.vml_mul, [.obj .tdense .d true, .obj (.viewTDense .mat) .d true, .obj (.viewTDense .ten) .d false], .vmlten_ttmul, [0, 1, 2]⟩,
  ⟨.vml_mul, [.obj .tdense .d true, .obj (.viewTDense .ten) .d true, .obj .tdense .d false], .vmlten_ttmul, [0, 1, 2]⟩,
  ⟨.vml_mul, [.obj .tdense .d true, .obj (.viewTDense .ten) .d true, .obj (.viewTDense .vec) .d false], .vmlten_ttmul, [0, 1, 2]⟩,
  ⟨.vml_mul, [.obj .tdense .d true, .obj (.viewTDense .ten) .d true, .obj (.viewTDense .mat) .d false], .vmlten_ttmul, [0, 1, 2]⟩,
  ⟨.vml_mul, [.obj .tdense .d true, .obj (.viewTDense .ten) .d true, .obj (.viewTDense .ten) .d false], .vmlten_ttmul, [0, 1, 2]⟩,
  ⟨.vml_mul, [.obj (.viewTDense .vec) .d true, .obj .tdense .d true, .obj .tdense .d false], .vmlten_ttmul, [0, 1, 2]⟩,
  ⟨.vml_mul, [.obj (.viewTDense .vec) .d true, .obj .tdense .d true, .obj (.viewTDense .vec) .d false], .vmlten_ttmul, [0, 1, 2]⟩,
  ⟨.vml_mul, [.obj (.viewTDense .vec) .d true, .obj .tdense .d true, .obj (.viewTDense .mat) .d false], .vmlten_ttmul, [0, 1, 2]⟩,
  ⟨.vml_mul, [.obj (.viewTDense .vec) .d true, .obj .tdense .d true, .obj (.viewTDense .ten) .d false], .vmlten_ttmul, [0, 1, 2]⟩,
  ⟨.vml_mul, [.obj (.viewTDense .vec) .d true, .obj (.viewTDense .vec) .d true, .obj .tdense .d false], .vmlten_ttmul, [0, 1, 2]⟩,
  ⟨.vml_mul, [.obj (.viewTDense .vec) .d true, .obj (.viewTDense .vec) .d true, .obj (.viewTDense .vec) .d false], .vmlten_ttmul, [0, 1, 2]⟩,
  ⟨.vml_mul, [.obj (.viewTDense .vec) .d true, .obj (.viewTDense .vec) .d true, .obj (.viewTDense .mat) .d false], .vmlten_ttmul, [0, 1, 2]⟩,
  ⟨.vml_mul, [.obj (.viewTDense .vec) .d true, .obj (.viewTDense .vec) .d true, .obj (.viewTDense .ten) .d false], .vmlten_ttmul, [0, 1, 2]⟩,
  ⟨.vml_mul, [.obj (.viewTDense .vec) .d true, .obj (.viewTDense .mat) .d true, .obj .tdense .d false], .vmlten_ttmul, [0, 1, 2]⟩,
  ⟨.vml_mul, [.obj (.viewTDense .vec) .d true, .obj (.viewTDense .mat) .d true, .obj (.viewTDense .vec) .d false], .vmlten_ttmul, [0, 1, 2]⟩,
  ⟨.vml_mul, [.obj (.viewTDense .vec) .d true, .obj (.viewTDense .mat) .d true, .obj (.viewTDense .mat) .d false], .vmlten_ttmul, [0, 1, 2]⟩,
  ⟨.vml_mul, [.obj (.viewTDense .vec) .d true, .obj (.viewTDense .mat) .d true, .obj (.viewTDense .ten) .d false], .vmlten_ttmul, [0, 1, 2]⟩,
  ⟨.vml_mul, [.obj (.viewTDense .vec) .d true, .obj (.viewTDense .ten) .d true, .obj .tdense .d false], .vmlten_ttmul, [0, 1, 2]⟩,
  ⟨.vml_mul, [.obj (.viewTDense .vec) .d true, .obj (.viewTDense .ten) .d true, .obj (.viewTDense .vec) .d false], .vmlten_ttmul, [0, 1, 2]⟩,
  ⟨.vml_mul, [.obj (.viewTDense .vec) .d true, .obj (.viewTDense .ten) .d true, .obj (.viewTDense .mat) .d false], .vmlten_ttmul, [0, 1, 2]⟩,
  ⟨.vml_mul, [.obj (.viewTDense .vec) .d true, .obj (.viewTDense .ten) .d true, .obj (.viewTDense .ten) .d false], .vmlten_ttmul, [0, 1, 2]⟩,
  ⟨.vml_mul, [.obj (.viewTDense .mat) .d true, .obj .tdense .d true, .obj .tdense .d false], .vmlten_ttmul, [0, 1, 2]⟩,
  ⟨.vml_mul, [.obj (.viewTDense .mat) .d true, .obj .tdense .d true, .obj (.viewTDense .vec) .d false], .vmlten_ttmul, [0, 1, 2]⟩,
  ⟨.vml_mul, [.obj (.viewTDense .mat) .d true, .obj .tdense .d true, .obj (.viewTDense .mat) .d false], .vmlten_ttmul, [0, 1, 2]⟩,
  ⟨.vml_mul, [.obj (.viewTDense .mat) .d true, .obj .tdense .d true, .obj (.viewTDense .ten) .d false], .vmlten_ttmul, [0, 1, 2]⟩,
  ⟨.vml_mul, [.obj (.viewTDense .mat) .d true, .obj (.viewTDense .vec) .d true, .obj .tdense .d false], .vmlten_ttmul, [0, 1, 2]⟩,
  ⟨.vml_mul, [.obj (.viewTDense .mat) .d true, .obj (.viewTDense .vec) .d true, .obj (.viewTDense .vec) .d false], .vmlten_ttmul, [0, 1, 2]⟩,
  ⟨.vml_mul, [.obj (.viewTDense .mat) .d true, .obj (.viewTDense .vec) .d true, .obj (.viewTDense .mat) .d false], .vmlten_ttmul, [0, 1, 2]⟩,
  ⟨.vml_mul, [.obj (.viewTDense .mat) .d true, .obj (.viewTDense .vec) .d true, .obj (.viewTDense .ten) .d false], .vmlten_ttmul, [0, 1, 2]⟩,
  ⟨.vml_mul, [.obj (.viewTDense .mat) .d true, .obj (.viewTDense .mat) .d true, .obj .tdense .d false], .vmlten_ttmul, [0, 1, 2]⟩,
  ⟨.vml_mul, [.obj (.viewTDense .mat) .d true, .obj (.viewTDense .mat) .d true, .obj (.viewTDense .vec) .d false], .vmlten_ttmul, [0, 1, 2]⟩,
  ⟨.vml_mul, [.obj (.viewTDense .mat) .d true, .obj (.viewTDense .mat) .d true, .obj (.viewTDense .mat) .d false], .vmlten_ttmul, [0, 1, 2]⟩,
  ⟨.vml_mul, [.obj (.viewTDense .mat) .d true, .obj (.viewTDense .mat) .d true, .obj (.viewTDense .ten) .d false], .vmlten_ttmul, [0, 1, 2]⟩,
  ⟨.vml_mul, [.obj (.viewTDense .mat) .d true, .obj (.viewTDense .ten) .d true, .obj .tdense .d false], .vmlten_ttmul, [0, 1, 2]⟩,
  ⟨.vml_mul, [.obj (.viewTDense .mat) .d true, .obj (.viewTDense .ten) .d true, .obj (.viewTDense .vec) .d false], .vmlten_ttmul, [0, 1, 2]⟩,
  ⟨.vml_mul, [.obj (.viewTDense .mat) .d true, .obj (.viewTDense .ten) .d true, .obj (.viewTDense .mat) .d false], .vmlten_ttmul, [0, 1, 2]⟩,
  ⟨.vml_mul, [.obj (.viewTDense .mat) .d true, .obj (.viewTDense .ten) .d true, .obj (.viewTDense .ten) .d false], .vmlten_ttmul, [0, 1, 2]⟩,
  ⟨.vml_mul, [.obj (.viewTDense .ten) .d true, .obj .tdense .d true, .obj .tdense .d false], .vmlten_ttmul, [0, 1, 2]⟩,
  ⟨.vml_mul, [.obj (.viewTDense .ten) .d true, .obj .tdense .d true, .obj (.viewTDense .vec) .d false], .vmlten_ttmul, [0, 1, 2]⟩,
  ⟨.vml_mul, [.obj (.viewTDense .ten) .d true, .obj .tdense .d true, .obj (.viewTDense .mat) .d false], .vmlten_ttmul, [0, 1, 2]⟩,
  ⟨.vml_mul, [.obj (.viewTDense .ten) .d true, .obj .tdense .d true, .obj (.viewTDense .ten) .d false], .vmlten_ttmul, [0, 1, 2]⟩,
  ⟨.vml_mul, [.obj (.viewTDense .ten) .d true, .obj (.viewTDense .vec) .d true, .obj .tdense .d false], .vmlten_ttmul, [0, 1, 2]⟩,
  ⟨.vml_mul, [.obj (.viewTDense .ten) .d true, .obj (.viewTDense .vec) .d true, .obj (.viewTDense .vec) .d false], .vmlten_ttmul, [0, 1, 2]⟩,
  ⟨.vml_mul, [.obj (.viewTDense .ten) .d true, .obj (.viewTDense .vec) .d true, .obj (.viewTDense .mat) .d false], .vmlten_ttmul, [0, 1, 2]⟩,
  ⟨.vml_mul, [.obj (.viewTDense .ten) .d true, .obj (.viewTDense .vec) .d true, .obj (.viewTDense .ten) .d false], .vmlten_ttmul, [0, 1, 2]⟩,
  ⟨.vml_mul, [.obj (.viewTDense .ten) .d true, .obj (.viewTDense .mat) .d true, .obj .tdense .d false], .vmlten_ttmul, [0, 1, 2]⟩,
  ⟨.vml_mul, [.obj (.viewTDense .ten) .d true, .obj (.viewTDense .mat) .d true, .obj (.viewTDense .vec) .d false], .vmlten_ttmul, [0, 1, 2]⟩,
  ⟨.vml_mul, [.obj (.viewTDense .ten) .d true, .obj (.viewTDense .mat) .d true, .obj (.viewTDense .mat) .d false], .vmlten_ttmul, [0, 1, 2]⟩]

/-- src/vml/tensor/tensor_vml.cpp:1617-2010 -/
def tVmlTen_4 : List Overload := [
  ⟨.vml_mul, [.obj (.viewTDense .ten) .d true, .obj (.viewTDense .mat) .d true, .obj (.viewTDense .ten) .d false], .vmlten_ttmul, [0, 1, 2]⟩,
  ⟨.vml_mul, [.obj (.viewTDense .ten) .d true, .obj (.viewTDense .ten) .d true, .obj .tdense .d false], .vmlten_ttmul, [0, 1, 2]⟩,
  ⟨.vml_mul, [.obj (.viewTDense .ten) .d true, .obj (.viewTDense .ten) .d true, .obj (.viewTDense .vec) .d false], .vmlten_ttmul, [0, 1, 2]⟩,
  ⟨.vml_mul, [.obj (.viewTDense .ten) .d true, .obj (.viewTDense .ten) .d true, .obj (.viewTDense .mat) .d false], .vmlten_ttmul, [0, 1, 2]⟩,
  ⟨.vml_mul, [.obj (.viewTDense .ten) .d true, .obj (.viewTDense .ten) .d true, .obj (.viewTDense .ten) .d false], .vmlten_ttmul, [0, 1, 2]⟩,
  ⟨.vml_mul, [.obj .tcrs .s true, .obj .tcrs .s true, .obj .tcrs .s false], .vmlten_ttmul, [0, 1, 2]⟩,
  ⟨.vml_mul, [.obj .tdense .s true, .obj .tdense .s true, .obj .tdense .s false], .vmlten_ttmul, [0, 1, 2]⟩,
  ⟨.vml_mul, [.obj .tdense .s true, .obj .tdense .s true, .obj (.viewTDense .vec) .s false], .vmlten_ttmul, [0, 1, 2]⟩,
  ⟨.vml_mul, [.obj .tdense .s true, .obj .tdense .s true, .obj (.viewTDense .mat) .s false], .vmlten_ttmul, [0, 1, 2]⟩,
  ⟨.vml_mul, [.obj .tdense .s true, .obj .tdense .s true, .obj (.viewTDense .ten) .s false], .vmlten_ttmul, [0, 1, 2]⟩,
  ⟨.vml_mul, [.obj .tdense .s true, .obj (.viewTDense .vec) .s true, .obj .tdense .s false], .vmlten_ttmul, [0, 1, 2]⟩,
  ⟨.vml_mul, [.obj .tdense .s true, .obj (.viewTDense .vec) .s true, .obj (.viewTDense .vec) .s false], .vmlten_ttmul, [0, 1, 2]⟩,
  ⟨.vml_mul, [.obj .tdense .s true, .obj (.viewTDense .vec) .s true, .obj (.viewTDense .mat) .s false], .vmlten_ttmul, [0, 1, 2]⟩,
  ⟨.vml_mul, [.obj .tdense .s true, .obj (.viewTDense .vec) .s true, .obj (.viewTDense .ten) .s false], .vmlten_ttmul, [0, 1, 2]⟩,
  ⟨.vml_mul, [.obj .tdense .s true, .obj (.viewTDense .mat) .s true, .obj .tdense .s false], .vmlten_ttmul, [0, 1, 2]⟩,
  ⟨.vml_mul, [.obj .tdense .s true, .obj (.viewTDense .mat) .s true, .obj (.viewTDense .vec) .s false], .vmlten_ttmul, [0, 1, 2]⟩,
  ⟨.vml_mul, [.obj .tdense .s true, .obj (.viewTDense .mat) .s true, .obj (.viewTDense .mat) .s false], .vmlten_ttmul, [0, 1, 2]⟩,
  ⟨.vml_mul, [.obj .tdense .s true, .obj (.viewTDense .mat) .s true, .obj (.viewTDense .ten) .s false], .vmlten_ttmul, [0, 1, 2]⟩,
  ⟨.vml_mul, [.obj .tdense .s true, .obj (.viewTDense .ten) .s true, .obj .tdense .s false], .vmlten_ttmul, [0, 1, 2]⟩,
  ⟨.vml_mul, [.obj .tdense .s true, .obj (.viewTDense .ten) .s true, .obj (.viewTDense .vec) .s false], .vmlten_ttmul, [0, 1, 2]⟩,
  ⟨.vml_mul, [.obj .tdense .s true, .obj (.viewTDense .ten) .s true, .obj (.viewTDense .mat) .s false], .vmlten_ttmul, [0, 1, 2]⟩,
  ⟨.vml_mul, [.obj .tdense .s true, .obj (.viewTDense .ten) .s true, .obj (.viewTDense .ten) .s false], .vmlten_ttmul, [0, 1, 2]⟩,
  ⟨.vml_mul, [.obj (.viewTDense .vec) .s true, .obj .tdense .s true, .obj .tdense .s false], .vmlten_ttmul, [0, 1, 2]⟩,
  ⟨.vml_mul, [.obj (.viewTDense .vec) .s true, .obj .tdense .s true, .obj (.viewTDense .vec) .s false], .vmlten_ttmul, [0, 1, 2]⟩,
  ⟨.vml_mul, [.obj (.viewTDense .vec) .s true, .obj .tdense .s true, .obj (.viewTDense .mat) .s false], .vmlten_ttmul, [0, 1, 2]⟩,
  ⟨.vml_mul, [.obj (.viewTDense .vec) .s true, .obj .tdense .s true, .obj (.viewTDense .ten) .s false], .vmlten_ttmul, [0, 1, 2]⟩,
  ⟨.vml_mul, [.obj (.viewTDense .vec) .s true, .obj (.viewTDense .vec) .s true, .obj .tdense .s false], .vmlten_ttmul, [0, 1, 2]⟩,
  ⟨.vml_mul, [.obj (.viewTDense .vec) .s true, .obj (.viewTDense .vec) .s true, .obj (.viewTDense .vec) .s false], .vmlten_ttmul, [0, 1, 2]⟩,
  ⟨.vml_mul, [.obj (.viewTDense .vec) .s true, .obj (.viewTDense .vec) .s true, .obj (.viewTDense .mat) .s false], .vmlten_ttmul, [0, 1, 2]⟩,
  ⟨.vml_mul, [.obj (.viewTDense .vec) .s true, .obj (.viewTDense .vec) .s true, .obj (.viewTDense .ten) .s false], .vmlten_ttmul, [0, 1, 2]⟩,
  ⟨.vml_mul, [.obj (.viewTDense .vec) .s true, .obj (.viewTDense .mat) .s true, .obj .tdense .s false], .vmlten_ttmul, [0, 1, 2]⟩,
  ⟨.vml_mul, [.obj (.viewTDense .vec) .s true, .obj (.viewTDense .mat) .s true, .obj (.viewTDense .vec) .s false], .vmlten_ttmul, [0, 1, 2]⟩,
  ⟨.vml_mul, [.obj (.viewTDense .vec) .s true, .obj (.viewTDense .mat) .s true, .obj (.viewTDense .mat) .s false], .vmlten_ttmul, [0, 1, 2]⟩,
  ⟨.vml_mul, [.obj (.viewTDense .vec) .s true, .obj (.viewTDense .mat) .s true, .obj (.viewTDense .ten) .s false], .vmlten_ttmul, [0, 1, 2]⟩,
  ⟨.vml_mul, [.obj (.viewTDense .vec) .s true, .obj (.viewTDense .ten) .s true, .obj .tdense .s false], .vmlten_ttmul, [0, 1, 2]⟩,
  ⟨.vml_mul, [.obj (.viewTDense .vec) .s true, .obj (.viewTDense .ten) .s true, .obj (.viewTDense .vec) .s false], .vmlten_ttmul, [0, 1, 2]⟩,
  ⟨.vml_mul, [.obj (.viewTDense .vec) .s true, .obj (.viewTDense .ten) .s true, .obj (.viewTDense .mat) .s false], .vmlten_ttmul, [0, 1, 2]⟩,
  ⟨.vml_mul, [.obj (.viewTDense .vec) .s true, .obj (.viewTDense .ten) .s true, .obj (.viewTDense .ten) .s false], .vmlten_ttmul, [0, 1, 2]⟩,
  ⟨.vml_mul, [.obj (.viewTDense .mat) .s true, .obj .tdense .s true, .obj .tdense .s false], .vmlten_ttmul, [0, 1, 2]⟩,
  ⟨.vml_mul, [.obj (.viewTDense .mat) .s true, .obj .tdense .s true, .obj (.viewTDense .vec) .s false], .vmlten_ttmul, [0, 1, 2]⟩,
  ⟨.vml_mul, [.obj (.viewTDense .mat) .s true, .obj .tdense .s true, .obj (.viewTDense .mat) .s false], .vmlten_ttmul, [0, 1, 2]⟩,
  ⟨.vml_mul, [.obj (.viewTDense .mat) .s true, .obj .tdense .s true, .obj (.viewTDense .ten) .s false], .vmlten_ttmul, [0, 1, 2]⟩,
  ⟨.vml_mul, [.obj (.viewTDense .mat) .s true, .obj (.viewTDense .vec) .s true, .obj .tdense .s false], .vmlten_ttmul, [0, 1, 2]⟩,
  ⟨.vml_mul, [.obj (.viewTDense .mat) .s true, .obj (.viewTDense .vec) .s true, .obj (.viewTDense .vec) .s false], .vmlten_ttmul, [0, 1, 2]⟩,
  ⟨.vml_mul, [.obj (.viewTDense .mat) .s true, .obj (.viewTDense .vec) .s true, .obj (.viewTDense .mat) .s false], .vmlten_ttmul, [0, 1, 2]⟩,
  ⟨.vml_mul, [.obj (.viewTDense .mat) .s true, .obj (.viewTDense .vec) .s true, .obj (.viewTDense .ten) .s false], .vmlten_ttmul, [0, 1, 2]⟩,
  ⟨.vml_mul, [.obj (.viewTDense .mat) .s true, .obj (.viewTDense .mat) .s true, .obj .tdense .s false], .vmlten_ttmul, [0, 1, 2]⟩,
  ⟨.vml_mul, [.obj (.viewTDense .mat) .s true, .obj (.viewTDense .mat) .s true, .obj (.viewTDense .vec) .s false], .vmlten_ttmul, [0, 1, 2]⟩,
  ⟨.vml_mul, [.obj (.viewTDense .mat) .s true, .obj (.viewTDense .mat) .s true, .obj (.viewTDense .mat) .s false], .vmlten_ttmul, [0, 1, 2]⟩,
  ⟨.vml_mul, [.obj (.viewTDense .mat) .s true, .obj (.viewTDense .mat) .s true, .obj (.viewTDense .ten) .s false], .vmlten_ttmul, [0, 1, 2]⟩,
  ⟨.vml_mul, [.obj (.viewTDense .mat) .s true, .obj (.viewTDense .ten) .s true, .obj .tdense .s false], .vmlten_ttmul, [0, 1, 2]⟩,
  ⟨.vml_mul, [.obj (.viewTDense .mat) .s true, .obj (.viewTDense .ten) .s true, .obj (.viewTDense .vec) .s false], .vmlten_ttmul, [0, 1, 2]⟩,
  ⟨.vml_mul, [.obj (.viewTDense .mat) .s true, .obj (.viewTDense .ten) .s true, .obj (.viewTDense .mat) .s false], .vmlten_ttmul, [0, 1, 2]⟩,
  ⟨.vml_mul, [.obj (.viewTDense .mat) .s true, .obj (.viewTDense .ten) .s true, .obj (.viewTDense .ten) .s false], .vmlten_ttmul, [0, 1, 2]⟩,
  ⟨.vml_mul, [.obj (.viewTDense .ten) .s true, .obj .tdense .s true, .obj .tdense .s false], .vmlten_ttmul, [0, 1, 2]⟩,
  ⟨.vml_mul, [.obj (.viewTDense .ten) .s true, .obj .tdense .s true, .obj (.viewTDense .vec) .s false], .vmlten_ttmul, [0, 1, 2]⟩,
  ⟨.vml_mul, [.obj (.viewTDense .ten) .s true, .obj .tdense .s true, .obj (.viewTDense .mat) .s false], .vmlten_ttmul, [0, 1, 2]⟩,
  ⟨.vml_mul, [.obj (.viewTDense .ten) .s true, .obj .tdense .s true, .obj (.viewTDense .ten) .s false], .vmlten_ttmul, [0, 1, 2]⟩,
  ⟨.vml_mul, [.obj (.viewTDense .ten) .s true, .obj (.viewTDense .vec) .s true, .obj .tdense .s false], .vmlten_ttmul, [0, 1, 2]⟩,
  ⟨.vml_mul, [.obj (.viewTDense .ten) .s true, .obj (.viewTDense .vec) .s true, .obj (.viewTDense .vec) .s false], .vmlten_ttmul, [0, 1, 2]⟩,
  ⟨.vml_mul, [.obj (.viewTDense .ten) .s true, .obj (.viewTDense .vec) .s true, .obj (.viewTDense .mat) .s false], .vmlten_ttmul, [0, 1, 2]⟩,
  ⟨.vml_mul, [.obj (.viewTDense .ten) .s true, .obj (.viewTDense .vec) .s true, .obj (.viewTDense .ten) .s false], .vmlten_ttmul, [0, 1, 2]⟩,
  ⟨.vml_mul, [.obj (.viewTDense .ten) .s true, .obj (.viewTDense .mat) .s true, .obj .tdense .s false], .vmlten_ttmul, [0, 1, 2]⟩,
  ⟨.vml_mul, [.obj (.viewTDense .ten) .s true, .obj (.viewTDense .mat) .s true, .obj (.viewTDense .vec) .s false], .vmlten_ttmul, [0, 1, 2]⟩,
  ⟨.vml_mul, [.obj (.viewTDense .ten) .s true, .obj (.viewTDense .mat) .s true, .obj (.viewTDense .mat) .s false], .vmlten_ttmul, [0, 1, 2]⟩,
  ⟨.vml_mul, [.obj (.viewTDense .ten) .s true, .obj (.viewTDense .mat) .s true, .obj (.viewTDense .ten) .s false], .vmlten_ttmul, [0, 1, 2]⟩,
  ⟨.vml_mul, [.obj (.viewTDense .ten) .s true, .obj (.viewTDense .ten) .s true, .obj .tdense .s false], .vmlten_ttmul, [0, 1, 2]⟩,
  ⟨.vml_mul, [.obj (.viewTDense .ten) .s true, .obj (.viewTDense .ten) .s true, .obj (.viewTDense .vec) .s false], .vmlten_ttmul, [0, 1, 2]⟩,
  ⟨.vml_mul, [.obj (.viewTDense .ten) .s true, .obj (.viewTDense .ten) .s true, .obj (.viewTDense .mat) .s false], .vmlten_ttmul, [0, 1, 2]⟩,
  ⟨.vml_mul, [.obj (.viewTDense .ten) .s true, .obj (.viewTDense .ten) .s true, .obj (.viewTDense .ten) .s false], .vmlten_ttmul, [0, 1, 2]⟩,
  ⟨.vml_div, [.obj .tcrs .d true, .obj .tcrs .d true, .obj .tcrs .d false], .vmlten_ttdiv, [0, 1, 2]⟩,
  ⟨.vml_div, [.obj .tdense .d true, .obj .tdense .d true, .obj .tdense .d false], .vmlten_ttdiv, [0, 1, 2]⟩,
  ⟨.vml_div, [.obj .tdense .d true, .obj .tdense .d true, .obj (.viewTDense .vec) .d false], .vmlten_ttdiv, [0, 1, 2]⟩,
  ⟨.vml_div, [.obj .tdense .d true, .obj .tdense .d true, .obj (.viewTDense .mat) .d false], .vmlten_ttdiv, [0, 1, 2]⟩,
  ⟨.vml_div, [.obj .tdense .d true, .obj .tdense .d true, .obj (.viewTDense .ten) .d false], .vmlten_ttdiv, [0, 1, 2]⟩,
  ⟨.vml_div, [.obj .tdense .d true, .obj (.viewTDense .vec) .d true, .obj .tdense .d false], .vmlten_ttdiv, [0, 1, 2]⟩,
  ⟨.vml_div, [.obj .tdense .d true, .obj (.viewTDense .vec) .d true, .obj (.viewTDense .vec) .d false], .vmlten_ttdiv, [0, 1, 2]⟩,
  ⟨.vml_div, [.obj .tdense .d true, .obj (.viewTDense .vec) .d true, .obj (.viewTDense .mat) .d false], .vmlten_ttdiv, [0, 1, 2]⟩,
  ⟨.vml_div, [.obj .tdense .d true, .obj (.viewTDense .vec) .d true, .obj (.viewTDense .ten) .d false], .vmlten_ttdiv, [0, 1, 2]⟩,
  ⟨.vml_div, [.obj .tdense .d true, .obj (.viewTDense .mat) .d true, .obj .tdense .d false], .vmlten_ttdiv, [0, 1, 2]⟩]

/-- src/vml/tensor/tensor_vml.cpp:2011-2407 -/
def tVmlTen_5 : List Overload := [
  ⟨.vml_div, [.obj .tdense .d true, .obj (.viewTDense .mat) .d true, .obj (.viewTDense .vec) .d false], .vmlten_ttdiv, [0, 1, 2]⟩,
  ⟨.vml_div, [.obj .tdense .d true, .obj (.viewTDense .mat) .d true, .obj (.viewTDense .mat) .d false], .vmlten_ttdiv, [0, 1, 2]⟩,
  ⟨.vml_div, [.obj .tdense .d true, .obj (.viewTDense .mat) .d true, .obj (.viewTDense .ten) .d false], .vmlten_ttdiv, [0, 1, 2]⟩,
  ⟨.vml_div, [.obj .tdense .d true, .obj (.viewTDense .ten) .d true, .obj .tdense .d false], .vmlten_ttdiv, [0, 1, 2]⟩,
  ⟨.vml_div, [.obj .tdense .d true, .obj (.viewTDense .ten) .d true, .obj (.viewTDense .vec) .d false], .vmlten_ttdiv, [0, 1, 2]⟩,
  ⟨.vml_div, [.obj .tdense .d true, .obj (.viewTDense .ten) .d true, .obj (.viewTDense .mat) .d false], .vmlten_ttdiv, [0, 1, 2]⟩,
  ⟨.vml_div, [.obj .tdense .d true, .obj (.viewTDense .ten) .d true, .obj (.viewTDense .ten) .d false], .vmlten_ttdiv, [0, 1, 2]⟩,
  ⟨.vml_div, [.obj (.viewTDense .vec) .d true, .obj .tdense .d true, .obj .tdense .d false], .vmlten_ttdiv, [0, 1, 2]⟩,
  ⟨.vml_div, [.obj (.viewTDense .vec) .d true, .obj .tdense .d true, .obj (.viewTDense .vec) .d false], .vmlten_ttdiv, [0, 1, 2]⟩,
  ⟨.vml_div, [.obj (.viewTDense .vec) .d true, .obj .tdense .d true, .obj (.viewTDense .mat) .d false], .vmlten_ttdiv, [0, 1, 2]⟩,
  ⟨.vml_div, [.obj (.viewTDense .vec) .d true, .obj .tdense .d true, .obj (.viewTDense .ten) .d false], .vmlten_ttdiv, [0, 1, 2]⟩,
  ⟨.vml_div, [.obj (.viewTDense .vec) .d true, .obj (.viewTDense .vec) .d true, .obj .tdense .d false], .vmlten_ttdiv, [0, 1, 2]⟩,
  ⟨.vml_div, [.obj (.viewTDense .vec) .d true, .obj (.viewTDense .vec) .d true, .obj (.viewTDense .vec) .d false], .vmlten_ttdiv, [0, 1, 2]⟩,
  ⟨.vml_div, [.obj (.viewTDense .vec) .d true, .obj (.viewTDense .vec) .d true, .obj (.viewTDense .mat) .d false], .vmlten_ttdiv, [0, 1, 2]⟩,
  ⟨.vml_div, [.obj (.viewTDense .vec) .d true, .obj (.viewTDense .vec) .d true, .obj (.viewTDense .ten) .d false], .vmlten_ttdiv, [0, 1, 2]⟩,
  ⟨.vml_div, [.obj (.viewTDense .vec) .d true, .obj (.viewTDense .mat) .d true, .obj .tdense .d false], .vmlten_ttdiv, [0, 1, 2]⟩,
  ⟨.vml_div, [.obj (.viewTDense .vec) .d true, .obj (.viewTDense .mat) .d true, .obj (.viewTDense .vec) .d false], .vmlten_ttdiv, [0, 1, 2]⟩,
  ⟨.vml_div, [.obj (.viewTDense .vec) .d true, .obj (.viewTDense .mat) .d true, .obj (.viewTDense .mat) .d false], .vmlten_ttdiv, [0, 1, 2]⟩,
  ⟨.vml_div, [.obj (.viewTDense .vec) .d true, .obj (.viewTDense .mat) .d true, .obj (.viewTDense .ten) .d false], .vmlten_ttdiv, [0, 1, 2]⟩,
  ⟨.vml_div, [.obj (.viewTDense .vec) .d true, .obj (.viewTDense .ten) .d true, .obj .tdense .d false], .vmlten_ttdiv, [0, 1, 2]⟩,
  ⟨.vml_div, [.obj (.viewTDense .vec) .d true, .obj (.viewTDense .ten) .d true, .obj (.viewTDense .vec) .d false], .vmlten_ttdiv, [0, 1, 2]⟩,
  ⟨.vml_div, [.obj (.viewTDense .vec) .d true, .obj (.viewTDense .ten) .d true, .obj (.viewTDense .mat) .d false], .vmlten_ttdiv, [0, 1, 2]⟩,
  ⟨.vml_div, [.obj (.viewTDense .vec) .d true, .obj (.viewTDense .ten) .d true, .obj (.viewTDense .ten) .d false], .vmlten_ttdiv, [0, 1, 2]⟩,
  ⟨.vml_div, [.obj (.viewTDense .mat) .d true, .obj .tdense .d true, .obj .tdense .d false], .vmlten_ttdiv, [0, 1, 2]⟩,
  ⟨.vml_div, [.obj (.viewTDense .mat) .d true, .obj .tdense .d true, .obj (.viewTDense .vec) .d false], .vmlten_ttdiv, [0, 1, 2]⟩,
  ⟨.vml_div, [.obj (.viewTDense .mat) .d true, .obj .tdense .d true, .obj (.viewTDense .mat) .d false], .vmlten_ttdiv, [0, 1, 2]⟩,
  ⟨.vml_div, [.obj (.viewTDense .mat) .d true, .obj .tdense .d true, .obj (.viewTDense .ten) .d false], .vmlten_ttdiv, [0, 1, 2]⟩,
  ⟨.vml_div, [.obj (.viewTDense .mat) .d true, .obj (.viewTDense .vec) .d true, .obj .tdense .d false], .vmlten_ttdiv, [0, 1, 2]⟩,
  ⟨.vml_div, [.obj (.viewTDense .mat) .d true, .obj (.viewTDense .vec) .d true, .obj (.viewTDense .vec) .d false], .vmlten_ttdiv, [0, 1, 2]⟩,
  ⟨.vml_div, [.obj (.viewTDense .mat) .d true, .obj (.viewTDense .vec) .d true, .obj (.viewTDense .mat) .d false], .vmlten_ttdiv, [0, 1, 2]⟩,
  ⟨.vml_div, [.obj (.viewTDense .mat) .d true, .obj (.viewTDense .vec) .d true, .obj (.viewTDense .ten) .d false], .vmlten_ttdiv, [0, 1, 2]⟩,
  ⟨.vml_div, [.obj (.viewTDense .mat) .d true, .obj (.viewTDense .mat) .d true, .obj .tdense .d false], .vmlten_ttdiv, [0, 1, 2]⟩,
  ⟨.vml_div, [.obj (.viewTDense .mat) .d true, .obj (.viewTDense .mat) .d true, .obj (.viewTDense .vec) .d false], .vmlten_ttdiv, [0, 1, 2]⟩,
  ⟨.vml_div, [.obj (.viewTDense .mat) .d true, .obj (.viewTDense .mat) .d true, .obj (.viewTDense .mat) .d false], .vmlten_ttdiv, [0, 1, 2]⟩,
  ⟨.vml_div, [.obj (.viewTDense .mat) .d true, .obj (.viewTDense .mat) .d true, .obj (.viewTDense .ten) .d false], .vmlten_ttdiv, [0, 1, 2]⟩,
  ⟨.vml_div, [.obj (.viewTDense .mat) .d true, .obj (.viewTDense .ten) .d true, .obj .tdense .d false], .vmlten_ttdiv, [0, 1, 2]⟩,
  ⟨.vml_div, [.obj (.viewTDense .mat) .d true, .obj (.viewTDense .ten) .d true, .obj (.viewTDense .vec) .d false], .vmlten_ttdiv, [0, 1, 2]⟩,
  ⟨.vml_div, [.obj (.viewTDense .mat) .d true, .obj (.viewTDense .ten) .d true, .obj (.viewTDense .mat) .d false], .vmlten_ttdiv, [0, 1, 2]⟩,
  ⟨.vml_div, [.obj (.viewTDense .mat) .d true, .obj (.viewTDense .ten) .d true, .obj (.viewTDense .ten) .d false], .vmlten_ttdiv, [0, 1, 2]⟩,
  ⟨.vml_div, [.obj (.viewTDense .ten) .d true, .obj .tdense .d true, .obj .tdense .d false], .vmlten_ttdiv, [0, 1, 2]⟩,
  ⟨.vml_div, [.obj (.viewTDense .ten) .d true, .obj .tdense .d true, .obj (.viewTDense .vec) .d false], .vmlten_ttdiv, [0, 1, 2]⟩,
  ⟨.vml_div, [.obj (.viewTDense .ten) .d true, .obj .tdense .d true, .obj (.viewTDense .mat) .d false], .vmlten_ttdiv, [0, 1, 2]⟩,
  ⟨.vml_div, [.obj (.viewTDense .ten) .d true, .obj .tdense .d true, .obj (.viewTDense .ten) .d false], .vmlten_ttdiv, [0, 1, 2]⟩,
  ⟨.vml_div, [.obj (.viewTDense .ten) .d true, .obj (.viewTDense .vec) .d true, .obj .tdense .d false], .vmlten_ttdiv, [0, 1, 2]⟩,
  ⟨.vml_div, [.obj (.viewTDense .ten) .d true, .obj (.viewTDense .vec) .d true, .obj (.viewTDense .vec) .d false], .vmlten_ttdiv, [0, 1, 2]⟩,
  ⟨.vml_div, [.obj (.viewTDense .ten) .d true, .obj (.viewTDense .vec) .d true, .obj (.viewTDense .mat) .d false], .vmlten_ttdiv, [0, 1, 2]⟩,
  ⟨.vml_div, [.obj (.viewTDense .ten) .d true, .obj (.viewTDense .vec) .d true, .obj (.viewTDense .ten) .d false], .vmlten_ttdiv, [0, 1, 2]⟩,
  ⟨.vml_div, [.obj (.viewTDense .ten) .d true, .obj (.viewTDense .mat) .d true, .obj .tdense .d false], .vmlten_ttdiv, [0, 1, 2]⟩,
  ⟨.vml_div, [.obj (.viewTDense .ten) .d true, .obj (.viewTDense .mat) .d true, .obj (.viewTDense .vec) .d false], .vmlten_ttdiv, [0, 1, 2]⟩,
  ⟨.vml_div, [.obj (.viewTDense .ten) .d true, .obj (.viewTDense .mat) .d true, .obj (.viewTDense .mat) .d false], .vmlten_ttdiv, [0, 1, 2]⟩,
  ⟨.vml_div, [.obj (.viewTDense .ten) .d true, .obj (.viewTDense .mat) .d true, .obj (.viewTDense .ten) .d false], .vmlten_ttdiv, [0, 1, 2]⟩,
  ⟨.vml_div, [.obj (.viewTDense .ten) .d true, .obj (.viewTDense .ten) .d true, .obj .tdense .d false], .vmlten_ttdiv, [0, 1, 2]⟩,
  ⟨.vml_div, [.obj (.viewTDense .ten) .d true, .obj (.viewTDense .ten) .d true, .obj (.viewTDense .vec) .d false], .vmlten_ttdiv, [0, 1, 2]⟩,
  ⟨.vml_div, [.obj (.viewTDense .ten) .d true, .obj (.viewTDense .ten) .d true, .obj (.viewTDense .mat) .d false], .vmlten_ttdiv, [0, 1, 2]⟩,
  ⟨.vml_div, [.obj (.viewTDense .ten) .d true, .obj (.viewTDense .ten) .d true, .obj (.viewTDense .ten) .d false], .vmlten_ttdiv, [0, 1, 2]⟩,
  ⟨.vml_div, [.obj .tcrs .s true, .obj .tcrs .s true, .obj .tcrs .s false], .vmlten_ttdiv, [0, 1, 2]⟩,
  ⟨.vml_div, [.obj .tdense .s true, .obj .tdense .s true, .obj .tdense .s false], .vmlten_ttdiv, [0, 1, 2]⟩,
  ⟨.vml_div, [.obj .tdense .s true, .obj .tdense .s true, .obj (.viewTDense .vec) .s false], .vmlten_ttdiv, [0, 1, 2]⟩,
  ⟨.vml_div, [.obj .tdense .s true, .obj .tdense .s true, .obj (.viewTDense .mat) .s false], .vmlten_ttdiv, [0, 1, 2]⟩,
  ⟨.vml_div, [.obj .tdense .s true, .obj .tdense .s true, .obj (.viewTDense .ten) .s false], .vmlten_ttdiv, [0, 1, 2]⟩,
  ⟨.vml_div, [.obj .tdense .s true, .obj (.viewTDense .vec) .s true, .obj .tdense .s false], .vmlten_ttdiv, [0, 1, 2]⟩,
  ⟨.vml_div, [.obj .tdense .s true, .obj (.viewTDense .vec) .s true, .obj (.viewTDense .vec) .s false], .vmlten_ttdiv, [0, 1, 2]⟩,
  ⟨.vml_div, [.obj .tdense .s true, .obj (.viewTDense .vec) .s true, .obj (.viewTDense .mat) .s false], .vmlten_ttdiv, [0, 1, 2]⟩,
  ⟨.vml_div, [.obj .tdense .s true, .obj (.viewTDense .vec) .s true, .obj (.viewTDense .ten) .s false], .vmlten_ttdiv, [0, 1, 2]⟩,
  ⟨.vml_div, [.obj .tdense .s true, .obj (.viewTDense .mat) .s true, .obj .tdense .s false], .vmlten_ttdiv, [0, 1, 2]⟩,
  ⟨.vml_div, [.obj .tdense .s true, .obj (.viewTDense .mat) .s true, .obj (.viewTDense .vec) .s false], .vmlten_ttdiv, [0, 1, 2]⟩,
  ⟨.vml_div, [.obj .tdense .s true, .obj (.viewTDense .mat) .s true, .obj (.viewTDense .mat) .s false], .vmlten_ttdiv, [0, 1, 2]⟩,
  ⟨.vml_div, [.obj .tdense .s true, .obj (.viewTDense .mat) .s true, .obj (.viewTDense .ten) .s false], .vmlten_ttdiv, [0, 1, 2]⟩,
  ⟨.vml_div, [.obj .tdense .s true, .obj (.viewTDense .ten) .s true, .obj .tdense .s false], .vmlten_ttdiv, [0, 1, 2]⟩,
  ⟨.vml_div, [.obj .tdense .s true, .obj (.viewTDense .ten) .s true, .obj (.viewTDense .vec) .s false], .vmlten_ttdiv, [0, 1, 2]⟩,
  ⟨.vml_div, [.obj .tdense .s true, .obj (.viewTDense .ten) .s true, .obj (.viewTDense .mat) .s false], .vmlten_ttdiv, [0, 1, 2]⟩,
  ⟨.vml_div, [.obj .tdense .s true, .obj (.viewTDense .ten) .s true, .obj (.viewTDense .ten) .s false], .vmlten_ttdiv, [0, 1, 2]⟩,
  ⟨.vml_div, [.obj (.viewTDense .vec) .s true, .obj .tdense .s true, .obj .tdense .s false], .vmlten_ttdiv, [0, 1, 2]⟩,
  ⟨.vml_div, [.obj (.viewTDense .vec) .s true, .obj .tdense .s true, .obj (.viewTDense .vec) .s false], .vmlten_ttdiv, [0, 1, 2]⟩,
  ⟨.vml_div, [.obj (.viewTDense .vec) .s true, .obj .tdense .s true, .obj (.viewTDense .mat) .s false], .vmlten_ttdiv, [0, 1, 2]⟩,
  ⟨.vml_div, [.obj (.viewTDense .vec) .s true, .obj .tdense .s true, .obj (.viewTDense .ten) .s false], .vmlten_ttdiv, [0, 1, 2]⟩,
  ⟨.vml_div, [.obj (.viewTDense .vec) .s true, .obj (.viewTDense .vec) .s true, .obj .tdense .s false], .vmlten_ttdiv, [0, 1, 2]⟩,
  ⟨.vml_div, [.obj (.viewTDense .vec) .s true, .obj (.viewTDense .vec) .s true, .obj (.viewTDense .vec) .s false], .vmlten_ttdiv, [0, 1, 2]⟩,
  ⟨.vml_div, [.obj (.viewTDense .vec) .s true, .obj (.viewTDense .vec) .s true, .obj (.viewTDense .mat) .s false], .vmlten_ttdiv, [0, 1, 2]⟩,
  ⟨.vml_div, [.obj (.viewTDense .vec) .s true, .obj (.viewTDense .vec) .s true, .obj (.viewTDense .ten) .s false], .vmlten_ttdiv, [0, 1, 2]⟩]

/-- src/vml/tensor/tensor_vml.cpp:2408-2772 -/
def tVmlTen_6 : List Overload := [
  ⟨.vml_div, [.obj (.viewTDense .vec) .s true, .obj (.viewTDense .mat) .s true, .obj .tdense .s false], .vmlten_ttdiv, [0, 1, 2]⟩,
  ⟨.vml_div, [.obj (.viewTDense .vec) .s true, .obj (.viewTDense .mat) .s true, .obj (.viewTDense .vec) .s false], .vmlten_ttdiv, [0, 1, 2]⟩,
  ⟨.vml_div, [.obj (.viewTDense .vec) .s true, .obj (.viewTDense .mat) .s true, .obj (.viewTDense .mat) .s false], .vmlten_ttdiv, [0, 1, 2]⟩,
  ⟨.vml_div, [.obj (.viewTDense .vec) .s true, .obj (.viewTDense .mat) .s true, .obj (.viewTDense .ten) .s false], .vmlten_ttdiv, [0, 1, 2]⟩,
  ⟨.vml_div, [.obj (.viewTDense .vec) .s true, .obj (.viewTDense .ten) .s true, .obj .tdense .s false], .vmlten_ttdiv, [0, 1, 2]⟩,
  ⟨.vml_div, [.obj (.viewTDense .vec) .s true, .obj (.viewTDense .ten) .s true, .obj (.viewTDense .vec) .s false], .vmlten_ttdiv, [0, 1, 2]⟩,
  ⟨.vml_div, [.obj (.viewTDense .vec) .s true, .obj (.viewTDense .ten) .s true, .obj (.viewTDense .mat) .s false], .vmlten_ttdiv, [0, 1, 2]⟩,
  ⟨.vml_div, [.obj (.viewTDense .vec) .s true, .obj (.viewTDense .ten) .s true, .obj (.viewTDense .ten) .s false], .vmlten_ttdiv, [0, 1, 2]⟩,
  ⟨.vml_div, [.obj (.viewTDense .mat) .s true, .obj .tdense .s true, .obj .tdense .s false], .vmlten_ttdiv, [0, 1, 2]⟩,
  ⟨.vml_div, [.obj (.viewTDense .mat) .s true, .obj .tdense .s true, .obj (.viewTDense .vec) .s false], .vmlten_ttdiv, [0, 1, 2]⟩,
  ⟨.vml_div, [.obj (.viewTDense .mat) .s true, .obj .tdense .s true, .obj (.viewTDense .mat) .s false], .vmlten_ttdiv, [0, 1, 2]⟩,
  ⟨.vml_div, [.obj (.viewTDense .mat) .s true, .obj .tdense .s true, .obj (.viewTDense .ten) .s false], .vmlten_ttdiv, [0, 1, 2]⟩,
  ⟨.vml_div, [.obj (.viewTDense .mat) .s true, .obj (.viewTDense .vec) .s true, .obj .tdense .s false], .vmlten_ttdiv, [0, 1, 2]⟩,
  ⟨.vml_div, [.obj (.viewTDense .mat) .s true, .obj (.viewTDense .vec) .s true, .obj (.viewTDense .vec) .s false], .vmlten_ttdiv, [0, 1, 2]⟩,
  ⟨.vml_div, [.obj (.viewTDense .mat) .s true, .obj (.viewTDense .vec) .s true, .obj (.viewTDense .mat) .s false], .vmlten_ttdiv, [0, 1, 2]⟩,
  ⟨.vml_div, [.obj (.viewTDense .mat) .s true, .obj (.viewTDense .vec) .s true, .obj (.viewTDense .ten) .s false], .vmlten_ttdiv, [0, 1, 2]⟩,
  ⟨.vml_div, [.obj (.viewTDense .mat) .s true, .obj (.viewTDense .mat) .s true, .obj .tdense .s false], .vmlten_ttdiv, [0, 1, 2]⟩,
  ⟨.vml_div, [.obj (.viewTDense .mat) .s true, .obj (.viewTDense .mat) .s true, .obj (.viewTDense .vec) .s false], .vmlten_ttdiv, [0, 1, 2]⟩,
  ⟨.vml_div, [.obj (.viewTDense .mat) .s true, .obj (.viewTDense .mat) .s true, .obj (.viewTDense .mat) .s false], .vmlten_ttdiv, [0, 1, 2]⟩,
  ⟨.vml_div, [.obj (.viewTDense .mat) .s true, .obj (.viewTDense .mat) .s true, .obj (.viewTDense .ten) .s false], .vmlten_ttdiv, [0, 1, 2]⟩,
  ⟨.vml_div, [.obj (.viewTDense .mat) .s true, .obj (.viewTDense .ten) .s true, .obj .tdense .s false], .vmlten_ttdiv, [0, 1, 2]⟩,
  ⟨.vml_div, [.obj (.viewTDense .mat) .s true, .obj (.viewTDense .ten) .s true, .obj (.viewTDense .vec) .s false], .vmlten_ttdiv, [0, 1, 2]⟩,
  ⟨.vml_div, [.obj (.viewTDense .mat) .s true, .obj (.viewTDense .ten) .s true, .obj (.viewTDense .mat) .s false], .vmlten_ttdiv, [0, 1, 2]⟩,
  ⟨.vml_div, [.obj (.viewTDense .mat) .s true, .obj (.viewTDense .ten) .s true, .obj (.viewTDense .ten) .s false], .vmlten_ttdiv, [0, 1, 2]⟩,
  ⟨.vml_div, [.obj (.viewTDense .ten) .s true, .obj .tdense .s true, .obj .tdense .s false], .vmlten_ttdiv, [0, 1, 2]⟩,
  ⟨.vml_div, [.obj (.viewTDense .ten) .s true, .obj .tdense .s true, .obj (.viewTDense .vec) .s false], .vmlten_ttdiv, [0, 1, 2]⟩,
  ⟨.vml_div, [.obj (.viewTDense .ten) .s true, .obj .tdense .s true, .obj (.viewTDense .mat) .s false], .vmlten_ttdiv, [0, 1, 2]⟩,
  ⟨.vml_div, [.obj (.viewTDense .ten) .s true, .obj .tdense .s true, .obj (.viewTDense .ten) .s false], .vmlten_ttdiv, [0, 1, 2]⟩,
  ⟨.vml_div, [.obj (.viewTDense .ten) .s true, .obj (.viewTDense .vec) .s true, .obj .tdense .s false], .vmlten_ttdiv, [0, 1, 2]⟩,
  ⟨.vml_div, [.obj (.viewTDense .ten) .s true, .obj (.viewTDense .vec) .s true, .obj (.viewTDense .vec) .s false], .vmlten_ttdiv, [0, 1, 2]⟩,
  ⟨.vml_div, [.obj (.viewTDense .ten) .s true, .obj (.viewTDense .vec) .s true, .obj (.viewTDense .mat) .s false], .vmlten_ttdiv, [0, 1, 2]⟩,
  ⟨.vml_div, [.obj (.viewTDense .ten) .s true, .obj (.viewTDense .vec) .s true, .obj (.viewTDense .ten) .s false], .vmlten_ttdiv, [0, 1, 2]⟩,
  ⟨.vml_div, [.obj (.viewTDense .ten) .s true, .obj (.viewTDense .mat) .s true, .obj .tdense .s false], .vmlten_ttdiv, [0, 1, 2]⟩,
  ⟨.vml_div, [.obj (.viewTDense .ten) .s true, .obj (.viewTDense .mat) .s true, .obj (.viewTDense .vec) .s false], .vmlten_ttdiv, [0, 1, 2]⟩,
  ⟨.vml_div, [.obj (.viewTDense .ten) .s true, .obj (.viewTDense .mat) .s true, .obj (.viewTDense .mat) .s false], .vmlten_ttdiv, [0, 1, 2]⟩,
  ⟨.vml_div, [.obj (.viewTDense .ten) .s true, .obj (.viewTDense .mat) .s true, .obj (.viewTDense .ten) .s false], .vmlten_ttdiv, [0, 1, 2]⟩,
  ⟨.vml_div, [.obj (.viewTDense .ten) .s true, .obj (.viewTDense .ten) .s true, .obj .tdense .s false], .vmlten_ttdiv, [0, 1, 2]⟩,
  ⟨.vml_div, [.obj (.viewTDense .ten) .s true, .obj (.viewTDense .ten) .s true, .obj (.viewTDense .vec) .s false], .vmlten_ttdiv, [0, 1, 2]⟩,
  ⟨.vml_div, [.obj (.viewTDense .ten) .s true, .obj (.viewTDense .ten) .s true, .obj (.viewTDense .mat) .s false], .vmlten_ttdiv, [0, 1, 2]⟩,
  ⟨.vml_div, [.obj (.viewTDense .ten) .s true, .obj (.viewTDense .ten) .s true, .obj (.viewTDense .ten) .s false], .vmlten_ttdiv, [0, 1, 2]⟩,
  ⟨.vml_add, [.obj .tcrs .d true, .scal .d, .obj .tcrs .d false], .vmlten_stadd, [0, 1, 2]⟩,
  ⟨.vml_add, [.obj .tdense .d true, .scal .d, .obj .tdense .d false], .vmlten_stadd, [0, 1, 2]⟩,
  ⟨.vml_add, [.obj .tdense .d true, .scal .d, .obj (.viewTDense .vec) .d false], .vmlten_stadd, [0, 1, 2]⟩,
  ⟨.vml_add, [.obj .tdense .d true, .scal .d, .obj (.viewTDense .mat) .d false], .vmlten_stadd, [0, 1, 2]⟩,
  ⟨.vml_add, [.obj .tdense .d true, .scal .d, .obj (.viewTDense .ten) .d false], .vmlten_stadd, [0, 1, 2]⟩,
  ⟨.vml_add, [.obj (.viewTDense .vec) .d true, .scal .d, .obj .tdense .d false], .vmlten_stadd, [0, 1, 2]⟩,
  ⟨.vml_add, [.obj (.viewTDense .vec) .d true, .scal .d, .obj (.viewTDense .vec) .d false], .vmlten_stadd, [0, 1, 2]⟩,
  ⟨.vml_add, [.obj (.viewTDense .vec) .d true, .scal .d, .obj (.viewTDense .mat) .d false], .vmlten_stadd, [0, 1, 2]⟩,
  ⟨.vml_add, [.obj (.viewTDense .vec) .d true, .scal .d, .obj (.viewTDense .ten) .d false], .vmlten_stadd, [0, 1, 2]⟩,
  ⟨.vml_add, [.obj (.viewTDense .mat) .d true, .scal .d, .obj .tdense .d false], .vmlten_stadd, [0, 1, 2]⟩,
  ⟨.vml_add, [.obj (.viewTDense .mat) .d true, .scal .d, .obj (.viewTDense .vec) .d false], .vmlten_stadd, [0, 1, 2]⟩,
  ⟨.vml_add, [.obj (.viewTDense .mat) .d true, .scal .d, .obj (.viewTDense .mat) .d false], .vmlten_stadd, [0, 1, 2]⟩,
  ⟨.vml_add, [.obj (.viewTDense .mat) .d true, .scal .d, .obj (.viewTDense .ten) .d false], .vmlten_stadd, [0, 1, 2]⟩,
  ⟨.vml_add, [.obj (.viewTDense .ten) .d true, .scal .d, .obj .tdense .d false], .vmlten_stadd, [0, 1, 2]⟩,
  ⟨.vml_add, [.obj (.viewTDense .ten) .d true, .scal .d, .obj (.viewTDense .vec) .d false], .vmlten_stadd, [0, 1, 2]⟩,
  ⟨.vml_add, [.obj (.viewTDense .ten) .d true, .scal .d, .obj (.viewTDense .mat) .d false], .vmlten_stadd, [0, 1, 2]⟩,
  ⟨.vml_add, [.obj (.viewTDense .ten) .d true, .scal .d, .obj (.viewTDense .ten) .d false], .vmlten_stadd, [0, 1, 2]⟩,
  ⟨.vml_add, [.obj .tcrs .s true, .scal .s, .obj .tcrs .s false], .vmlten_stadd, [0, 1, 2]⟩,
  ⟨.vml_add, [.obj .tdense .s true, .scal .s, .obj .tdense .s false], .vmlten_stadd, [0, 1, 2]⟩,
  ⟨.vml_add, [.obj .tdense .s true, .scal .s, .obj (.viewTDense .vec) .s false], .vmlten_stadd, [0, 1, 2]⟩,
  ⟨.vml_add, [.obj .tdense .s true, .scal .s, .obj (.viewTDense .mat) .s false], .vmlten_stadd, [0, 1, 2]⟩,
  ⟨.vml_add, [.obj .tdense .s true, .scal .s, .obj (.viewTDense .ten) .s false], .vmlten_stadd, [0, 1, 2]⟩,
  ⟨.vml_add, [.obj (.viewTDense .vec) .s true, .scal .s, .obj .tdense .s false], .vmlten_stadd, [0, 1, 2]⟩,
  ⟨.vml_add, [.obj (.viewTDense .vec) .s true, .scal .s, .obj (.viewTDense .vec) .s false], .vmlten_stadd, [0, 1, 2]⟩,
  ⟨.vml_add, [.obj (.viewTDense .vec) .s true, .scal .s, .obj (.viewTDense .mat) .s false], .vmlten_stadd, [0, 1, 2]⟩,
  ⟨.vml_add, [.obj (.viewTDense .vec) .s true, .scal .s, .obj (.viewTDense .ten) .s false], .vmlten_stadd, [0, 1, 2]⟩,
  ⟨.vml_add, [.obj (.viewTDense .mat) .s true, .scal .s, .obj .tdense .s false], .vmlten_stadd, [0, 1, 2]⟩,
  ⟨.vml_add, [.obj (.viewTDense .mat) .s true, .scal .s, .obj (.viewTDense .vec) .s false], .vmlten_stadd, [0, 1, 2]⟩,
  ⟨.vml_add, [.obj (.viewTDense .mat) .s true, .scal .s, .obj (.viewTDense .mat) .s false], .vmlten_stadd, [0, 1, 2]⟩,
  ⟨.vml_add, [.obj (.viewTDense .mat) .s true, .scal .s, .obj (.viewTDense .ten) .s false], .vmlten_stadd, [0, 1, 2]⟩,
  ⟨.vml_add, [.obj (.viewTDense .ten) .s true, .scal .s, .obj .tdense .s false], .vmlten_stadd, [0, 1, 2]⟩,
  ⟨.vml_add, [.obj (.viewTDense .ten) .s true, .scal .s, .obj (.viewTDense .vec) .s false], .vmlten_stadd, [0, 1, 2]⟩,
  ⟨.vml_add, [.obj (.viewTDense .ten) .s true, .scal .s, .obj (.viewTDense .mat) .s false], .vmlten_stadd, [0, 1, 2]⟩,
  ⟨.vml_add, [.obj (.viewTDense .ten) .s true, .scal .s, .obj (.viewTDense .ten) .s false], .vmlten_stadd, [0, 1, 2]⟩,
  ⟨.vml_sub, [.obj .tcrs .d true, .scal .d, .obj .tcrs .d false], .vmlten_stsub, [0, 1, 2]⟩,
  ⟨.vml_sub, [.obj .tdense .d true, .scal .d, .obj .tdense .d false], .vmlten_stsub, [0, 1, 2]⟩,
  ⟨.vml_sub, [.obj .tdense .d true, .scal .d, .obj (.viewTDense .vec) .d false], .vmlten_stsub, [0, 1, 2]⟩,
  ⟨.vml_sub, [.obj .tdense .d true, .scal .d, .obj (.viewTDense .mat) .d false], .vmlten_stsub, [0, 1, 2]⟩,
  ⟨.vml_sub, [.obj .tdense .d true, .scal .d, .obj (.viewTDense .ten) .d false], .vmlten_stsub, [0, 1, 2]⟩,
  ⟨.vml_sub, [.obj (.viewTDense .vec) .d true, .scal .d, .obj .tdense .d false], .vmlten_stsub, [0, 1, 2]⟩]

/-- src/vml/tensor/tensor_vml.cpp:2773-3108 -/
def tVmlTen_7 : List Overload := [
  ⟨.vml_sub, [.obj (.viewTDense .vec) .d true, .scal .d, .obj (.viewTDense .vec) .d false], .vmlten_stsub, [0, 1, 2]⟩,
  ⟨.vml_sub, [.obj (.viewTDense .vec) .d true, .scal .d, .obj (.viewTDense .mat) .d false], .vmlten_stsub, [0, 1, 2]⟩,
  ⟨.vml_sub, [.obj (.viewTDense .vec) .d true, .scal .d, .obj (.viewTDense .ten) .d false], .vmlten_stsub, [0, 1, 2]⟩,
  ⟨.vml_sub, [.obj (.viewTDense .mat) .d true, .scal .d, .obj .tdense .d false], .vmlten_stsub, [0, 1, 2]⟩,
  ⟨.vml_sub, [.obj (.viewTDense .mat) .d true, .scal .d, .obj (.viewTDense .vec) .d false], .vmlten_stsub, [0, 1, 2]⟩,
  ⟨.vml_sub, [.obj (.viewTDense .mat) .d true, .scal .d, .obj (.viewTDense .mat) .d false], .vmlten_stsub, [0, 1, 2]⟩,
  ⟨.vml_sub, [.obj (.viewTDense .mat) .d true, .scal .d, .obj (.viewTDense .ten) .d false], .vmlten_stsub, [0, 1, 2]⟩,
  ⟨.vml_sub, [.obj (.viewTDense .ten) .d true, .scal .d, .obj .tdense .d false], .vmlten_stsub, [0, 1, 2]⟩,
  ⟨.vml_sub, [.obj (.viewTDense .ten) .d true, .scal .d, .obj (.viewTDense .vec) .d false], .vmlten_stsub, [0, 1, 2]⟩,
  ⟨.vml_sub, [.obj (.viewTDense .ten) .d true, .scal .d, .obj (.viewTDense .mat) .d false], .vmlten_stsub, [0, 1, 2]⟩,
  ⟨.vml_sub, [.obj (.viewTDense .ten) .d true, .scal .d, .obj (.viewTDense .ten) .d false], .vmlten_stsub, [0, 1, 2]⟩,
  ⟨.vml_sub, [.obj .tcrs .s true, .scal .s, .obj .tcrs .s false], .vmlten_stsub, [0, 1, 2]⟩,
  ⟨.vml_sub, [.obj .tdense .s true, .scal .s, .obj .tdense .s false], .vmlten_stsub, [0, 1, 2]⟩,
  ⟨.vml_sub, [.obj .tdense .s true, .scal .s, .obj (.viewTDense .vec) .s false], .vmlten_stsub, [0, 1, 2]⟩,
  ⟨.vml_sub, [.obj .tdense .s true, .scal .s, .obj (.viewTDense .mat) .s false], .vmlten_stsub, [0, 1, 2]⟩,
  ⟨.vml_sub, [.obj .tdense .s true, .scal .s, .obj (.viewTDense .ten) .s false], .vmlten_stsub, [0, 1, 2]⟩,
  ⟨.vml_sub, [.obj (.viewTDense .vec) .s true, .scal .s, .obj .tdense .s false], .vmlten_stsub, [0, 1, 2]⟩,
  ⟨.vml_sub, [.obj (.viewTDense .vec) .s true, .scal .s, .obj (.viewTDense .vec) .s false], .vmlten_stsub, [0, 1, 2]⟩,
  ⟨.vml_sub, [.obj (.viewTDense .vec) .s true, .scal .s, .obj (.viewTDense .mat) .s false], .vmlten_stsub, [0, 1, 2]⟩,
  ⟨.vml_sub, [.obj (.viewTDense .vec) .s true, .scal .s, .obj (.viewTDense .ten) .s false], .vmlten_stsub, [0, 1, 2]⟩,
  ⟨.vml_sub, [.obj (.viewTDense .mat) .s true, .scal .s, .obj .tdense .s false], .vmlten_stsub, [0, 1, 2]⟩,
  ⟨.vml_sub, [.obj (.viewTDense .mat) .s true, .scal .s, .obj (.viewTDense .vec) .s false], .vmlten_stsub, [0, 1, 2]⟩,
  ⟨.vml_sub, [.obj (.viewTDense .mat) .s true, .scal .s, .obj (.viewTDense .mat) .s false], .vmlten_stsub, [0, 1, 2]⟩,
  ⟨.vml_sub, [.obj (.viewTDense .mat) .s true, .scal .s, .obj (.viewTDense .ten) .s false], .vmlten_stsub, [0, 1, 2]⟩,
  ⟨.vml_sub, [.obj (.viewTDense .ten) .s true, .scal .s, .obj .tdense .s false], .vmlten_stsub, [0, 1, 2]⟩,
  ⟨.vml_sub, [.obj (.viewTDense .ten) .s true, .scal .s, .obj (.viewTDense .vec) .s false], .vmlten_stsub, [0, 1, 2]⟩,
  ⟨.vml_sub, [.obj (.viewTDense .ten) .s true, .scal .s, .obj (.viewTDense .mat) .s false], .vmlten_stsub, [0, 1, 2]⟩,
  ⟨.vml_sub, [.obj (.viewTDense .ten) .s true, .scal .s, .obj (.viewTDense .ten) .s false], .vmlten_stsub, [0, 1, 2]⟩,
  ⟨.vml_mul, [.obj .tcrs .d true, .scal .d, .obj .tcrs .d false], .vmlten_stmul, [0, 1, 2]⟩,
  ⟨.vml_mul, [.obj .tdense .d true, .scal .d, .obj .tdense .d false], .vmlten_stmul, [0, 1, 2]⟩,
  ⟨.vml_mul, [.obj .tdense .d true, .scal .d, .obj (.viewTDense .vec) .d false], .vmlten_stmul, [0, 1, 2]⟩,
  ⟨.vml_mul, [.obj .tdense .d true, .scal .d, .obj (.viewTDense .mat) .d false], .vmlten_stmul, [0, 1, 2]⟩,
  ⟨.vml_mul, [.obj .tdense .d true, .scal .d, .obj (.viewTDense .ten) .d false], .vmlten_stmul, [0, 1, 2]⟩,
  ⟨.vml_mul, [.obj (.viewTDense .vec) .d true, .scal .d, .obj .tdense .d false], .vmlten_stmul, [0, 1, 2]⟩,
  ⟨.vml_mul, [.obj (.viewTDense .vec) .d true, .scal .d, .obj (.viewTDense .vec) .d false], .vmlten_stmul, [0, 1, 2]⟩,
  ⟨.vml_mul, [.obj (.viewTDense .vec) .d true, .scal .d, .obj (.viewTDense .mat) .d false], .vmlten_stmul, [0, 1, 2]⟩,
  ⟨.vml_mul, [.obj (.viewTDense .vec) .d true, .scal .d, .obj (.viewTDense .ten) .d false], .vmlten_stmul, [0, 1, 2]⟩,
  ⟨.vml_mul, [.obj (.viewTDense .mat) .d true, .scal .d, .obj .tdense .d false], .vmlten_stmul, [0, 1, 2]⟩,
  ⟨.vml_mul, [.obj (.viewTDense .mat) .d true, .scal .d, .obj (.viewTDense .vec) .d false], .vmlten_stmul, [0, 1, 2]⟩,
  ⟨.vml_mul, [.obj (.viewTDense .mat) .d true, .scal .d, .obj (.viewTDense .mat) .d false], .vmlten_stmul, [0, 1, 2]⟩,
  ⟨.vml_mul, [.obj (.viewTDense .mat) .d true, .scal .d, .obj (.viewTDense .ten) .d false], .vmlten_stmul, [0, 1, 2]⟩,
  ⟨.vml_mul, [.obj (.viewTDense .ten) .d true, .scal .d, .obj .tdense .d false], .vmlten_stmul, [0, 1, 2]⟩,
  ⟨.vml_mul, [.obj (.viewTDense .ten) .d true, .scal .d, .obj (.viewTDense .vec) .d false], .vmlten_stmul, [0, 1, 2]⟩,
  ⟨.vml_mul, [.obj (.viewTDense .ten) .d true, .scal .d, .obj (.viewTDense .mat) .d false], .vmlten_stmul, [0, 1, 2]⟩,
  ⟨.vml_mul, [.obj (.viewTDense .ten) .d true, .scal .d, .obj (.viewTDense .ten) .d false], .vmlten_stmul, [0, 1, 2]⟩,
  ⟨.vml_mul, [.obj .tcrs .s true, .scal .s, .obj .tcrs .s false], .vmlten_stmul, [0, 1, 2]⟩,
  ⟨.vml_mul, [.obj .tdense .s true, .scal .s, .obj .tdense .s false], .vmlten_stmul, [0, 1, 2]⟩,
  ⟨.vml_mul, [.obj .tdense .s true, .scal .s, .obj (.viewTDense .vec) .s false], .vmlten_stmul, [0, 1, 2]⟩,
  ⟨.vml_mul, [.obj .tdense .s true, .scal .s, .obj (.viewTDense .mat) .s false], .vmlten_stmul, [0, 1, 2]⟩,
  ⟨.vml_mul, [.obj .tdense .s true, .scal .s, .obj (.viewTDense .ten) .s false], .vmlten_stmul, [0, 1, 2]⟩,
  ⟨.vml_mul, [.obj (.viewTDense .vec) .s true, .scal .s, .obj .tdense .s false], .vmlten_stmul, [0, 1, 2]⟩,
  ⟨.vml_mul, [.obj (.viewTDense .vec) .s true, .scal .s, .obj (.viewTDense .vec) .s false], .vmlten_stmul, [0, 1, 2]⟩,
  ⟨.vml_mul, [.obj (.viewTDense .vec) .s true, .scal .s, .obj (.viewTDense .mat) .s false], .vmlten_stmul, [0, 1, 2]⟩,
  ⟨.vml_mul, [.obj (.viewTDense .vec) .s true, .scal .s, .obj (.viewTDense .ten) .s false], .vmlten_stmul, [0, 1, 2]⟩,
  ⟨.vml_mul, [.obj (.viewTDense .mat) .s true, .scal .s, .obj .tdense .s false], .vmlten_stmul, [0, 1, 2]⟩,
  ⟨.vml_mul, [.obj (.viewTDense .mat) .s true, .scal .s, .obj (.viewTDense .vec) .s false], .vmlten_stmul, [0, 1, 2]⟩,
  ⟨.vml_mul, [.obj (.viewTDense .mat) .s true, .scal .s, .obj (.viewTDense .mat) .s false], .vmlten_stmul, [0, 1, 2]⟩,
  ⟨.vml_mul, [.obj (.viewTDense .mat) .s true, .scal .s, .obj (.viewTDense .ten) .s false], .vmlten_stmul, [0, 1, 2]⟩,
  ⟨.vml_mul, [.obj (.viewTDense .ten) .s true, .scal .s, .obj .tdense .s false], .vmlten_stmul, [0, 1, 2]⟩,
  ⟨.vml_mul, [.obj (.viewTDense .ten) .s true, .scal .s, .obj (.viewTDense .vec) .s false], .vmlten_stmul, [0, 1, 2]⟩,
  ⟨.vml_mul, [.obj (.viewTDense .ten) .s true, .scal .s, .obj (.viewTDense .mat) .s false], .vmlten_stmul, [0, 1, 2]⟩,
  ⟨.vml_mul, [.obj (.viewTDense .ten) .s true, .scal .s, .obj (.viewTDense .ten) .s false], .vmlten_stmul, [0, 1, 2]⟩,
  ⟨.vml_div, [.obj .tcrs .d true, .scal .d, .obj .tcrs .d false], .vmlten_stdiv, [0, 1, 2]⟩,
  ⟨.vml_div, [.obj .tdense .d true, .scal .d, .obj .tdense .d false], .vmlten_stdiv, [0, 1, 2]⟩,
  ⟨.vml_div, [.obj .tdense .d true, .scal .d, .obj (.viewTDense .vec) .d false], .vmlten_stdiv, [0, 1, 2]⟩,
  ⟨.vml_div, [.obj .tdense .d true, .scal .d, .obj (.viewTDense .mat) .d false], .vmlten_stdiv, [0, 1, 2]⟩,
  ⟨.vml_div, [.obj .tdense .d true, .scal .d, .obj (.viewTDense .ten) .d false], .vmlten_stdiv, [0, 1, 2]⟩,
  ⟨.vml_div, [.obj (.viewTDense .vec) .d true, .scal .d, .obj .tdense .d false], .vmlten_stdiv, [0, 1, 2]⟩,
  ⟨.vml_div, [.obj (.viewTDense .vec) .d true, .scal .d, .obj (.viewTDense .vec) .d false], .vmlten_stdiv, [0, 1, 2]⟩,
  ⟨.vml_div, [.obj (.viewTDense .vec) .d true, .scal .d, .obj (.viewTDense .mat) .d false], .vmlten_stdiv, [0, 1, 2]⟩,
  ⟨.vml_div, [.obj (.viewTDense .vec) .d true, .scal .d, .obj (.viewTDense .ten) .d false], .vmlten_stdiv, [0, 1, 2]⟩,
  ⟨.vml_div, [.obj (.viewTDense .mat) .d true, .scal .d, .obj .tdense .d false], .vmlten_stdiv, [0, 1, 2]⟩,
  ⟨.vml_div, [.obj (.viewTDense .mat) .d true, .scal .d, .obj (.viewTDense .vec) .d false], .vmlten_stdiv, [0, 1, 2]⟩,
  ⟨.vml_div, [.obj (.viewTDense .mat) .d true, .scal .d, .obj (.viewTDense .mat) .d false], .vmlten_stdiv, [0, 1, 2]⟩,
  ⟨.vml_div, [.obj (.viewTDense .mat) .d true, .scal .d, .obj (.viewTDense .ten) .d false], .vmlten_stdiv, [0, 1, 2]⟩,
  ⟨.vml_div, [.obj (.viewTDense .ten) .d true, .scal .d, .obj .tdense .d false], .vmlten_stdiv, [0, 1, 2]⟩,
  ⟨.vml_div, [.obj (.viewTDense .ten) .d true, .scal .d, .obj (.viewTDense .vec) .d false], .vmlten_stdiv, [0, 1, 2]⟩,
  ⟨.vml_div, [.obj (.viewTDense .ten) .d true, .scal .d, .obj (.viewTDense .mat) .d false], .vmlten_stdiv, [0, 1, 2]⟩,
  ⟨.vml_div, [.obj (.viewTDense .ten) .d true, .scal .d, .obj (.viewTDense .ten) .d false], .vmlten_stdiv, [0, 1, 2]⟩,
  ⟨.vml_div, [.obj .tcrs .s true, .scal .s, .obj .tcrs .s false], .vmlten_stdiv, [0, 1, 2]⟩]

/-- src/vml/tensor/tensor_vml.cpp:3109-3494 -/
def tVmlTen_8 : List Overload := [
  ⟨.vml_div, [.obj .tdense .s true, .scal .s, .obj .tdense .s false], .vmlten_stdiv, [0, 1, 2]⟩,
  ⟨.vml_div, [.obj .tdense .s true, .scal .s, .obj (.viewTDense .vec) .s false], .vmlten_stdiv, [0, 1, 2]⟩,
  ⟨.vml_div, [.obj .tdense .s true, .scal .s, .obj (.viewTDense .mat) .s false], .vmlten_stdiv, [0, 1, 2]⟩,
  ⟨.vml_div, [.obj .tdense .s true, .scal .s, .obj (.viewTDense .ten) .s false], .vmlten_stdiv, [0, 1, 2]⟩,
  ⟨.vml_div, [.obj (.viewTDense .vec) .s true, .scal .s, .obj .tdense .s false], .vmlten_stdiv, [0, 1, 2]⟩,
  ⟨.vml_div, [.obj (.viewTDense .vec) .s true, .scal .s, .obj (.viewTDense .vec) .s false], .vmlten_stdiv, [0, 1, 2]⟩,
  ⟨.vml_div, [.obj (.viewTDense .vec) .s true, .scal .s, .obj (.viewTDense .mat) .s false], .vmlten_stdiv, [0, 1, 2]⟩,
  ⟨.vml_div, [.obj (.viewTDense .vec) .s true, .scal .s, .obj (.viewTDense .ten) .s false], .vmlten_stdiv, [0, 1, 2]⟩,
  ⟨.vml_div, [.obj (.viewTDense .mat) .s true, .scal .s, .obj .tdense .s false], .vmlten_stdiv, [0, 1, 2]⟩,
  ⟨.vml_div, [.obj (.viewTDense .mat) .s true, .scal .s, .obj (.viewTDense .vec) .s false], .vmlten_stdiv, [0, 1, 2]⟩,
  ⟨.vml_div, [.obj (.viewTDense .mat) .s true, .scal .s, .obj (.viewTDense .mat) .s false], .vmlten_stdiv, [0, 1, 2]⟩,
  ⟨.vml_div, [.obj (.viewTDense .mat) .s true, .scal .s, .obj (.viewTDense .ten) .s false], .vmlten_stdiv, [0, 1, 2]⟩,
  ⟨.vml_div, [.obj (.viewTDense .ten) .s true, .scal .s, .obj .tdense .s false], .vmlten_stdiv, [0, 1, 2]⟩,
  ⟨.vml_div, [.obj (.viewTDense .ten) .s true, .scal .s, .obj (.viewTDense .vec) .s false], .vmlten_stdiv, [0, 1, 2]⟩,
  ⟨.vml_div, [.obj (.viewTDense .ten) .s true, .scal .s, .obj (.viewTDense .mat) .s false], .vmlten_stdiv, [0, 1, 2]⟩,
  ⟨.vml_div, [.obj (.viewTDense .ten) .s true, .scal .s, .obj (.viewTDense .ten) .s false], .vmlten_stdiv, [0, 1, 2]⟩,
  ⟨.vml_pow, [.obj .tcrs .d true, .obj .tcrs .d true, .obj .tcrs .d false], .vmlten_ttpow, [0, 1, 2]⟩,
  ⟨.vml_pow, [.obj .tdense .d true, .obj .tdense .d true, .obj .tdense .d false], .vmlten_ttpow, [0, 1, 2]⟩,
  ⟨.vml_pow, [.obj .tdense .d true, .obj .tdense .d true, .obj (.viewTDense .vec) .d false], .vmlten_ttpow, [0, 1, 2]⟩,
  ⟨.vml_pow, [.obj .tdense .d true, .obj .tdense .d true, .obj (.viewTDense .mat) .d false], .vmlten_ttpow, [0, 1, 2]⟩,
  ⟨.vml_pow, [.obj .tdense .d true, .obj .tdense .d true, .obj (.viewTDense .ten) .d false], .vmlten_ttpow, [0, 1, 2]⟩,
  ⟨.vml_pow, [.obj .tdense .d true, .obj (.viewTDense .vec) .d true, .obj .tdense .d false], .vmlten_ttpow, [0, 1, 2]⟩,
  ⟨.vml_pow, [.obj .tdense .d true, .obj (.viewTDense .vec) .d true, .obj (.viewTDense .vec) .d false], .vmlten_ttpow, [0, 1, 2]⟩,
  ⟨.vml_pow, [.obj .tdense .d true, .obj (.viewTDense .vec) .d true, .obj (.viewTDense .mat) .d false], .vmlten_ttpow, [0, 1, 2]⟩,
  ⟨.vml_pow, [.obj .tdense .d true, .obj (.viewTDense .vec) .d true, .obj (.viewTDense .ten) .d false], .vmlten_ttpow, [0, 1, 2]⟩,
  ⟨.vml_pow, [.obj .tdense .d true, .obj (.viewTDense .mat) .d true, .obj .tdense .d false], .vmlten_ttpow, [0, 1, 2]⟩,
  ⟨.vml_pow, [.obj .tdense .d true, .obj (.viewTDense .mat) .d true, .obj (.viewTDense .vec) .d false], .vmlten_ttpow, [0, 1, 2]⟩,
  ⟨.vml_pow, [.obj .tdense .d true, .obj (.viewTDense .mat) .d true, .obj (.viewTDense .mat) .d false], .vmlten_ttpow, [0, 1, 2]⟩,
  ⟨.vml_pow, [.obj .tdense .d true, .obj (.viewTDense .mat) .d true, .obj (.viewTDense .ten) .d false], .vmlten_ttpow, [0, 1, 2]⟩,
  ⟨.vml_pow, [.obj .tdense .d true, .obj (.viewTDense .ten) .d true, .obj .tdense .d false], .vmlten_ttpow, [0, 1, 2]⟩,
  ⟨.vml_pow, [.obj .tdense .d true, .obj (.viewTDense .ten) .d true, .obj (.viewTDense .vec) .d false], .vmlten_ttpow, [0, 1, 2]⟩,
  ⟨.vml_pow, [.obj .tdense .d true, .obj (.viewTDense .ten) .d true, .obj (.viewTDense .mat) .d false], .vmlten_ttpow, [0, 1, 2]⟩,
  ⟨.vml_pow, [.obj .tdense .d true, .obj (.viewTDense .ten) .d true, .obj (.viewTDense .ten) .d false], .vmlten_ttpow, [0, 1, 2]⟩,
  ⟨.vml_pow, [.obj (.viewTDense .vec) .d true, .obj .tdense .d true, .obj .tdense .d false], .vmlten_ttpow, [0, 1, 2]⟩,
  ⟨.vml_pow, [.obj (.viewTDense .vec) .d true, .obj .tdense .d true, .obj (.viewTDense .vec) .d false], .vmlten_ttpow, [0, 1, 2]⟩,
  ⟨.vml_pow, [.obj (.viewTDense .vec) .d true, .obj .tdense .d true, .obj (.viewTDense .mat) .d false], .vmlten_ttpow, [0, 1, 2]⟩,
  ⟨.vml_pow, [.obj (.viewTDense .vec) .d true, .obj .tdense .d true, .obj (.viewTDense .ten) .d false], .vmlten_ttpow, [0, 1, 2]⟩,
  ⟨.vml_pow, [.obj (.viewTDense .vec) .d true, .obj (.viewTDense .vec) .d true, .obj .tdense .d false], .vmlten_ttpow, [0, 1, 2]⟩,
  ⟨.vml_pow, [.obj (.viewTDense .vec) .d true, .obj (.viewTDense .vec) .d true, .obj (.viewTDense .vec) .d false], .vmlten_ttpow, [0, 1, 2]⟩,
  ⟨.vml_pow, [.obj (.viewTDense .vec) .d true, .obj (.viewTDense .vec) .d true, .obj (.viewTDense .mat) .d false], .vmlten_ttpow, [0, 1, 2]⟩,
  ⟨.vml_pow, [.obj (.viewTDense .vec) .d true, .obj (.viewTDense .vec) .d true, .obj (.viewTDense .ten) .d false], .vmlten_ttpow, [0, 1, 2]⟩,
  ⟨.vml_pow, [.obj (.viewTDense .vec) .d true, .obj (.viewTDense .mat) .d true, .obj .tdense .d false], .vmlten_ttpow, [0, 1, 2]⟩,
  ⟨.vml_pow, [.obj (.viewTDense .vec) .d true, .obj (.viewTDense .mat) .d true, .obj (.viewTDense .vec) .d false], .vmlten_ttpow, [0, 1, 2]⟩,
  ⟨.vml_pow, [.obj (.viewTDense .vec) .d true, .obj (.viewTDense .mat) .d true, .obj (.viewTDense .mat) .d false], .vmlten_ttpow, [0, 1, 2]⟩,
  ⟨.vml_pow, [.obj (.viewTDense .vec) .d true, .obj (.viewTDense .mat) .d true, .obj (.viewTDense .ten) .d false], .vmlten_ttpow, [0, 1, 2]⟩,
  ⟨.vml_pow, [.obj (.viewTDense .vec) .d true, .obj (.viewTDense .ten) .d true, .obj .tdense .d false], .vmlten_ttpow, [0, 1, 2]⟩,
  ⟨.vml_pow, [.obj (.viewTDense .vec) .d true, .obj (.viewTDense .ten) .d true, .obj (.viewTDense .vec) .d false], .vmlten_ttpow, [0, 1, 2]⟩,
  ⟨.vml_pow, [.obj (.viewTDense .vec) .d true, .obj (.viewTDense .ten) .d true, .obj (.viewTDense .mat) .d false], .vmlten_ttpow, [0, 1, 2]⟩,
  ⟨.vml_pow, [.obj (.viewTDense .vec) .d true, .obj (.viewTDense .ten) .d true, .obj (.viewTDense .ten) .d false], .vmlten_ttpow, [0, 1, 2]⟩,
  ⟨.vml_pow, [.obj (.viewTDense .mat) .d true, .obj .tdense .d true, .obj .tdense .d false], .vmlten_ttpow, [0, 1, 2]⟩,
  ⟨.vml_pow, [.obj (.viewTDense .mat) .d true, .obj .tdense .d true, .obj (.viewTDense .vec) .d false], .vmlten_ttpow, [0, 1, 2]⟩,
  ⟨.vml_pow, [.obj (.viewTDense .mat) .d true, .obj .tdense .d true, .obj (.viewTDense .mat) .d false], .vmlten_ttpow, [0, 1, 2]⟩,
  ⟨.vml_pow, [.obj (.viewTDense .mat) .d true, .obj .tdense .d true, .obj (.viewTDense .ten) .d false], .vmlten_ttpow, [0, 1, 2]⟩,
  ⟨.vml_pow, [.obj (.viewTDense .mat) .d true, .obj (.viewTDense .vec) .d true, .obj .tdense .d false], .vmlten_ttpow, [0, 1, 2]⟩,
  ⟨.vml_pow, [.obj (.viewTDense .mat) .d true, .obj (.viewTDense .vec) .d true, .obj (.viewTDense .vec) .d false], .vmlten_ttpow, [0, 1, 2]⟩,
  ⟨.vml_pow, [.obj (.viewTDense .mat) .d true, .obj (.viewTDense .vec) .d true, .obj (.viewTDense .mat) .d false], .vmlten_ttpow, [0, 1, 2]⟩,
  ⟨.vml_pow, [.obj (.viewTDense .mat) .d true, .obj (.viewTDense .vec) .d true, .obj (.viewTDense .ten) .d false], .vmlten_ttpow, [0, 1, 2]⟩,
  ⟨.vml_pow, [.obj (.viewTDense .mat) .d true, .obj (.viewTDense .mat) .d true, .obj .tdense .d false], .vmlten_ttpow, [0, 1, 2]⟩,
  ⟨.vml_pow, [.obj (.viewTDense .mat) .d true, .obj (.viewTDense .mat) .d true, .obj (.viewTDense .vec) .d false], .vmlten_ttpow, [0, 1, 2]⟩,
  ⟨.vml_pow, [.obj (.viewTDense .mat) .d true, .obj (.viewTDense .mat) .d true, .obj (.viewTDense .mat) .d false], .vmlten_ttpow, [0, 1, 2]⟩,
  ⟨.vml_pow, [.obj (.viewTDense .mat) .d true, .obj (.viewTDense .mat) .d true, .obj (.viewTDense .ten) .d false], .vmlten_ttpow, [0, 1, 2]⟩,
  ⟨.vml_pow, [.obj (.viewTDense .mat) .d true, .obj (.viewTDense .ten) .d true, .obj .tdense .d false], .vmlten_ttpow, [0, 1, 2]⟩,
  ⟨.vml_pow, [.obj (.viewTDense .mat) .d true, .obj (.viewTDense .ten) .d true, .obj (.viewTDense .vec) .d false], .vmlten_ttpow, [0, 1, 2]⟩,
  ⟨.vml_pow, [.obj (.viewTDense .mat) .d true, .obj (.viewTDense .ten) .d true, .obj (.viewTDense .mat) .d false], .vmlten_ttpow, [0, 1, 2]⟩,
  ⟨.vml_pow, [.obj (.viewTDense .mat) .d true, .obj (.viewTDense .ten) .d true, .obj (.viewTDense .ten) .d false], .vmlten_ttpow, [0, 1, 2]⟩,
  ⟨.vml_pow, [.obj (.viewTDense .ten) .d true, .obj .tdense .d true, .obj .tdense .d false], .vmlten_ttpow, [0, 1, 2]⟩,
  ⟨.vml_pow, [.obj (.viewTDense .ten) .d true, .obj .tdense .d true, .obj (.viewTDense .vec) .d false], .vmlten_ttpow, [0, 1, 2]⟩,
  ⟨.vml_pow, [.obj (.viewTDense .ten) .d true, .obj .tdense .d true, .obj (.viewTDense .mat) .d false], .vmlten_ttpow, [0, 1, 2]⟩,
  ⟨.vml_pow, [.obj (.viewTDense .ten) .d true, .obj .tdense .d true, .obj (.viewTDense .ten) .d false], .vmlten_ttpow, [0, 1, 2]⟩,
  ⟨.vml_pow, [.obj (.viewTDense .ten) .d true, .obj (.viewTDense .vec) .d true, .obj .tdense .d false], .vmlten_ttpow, [0, 1, 2]⟩,
  ⟨.vml_pow, [.obj (.viewTDense .ten) .d true, .obj (.viewTDense .vec) .d true, .obj (.viewTDense .vec) .d false], .vmlten_ttpow, [0, 1, 2]⟩,
  ⟨.vml_pow, [.obj (.viewTDense .ten) .d true, .obj (.viewTDense .vec) .d true, .obj (.viewTDense .mat) .d false], .vmlten_ttpow, [0, 1, 2]⟩,
  ⟨.vml_pow, [.obj (.viewTDense .ten) .d true, .obj (.viewTDense .vec) .d true, .obj (.viewTDense .ten) .d false], .vmlten_ttpow, [0, 1, 2]⟩,
  ⟨.vml_pow, [.obj (.viewTDense .ten) .d true, .obj (.viewTDense .mat) .d true, .obj .tdense .d false], .vmlten_ttpow, [0, 1, 2]⟩,
  ⟨.vml_pow, [.obj (.viewTDense .ten) .d true, .obj (.viewTDense .mat) .d true, .obj (.viewTDense .vec) .d false], .vmlten_ttpow, [0, 1, 2]⟩,
  ⟨.vml_pow, [.obj (.viewTDense .ten) .d true, .obj (.viewTDense .mat) .d true, .obj (.viewTDense .mat) .d false], .vmlten_ttpow, [0, 1, 2]⟩,
  ⟨.vml_pow, [.obj (.viewTDense .ten) .d true, .obj (.viewTDense .mat) .d true, .obj (.viewTDense .ten) .d false], .vmlten_ttpow, [0, 1, 2]⟩,
  ⟨.vml_pow, [.obj (.viewTDense .ten) .d true, .obj (.viewTDense .ten) .d true, .obj .tdense .d false], .vmlten_ttpow, [0, 1, 2]⟩,
  ⟨.vml_pow, [.obj (.viewTDense .ten) .d true, .obj (.viewTDense .ten) .d true, .obj (.viewTDense .vec) .d false], .vmlten_ttpow, [0, 1, 2]⟩,
  ⟨.vml_pow, [.obj (.viewTDense .ten) .d true, .obj (.viewTDense .ten) .d true, .obj (.viewTDense .mat) .d false], .vmlten_ttpow, [0, 1, 2]⟩]

/-- src/vml/tensor/tensor_vml.cpp:3495-3877 -/
def tVmlTen_9 : List Overload := [
  ⟨.vml_pow, [.obj (.viewTDense .ten) .d true, .obj (.viewTDense .ten) .d true, .obj (.viewTDense .ten) .d false], .vmlten_ttpow, [0, 1, 2]⟩,
  ⟨.vml_pow, [.obj .tcrs .s true, .obj .tcrs .s true, .obj .tcrs .s false], .vmlten_ttpow, [0, 1, 2]⟩,
  ⟨.vml_pow, [.obj .tdense .s true, .obj .tdense .s true, .obj .tdense .s false], .vmlten_ttpow, [0, 1, 2]⟩,
  ⟨.vml_pow, [.obj .tdense .s true, .obj .tdense .s true, .obj (.viewTDense .vec) .s false], .vmlten_ttpow, [0, 1, 2]⟩,
  ⟨.vml_pow, [.obj .tdense .s true, .obj .tdense .s true, .obj (.viewTDense .mat) .s false], .vmlten_ttpow, [0, 1, 2]⟩,
  ⟨.vml_pow, [.obj .tdense .s true, .obj .tdense .s true, .obj (.viewTDense .ten) .s false], .vmlten_ttpow, [0, 1, 2]⟩,
  ⟨.vml_pow, [.obj .tdense .s true, .obj (.viewTDense .vec) .s true, .obj .tdense .s false], .vmlten_ttpow, [0, 1, 2]⟩,
  ⟨.vml_pow, [.obj .tdense .s true, .obj (.viewTDense .vec) .s true, .obj (.viewTDense .vec) .s false], .vmlten_ttpow, [0, 1, 2]⟩,
  ⟨.vml_pow, [.obj .tdense .s true, .obj (.viewTDense .vec) .s true, .obj (.viewTDense .mat) .s false], .vmlten_ttpow, [0, 1, 2]⟩,
  ⟨.vml_pow, [.obj .tdense .s true, .obj (.viewTDense .vec) .s true, .obj (.viewTDense .ten) .s false], .vmlten_ttpow, [0, 1, 2]⟩,
  ⟨.vml_pow, [.obj .tdense .s true, .obj (.viewTDense .mat) .s true, .obj .tdense .s false], .vmlten_ttpow, [0, 1, 2]⟩,
  ⟨.vml_pow, [.obj .tdense .s true, .obj (.viewTDense .mat) .s true, .obj (.viewTDense .vec) .s false], .vmlten_ttpow, [0, 1, 2]⟩,
  ⟨.vml_pow, [.obj .tdense .s true, .obj (.viewTDense .mat) .s true, .obj (.viewTDense .mat) .s false], .vmlten_ttpow, [0, 1, 2]⟩,
  ⟨.vml_pow, [.obj .tdense .s true, .obj (.viewTDense .mat) .s true, .obj (.viewTDense .ten) .s false], .vmlten_ttpow, [0, 1, 2]⟩,
  ⟨.vml_pow, [.obj .tdense .s true, .obj (.viewTDense .ten) .s true, .obj .tdense .s false], .vmlten_ttpow, [0, 1, 2]⟩,
  ⟨.vml_pow, [.obj .tdense .s true, .obj (.viewTDense .ten) .s true, .obj (.viewTDense .vec) .s false], .vmlten_ttpow, [0, 1, 2]⟩,
  ⟨.vml_pow, [.obj .tdense .s true, .obj (.viewTDense .ten) .s true, .obj (.viewTDense .mat) .s false], .vmlten_ttpow, [0, 1, 2]⟩,
  ⟨.vml_pow, [.obj .tdense .s true, .obj (.viewTDense .ten) .s true, .obj (.viewTDense .ten) .s false], .vmlten_ttpow, [0, 1, 2]⟩,
  ⟨.vml_pow, [.obj (.viewTDense .vec) .s true, .obj .tdense .s true, .obj .tdense .s false], .vmlten_ttpow, [0, 1, 2]⟩,
  ⟨.vml_pow, [.obj (.viewTDense .vec) .s true, .obj .tdense .s true, .obj (.viewTDense .vec) .s false], .vmlten_ttpow, [0, 1, 2]⟩,
  ⟨.vml_pow, [.obj (.viewTDense .vec) .s true, .obj .tdense .s true, .obj (.viewTDense .mat) .s false], .vmlten_ttpow, [0, 1, 2]⟩,
  ⟨.vml_pow, [.obj (.viewTDense .vec) .s true, .obj .tdense .s true, .obj (.viewTDense .ten) .s false], .vmlten_ttpow, [0, 1, 2]⟩,
  ⟨.vml_pow, [.obj (.viewTDense .vec) .s true, .obj (.viewTDense .vec) .s true, .obj .tdense .s false], .vmlten_ttpow, [0, 1, 2]⟩,
  ⟨.vml_pow, [.obj (.viewTDense .vec) .s true, .obj (.viewTDense .vec) .s true, .obj (.viewTDense .vec) .s false], .vmlten_ttpow, [0, 1, 2]⟩,
  ⟨.vml_pow, [.obj (.viewTDense .vec) .s true, .obj (.viewTDense .vec) .s true, .obj (.viewTDense .mat) .s false], .vmlten_ttpow, [0, 1, 2]⟩,
  ⟨.vml_pow, [.obj (.viewTDense .vec) .s true, .obj (.viewTDense .vec) .s true, .obj (.viewTDense .ten) .s false], .vmlten_ttpow, [0, 1, 2]⟩,
  ⟨.vml_pow, [.obj (.viewTDense .vec) .s true, .obj (.viewTDense .mat) .s true, .obj .tdense .s false], .vmlten_ttpow, [0, 1, 2]⟩,
  ⟨.vml_pow, [.obj (.viewTDense .vec) .s true, .obj (.viewTDense .mat) .s true, .obj (.viewTDense .vec) .s false], .vmlten_ttpow, [0, 1, 2]⟩,
  ⟨.vml_pow, [.obj (.viewTDense .vec) .s true, .obj (.viewTDense .mat) .s true, .obj (.viewTDense .mat) .s false], .vmlten_ttpow, [0, 1, 2]⟩,
  ⟨.vml_pow, [.obj (.viewTDense .vec) .s true, .obj (.viewTDense .mat) .s true, .obj (.viewTDense .ten) .s false], .vmlten_ttpow, [0, 1, 2]⟩,
  ⟨.vml_pow, [.obj (.viewTDense .vec) .s true, .obj (.viewTDense .ten) .s true, .obj .tdense .s false], .vmlten_ttpow, [0, 1, 2]⟩,
  ⟨.vml_pow, [.obj (.viewTDense .vec) .s true, .obj (.viewTDense .ten) .s true, .obj (.viewTDense .vec) .s false], .vmlten_ttpow, [0, 1, 2]⟩,
  ⟨.vml_pow, [.obj (.viewTDense .vec) .s true, .obj (.viewTDense .ten) .s true, .obj (.viewTDense .mat) .s false], .vmlten_ttpow, [0, 1, 2]⟩,
  ⟨.vml_pow, [.obj (.viewTDense .vec) .s true, .obj (.viewTDense .ten) .s true, .obj (.viewTDense .ten) .s false], .vmlten_ttpow, [0, 1, 2]⟩,
  ⟨.vml_pow, [.obj (.viewTDense .mat) .s true, .obj .tdense .s true, .obj .tdense .s false], .vmlten_ttpow, [0, 1, 2]⟩,
  ⟨.vml_pow, [.obj (.viewTDense .mat) .s true, .obj .tdense .s true, .obj (.viewTDense .vec) .s false], .vmlten_ttpow, [0, 1, 2]⟩,
  ⟨.vml_pow, [.obj (.viewTDense .mat) .s true, .obj .tdense .s true, .obj (.viewTDense .mat) .s false], .vmlten_ttpow, [0, 1, 2]⟩,
  ⟨.vml_pow, [.obj (.viewTDense .mat) .s true, .obj .tdense .s true, .obj (.viewTDense .ten) .s false], .vmlten_ttpow, [0, 1, 2]⟩,
  ⟨.vml_pow, [.obj (.viewTDense .mat) .s true, .obj (.viewTDense .vec) .s true, .obj .tdense .s false], .vmlten_ttpow, [0, 1, 2]⟩,
  ⟨.vml_pow, [.obj (.viewTDense .mat) .s true, .obj (.viewTDense .vec) .s true, .obj (.viewTDense .vec) .s false], .vmlten_ttpow, [0, 1, 2]⟩,
  ⟨.vml_pow, [.obj (.viewTDense .mat) .s true, .obj (.viewTDense .vec) .s true, .obj (.viewTDense .mat) .s false], .vmlten_ttpow, [0, 1, 2]⟩,
  ⟨.vml_pow, [.obj (.viewTDense .mat) .s true, .obj (.viewTDense .vec) .s true, .obj (.viewTDense .ten) .s false], .vmlten_ttpow, [0, 1, 2]⟩,
  ⟨.vml_pow, [.obj (.viewTDense .mat) .s true, .obj (.viewTDense .mat) .s true, .obj .tdense .s false], .vmlten_ttpow, [0, 1, 2]⟩,
  ⟨.vml_pow, [.obj (.viewTDense .mat) .s true, .obj (.viewTDense .mat) .s true, .obj (.viewTDense .vec) .s false], .vmlten_ttpow, [0, 1, 2]⟩,
  ⟨.vml_pow, [.obj (.viewTDense .mat) .s true, .obj (.viewTDense .mat) .s true, .obj (.viewTDense .mat) .s false], .vmlten_ttpow, [0, 1, 2]⟩,
  ⟨.vml_pow, [.obj (.viewTDense .mat) .s true, .obj (.viewTDense .mat) .s true, .obj (.viewTDense .ten) .s false], .vmlten_ttpow, [0, 1, 2]⟩,
  ⟨.vml_pow, [.obj (.viewTDense .mat) .s true, .obj (.viewTDense .ten) .s true, .obj .tdense .s false], .vmlten_ttpow, [0, 1, 2]⟩,
  ⟨.vml_pow, [.obj (.viewTDense .mat) .s true, .obj (.viewTDense .ten) .s true, .obj (.viewTDense .vec) .s false], .vmlten_ttpow, [0, 1, 2]⟩,
  ⟨.vml_pow, [.obj (.viewTDense .mat) .s true, .obj (.viewTDense .ten) .s true, .obj (.viewTDense .mat) .s false], .vmlten_ttpow, [0, 1, 2]⟩,
  ⟨.vml_pow, [.obj (.viewTDense .mat) .s true, .obj (.viewTDense .ten) .s true, .obj (.viewTDense .ten) .s false], .vmlten_ttpow, [0, 1, 2]⟩,
  ⟨.vml_pow, [.obj (.viewTDense .ten) .s true, .obj .tdense .s true, .obj .tdense .s false], .vmlten_ttpow, [0, 1, 2]⟩,
  ⟨.vml_pow, [.obj (.viewTDense .ten) .s true, .obj .tdense .s true, .obj (.viewTDense .vec) .s false], .vmlten_ttpow, [0, 1, 2]⟩,
  ⟨.vml_pow, [.obj (.viewTDense .ten) .s true, .obj .tdense .s true, .obj (.viewTDense .mat) .s false], .vmlten_ttpow, [0, 1, 2]⟩,
  ⟨.vml_pow, [.obj (.viewTDense .ten) .s true, .obj .tdense .s true, .obj (.viewTDense .ten) .s false], .vmlten_ttpow, [0, 1, 2]⟩,
  ⟨.vml_pow, [.obj (.viewTDense .ten) .s true, .obj (.viewTDense .vec) .s true, .obj .tdense .s false], .vmlten_ttpow, [0, 1, 2]⟩,
  ⟨.vml_pow, [.obj (.viewTDense .ten) .s true, .obj (.viewTDense .vec) .s true, .obj (.viewTDense .vec) .s false], .vmlten_ttpow, [0, 1, 2]⟩,
  ⟨.vml_pow, [.obj (.viewTDense .ten) .s true, .obj (.viewTDense .vec) .s true, .obj (.viewTDense .mat) .s false], .vmlten_ttpow, [0, 1, 2]⟩,
  ⟨.vml_pow, [.obj (.viewTDense .ten) .s true, .obj (.viewTDense .vec) .s true, .obj (.viewTDense .ten) .s false], .vmlten_ttpow, [0, 1, 2]⟩,
  ⟨.vml_pow, [.obj (.viewTDense .ten) .s true, .obj (.viewTDense .mat) .s true, .obj .tdense .s false], .vmlten_ttpow, [0, 1, 2]⟩,
  ⟨.vml_pow, [.obj (.viewTDense .ten) .s true, .obj (.viewTDense .mat) .s true, .obj (.viewTDense .vec) .s false], .vmlten_ttpow, [0, 1, 2]⟩,
  ⟨.vml_pow, [.obj (.viewTDense .ten) .s true, .obj (.viewTDense .mat) .s true, .obj (.viewTDense .mat) .s false], .vmlten_ttpow, [0, 1, 2]⟩,
  ⟨.vml_pow, [.obj (.viewTDense .ten) .s true, .obj (.viewTDense .mat) .s true, .obj (.viewTDense .ten) .s false], .vmlten_ttpow, [0, 1, 2]⟩,
  ⟨.vml_pow, [.obj (.viewTDense .ten) .s true, .obj (.viewTDense .ten) .s true, .obj .tdense .s false], .vmlten_ttpow, [0, 1, 2]⟩,
  ⟨.vml_pow, [.obj (.viewTDense .ten) .s true, .obj (.viewTDense .ten) .s true, .obj (.viewTDense .vec) .s false], .vmlten_ttpow, [0, 1, 2]⟩,
  ⟨.vml_pow, [.obj (.viewTDense .ten) .s true, .obj (.viewTDense .ten) .s true, .obj (.viewTDense .mat) .s false], .vmlten_ttpow, [0, 1, 2]⟩,
  ⟨.vml_pow, [.obj (.viewTDense .ten) .s true, .obj (.viewTDense .ten) .s true, .obj (.viewTDense .ten) .s false], .vmlten_ttpow, [0, 1, 2]⟩,
  ⟨.vml_pow, [.obj .tcrs .d true, .scal .d, .obj .tcrs .d false], .vmlten_stpow, [0, 1, 2]⟩,
  ⟨.vml_pow, [.obj .tdense .d true, .scal .d, .obj .tdense .d false], .vmlten_stpow, [0, 1, 2]⟩,
  ⟨.vml_pow, [.obj .tdense .d true, .scal .d, .obj (.viewTDense .vec) .d false], .vmlten_stpow, [0, 1, 2]⟩,
  ⟨.vml_pow, [.obj .tdense .d true, .scal .d, .obj (.viewTDense .mat) .d false], .vmlten_stpow, [0, 1, 2]⟩,
  ⟨.vml_pow, [.obj .tdense .d true, .scal .d, .obj (.viewTDense .ten) .d false], .vmlten_stpow, [0, 1, 2]⟩,
  ⟨.vml_pow, [.obj (.viewTDense .vec) .d true, .scal .d, .obj .tdense .d false], .vmlten_stpow, [0, 1, 2]⟩,
  ⟨.vml_pow, [.obj (.viewTDense .vec) .d true, .scal .d, .obj (.viewTDense .vec) .d false], .vmlten_stpow, [0, 1, 2]⟩,
  ⟨.vml_pow, [.obj (.viewTDense .vec) .d true, .scal .d, .obj (.viewTDense .mat) .d false], .vmlten_stpow, [0, 1, 2]⟩,
  ⟨.vml_pow, [.obj (.viewTDense .vec) .d true, .scal .d, .obj (.viewTDense .ten) .d false], .vmlten_stpow, [0, 1, 2]⟩,
  ⟨.vml_pow, [.obj (.viewTDense .mat) .d true, .scal .d, .obj .tdense .d false], .vmlten_stpow, [0, 1, 2]⟩,
  ⟨.vml_pow, [.obj (.viewTDense .mat) .d true, .scal .d, .obj (.viewTDense .vec) .d false], .vmlten_stpow, [0, 1, 2]⟩,
  ⟨.vml_pow, [.obj (.viewTDense .mat) .d true, .scal .d, .obj (.viewTDense .mat) .d false], .vmlten_stpow, [0, 1, 2]⟩,
  ⟨.vml_pow, [.obj (.viewTDense .mat) .d true, .scal .d, .obj (.viewTDense .ten) .d false], .vmlten_stpow, [0, 1, 2]⟩,
  ⟨.vml_pow, [.obj (.viewTDense .ten) .d true, .scal .d, .obj .tdense .d false], .vmlten_stpow, [0, 1, 2]⟩]

/-- src/vml/tensor/tensor_vml.cpp:3878-4220 -/
def tVmlTen_10 : List Overload := [
  ⟨.vml_pow, [.obj (.viewTDense .ten) .d true, .scal .d, .obj (.viewTDense .vec) .d false], .vmlten_stpow, [0, 1, 2]⟩,
  ⟨.vml_pow, [.obj (.viewTDense .ten) .d true, .scal .d, .obj (.viewTDense .mat) .d false], .vmlten_stpow, [0, 1, 2]⟩,
  ⟨.vml_pow, [.obj (.viewTDense .ten) .d true, .scal .d, .obj (.viewTDense .ten) .d false], .vmlten_stpow, [0, 1, 2]⟩,
  ⟨.vml_pow, [.obj .tcrs .s true, .scal .s, .obj .tcrs .s false], .vmlten_stpow, [0, 1, 2]⟩,
  ⟨.vml_pow, [.obj .tdense .s true, .scal .s, .obj .tdense .s false], .vmlten_stpow, [0, 1, 2]⟩,
  ⟨.vml_pow, [.obj .tdense .s true, .scal .s, .obj (.viewTDense .vec) .s false], .vmlten_stpow, [0, 1, 2]⟩,
  ⟨.vml_pow, [.obj .tdense .s true, .scal .s, .obj (.viewTDense .mat) .s false], .vmlten_stpow, [0, 1, 2]⟩,
  ⟨.vml_pow, [.obj .tdense .s true, .scal .s, .obj (.viewTDense .ten) .s false], .vmlten_stpow, [0, 1, 2]⟩,
  ⟨.vml_pow, [.obj (.viewTDense .vec) .s true, .scal .s, .obj .tdense .s false], .vmlten_stpow, [0, 1, 2]⟩,
  ⟨.vml_pow, [.obj (.viewTDense .vec) .s true, .scal .s, .obj (.viewTDense .vec) .s false], .vmlten_stpow, [0, 1, 2]⟩,
  ⟨.vml_pow, [.obj (.viewTDense .vec) .s true, .scal .s, .obj (.viewTDense .mat) .s false], .vmlten_stpow, [0, 1, 2]⟩,
  ⟨.vml_pow, [.obj (.viewTDense .vec) .s true, .scal .s, .obj (.viewTDense .ten) .s false], .vmlten_stpow, [0, 1, 2]⟩,
  ⟨.vml_pow, [.obj (.viewTDense .mat) .s true, .scal .s, .obj .tdense .s false], .vmlten_stpow, [0, 1, 2]⟩,
  ⟨.vml_pow, [.obj (.viewTDense .mat) .s true, .scal .s, .obj (.viewTDense .vec) .s false], .vmlten_stpow, [0, 1, 2]⟩,
  ⟨.vml_pow, [.obj (.viewTDense .mat) .s true, .scal .s, .obj (.viewTDense .mat) .s false], .vmlten_stpow, [0, 1, 2]⟩,
  ⟨.vml_pow, [.obj (.viewTDense .mat) .s true, .scal .s, .obj (.viewTDense .ten) .s false], .vmlten_stpow, [0, 1, 2]⟩,
  ⟨.vml_pow, [.obj (.viewTDense .ten) .s true, .scal .s, .obj .tdense .s false], .vmlten_stpow, [0, 1, 2]⟩,
  ⟨.vml_pow, [.obj (.viewTDense .ten) .s true, .scal .s, .obj (.viewTDense .vec) .s false], .vmlten_stpow, [0, 1, 2]⟩,
  ⟨.vml_pow, [.obj (.viewTDense .ten) .s true, .scal .s, .obj (.viewTDense .mat) .s false], .vmlten_stpow, [0, 1, 2]⟩,
  ⟨.vml_pow, [.obj (.viewTDense .ten) .s true, .scal .s, .obj (.viewTDense .ten) .s false], .vmlten_stpow, [0, 1, 2]⟩,
  ⟨.vml_alo, [.obj .tcrs .d true, .scal .d, .scal .d, .obj .tcrs .d false], .vmlten_talo, [0, 1, 2, 3]⟩,
  ⟨.vml_alo, [.obj .tdense .d true, .scal .d, .scal .d, .obj .tdense .d false], .vmlten_talo, [0, 1, 2, 3]⟩,
  ⟨.vml_alo, [.obj .tdense .d true, .scal .d, .scal .d, .obj (.viewTDense .vec) .d false], .vmlten_talo, [0, 1, 2, 3]⟩,
  ⟨.vml_alo, [.obj .tdense .d true, .scal .d, .scal .d, .obj (.viewTDense .mat) .d false], .vmlten_talo, [0, 1, 2, 3]⟩,
  ⟨.vml_alo, [.obj .tdense .d true, .scal .d, .scal .d, .obj (.viewTDense .ten) .d false], .vmlten_talo, [0, 1, 2, 3]⟩,
  ⟨.vml_alo, [.obj (.viewTDense .vec) .d true, .scal .d, .scal .d, .obj .tdense .d false], .vmlten_talo, [0, 1, 2, 3]⟩,
  ⟨.vml_alo, [.obj (.viewTDense .vec) .d true, .scal .d, .scal .d, .obj (.viewTDense .vec) .d false], .vmlten_talo, [0, 1, 2, 3]⟩,
  ⟨.vml_alo, [.obj (.viewTDense .vec) .d true, .scal .d, .scal .d, .obj (.viewTDense .mat) .d false], .vmlten_talo, [0, 1, 2, 3]⟩,
  ⟨.vml_alo, [.obj (.viewTDense .vec) .d true, .scal .d, .scal .d, .obj (.viewTDense .ten) .d false], .vmlten_talo, [0, 1, 2, 3]⟩,
  ⟨.vml_alo, [.obj (.viewTDense .mat) .d true, .scal .d, .scal .d, .obj .tdense .d false], .vmlten_talo, [0, 1, 2, 3]⟩,
  ⟨.vml_alo, [.obj (.viewTDense .mat) .d true, .scal .d, .scal .d, .obj (.viewTDense .vec) .d false], .vmlten_talo, [0, 1, 2, 3]⟩,
  ⟨.vml_alo, [.obj (.viewTDense .mat) .d true, .scal .d, .scal .d, .obj (.viewTDense .mat) .d false], .vmlten_talo, [0, 1, 2, 3]⟩,
  ⟨.vml_alo, [.obj (.viewTDense .mat) .d true, .scal .d, .scal .d, .obj (.viewTDense .ten) .d false], .vmlten_talo, [0, 1, 2, 3]⟩,
  ⟨.vml_alo, [.obj (.viewTDense .ten) .d true, .scal .d, .scal .d, .obj .tdense .d false], .vmlten_talo, [0, 1, 2, 3]⟩,
  ⟨.vml_alo, [.obj (.viewTDense .ten) .d true, .scal .d, .scal .d, .obj (.viewTDense .vec) .d false], .vmlten_talo, [0, 1, 2, 3]⟩,
  ⟨.vml_alo, [.obj (.viewTDense .ten) .d true, .scal .d, .scal .d, .obj (.viewTDense .mat) .d false], .vmlten_talo, [0, 1, 2, 3]⟩,
  ⟨.vml_alo, [.obj (.viewTDense .ten) .d true, .scal .d, .scal .d, .obj (.viewTDense .ten) .d false], .vmlten_talo, [0, 1, 2, 3]⟩,
  ⟨.vml_alo, [.obj .tcrs .s true, .scal .s, .scal .s, .obj .tcrs .s false], .vmlten_talo, [0, 1, 2, 3]⟩,
  ⟨.vml_alo, [.obj .tdense .s true, .scal .s, .scal .s, .obj .tdense .s false], .vmlten_talo, [0, 1, 2, 3]⟩,
  ⟨.vml_alo, [.obj .tdense .s true, .scal .s, .scal .s, .obj (.viewTDense .vec) .s false], .vmlten_talo, [0, 1, 2, 3]⟩,
  ⟨.vml_alo, [.obj .tdense .s true, .scal .s, .scal .s, .obj (.viewTDense .mat) .s false], .vmlten_talo, [0, 1, 2, 3]⟩,
  ⟨.vml_alo, [.obj .tdense .s true, .scal .s, .scal .s, .obj (.viewTDense .ten) .s false], .vmlten_talo, [0, 1, 2, 3]⟩,
  ⟨.vml_alo, [.obj (.viewTDense .vec) .s true, .scal .s, .scal .s, .obj .tdense .s false], .vmlten_talo, [0, 1, 2, 3]⟩,
  ⟨.vml_alo, [.obj (.viewTDense .vec) .s true, .scal .s, .scal .s, .obj (.viewTDense .vec) .s false], .vmlten_talo, [0, 1, 2, 3]⟩,
  ⟨.vml_alo, [.obj (.viewTDense .vec) .s true, .scal .s, .scal .s, .obj (.viewTDense .mat) .s false], .vmlten_talo, [0, 1, 2, 3]⟩,
  ⟨.vml_alo, [.obj (.viewTDense .vec) .s true, .scal .s, .scal .s, .obj (.viewTDense .ten) .s false], .vmlten_talo, [0, 1, 2, 3]⟩,
  ⟨.vml_alo, [.obj (.viewTDense .mat) .s true, .scal .s, .scal .s, .obj .tdense .s false], .vmlten_talo, [0, 1, 2, 3]⟩,
  ⟨.vml_alo, [.obj (.viewTDense .mat) .s true, .scal .s, .scal .s, .obj (.viewTDense .vec) .s false], .vmlten_talo, [0, 1, 2, 3]⟩,
  ⟨.vml_alo, [.obj (.viewTDense .mat) .s true, .scal .s, .scal .s, .obj (.viewTDense .mat) .s false], .vmlten_talo, [0, 1, 2, 3]⟩,
  ⟨.vml_alo, [.obj (.viewTDense .mat) .s true, .scal .s, .scal .s, .obj (.viewTDense .ten) .s false], .vmlten_talo, [0, 1, 2, 3]⟩,
  ⟨.vml_alo, [.obj (.viewTDense .ten) .s true, .scal .s, .scal .s, .obj .tdense .s false], .vmlten_talo, [0, 1, 2, 3]⟩,
  ⟨.vml_alo, [.obj (.viewTDense .ten) .s true, .scal .s, .scal .s, .obj (.viewTDense .vec) .s false], .vmlten_talo, [0, 1, 2, 3]⟩,
  ⟨.vml_alo, [.obj (.viewTDense .ten) .s true, .scal .s, .scal .s, .obj (.viewTDense .mat) .s false], .vmlten_talo, [0, 1, 2, 3]⟩,
  ⟨.vml_alo, [.obj (.viewTDense .ten) .s true, .scal .s, .scal .s, .obj (.viewTDense .ten) .s false], .vmlten_talo, [0, 1, 2, 3]⟩,
  ⟨.vml_sin, [.obj .tcrs .d true, .obj .tcrs .d false], .vmlten_tsin, [0, 1]⟩,
  ⟨.vml_sin, [.obj .tdense .d true, .obj .tdense .d false], .vmlten_tsin, [0, 1]⟩,
  ⟨.vml_sin, [.obj .tdense .d true, .obj (.viewTDense .vec) .d false], .vmlten_tsin, [0, 1]⟩,
  ⟨.vml_sin, [.obj .tdense .d true, .obj (.viewTDense .mat) .d false], .vmlten_tsin, [0, 1]⟩,
  ⟨.vml_sin, [.obj .tdense .d true, .obj (.viewTDense .ten) .d false], .vmlten_tsin, [0, 1]⟩,
  ⟨.vml_sin, [.obj (.viewTDense .vec) .d true, .obj .tdense .d false], .vmlten_tsin, [0, 1]⟩,
  ⟨.vml_sin, [.obj (.viewTDense .vec) .d true, .obj (.viewTDense .vec) .d false], .vmlten_tsin, [0, 1]⟩,
  ⟨.vml_sin, [.obj (.viewTDense .vec) .d true, .obj (.viewTDense .mat) .d false], .vmlten_tsin, [0, 1]⟩,
  ⟨.vml_sin, [.obj (.viewTDense .vec) .d true, .obj (.viewTDense .ten) .d false], .vmlten_tsin, [0, 1]⟩,
  ⟨.vml_sin, [.obj (.viewTDense .mat) .d true, .obj .tdense .d false], .vmlten_tsin, [0, 1]⟩,
  ⟨.vml_sin, [.obj (.viewTDense .mat) .d true, .obj (.viewTDense .vec) .d false], .vmlten_tsin, [0, 1]⟩,
  ⟨.vml_sin, [.obj (.viewTDense .mat) .d true, .obj (.viewTDense .mat) .d false], .vmlten_tsin, [0, 1]⟩,
  ⟨.vml_sin, [.obj (.viewTDense .mat) .d true, .obj (.viewTDense .ten) .d false], .vmlten_tsin, [0, 1]⟩,
  ⟨.vml_sin, [.obj (.viewTDense .ten) .d true, .obj .tdense .d false], .vmlten_tsin, [0, 1]⟩,
  ⟨.vml_sin, [.obj (.viewTDense .ten) .d true, .obj (.viewTDense .vec) .d false], .vmlten_tsin, [0, 1]⟩,
  ⟨.vml_sin, [.obj (.viewTDense .ten) .d true, .obj (.viewTDense .mat) .d false], .vmlten_tsin, [0, 1]⟩,
  ⟨.vml_sin, [.obj (.viewTDense .ten) .d true, .obj (.viewTDense .ten) .d false], .vmlten_tsin, [0, 1]⟩,
  ⟨.vml_sin, [.obj .tcrs .s true, .obj .tcrs .s false], .vmlten_tsin, [0, 1]⟩,
  ⟨.vml_sin, [.obj .tdense .s true, .obj .tdense .s false], .vmlten_tsin, [0, 1]⟩,
  ⟨.vml_sin, [.obj .tdense .s true, .obj (.viewTDense .vec) .s false], .vmlten_tsin, [0, 1]⟩,
  ⟨.vml_sin, [.obj .tdense .s true, .obj (.viewTDense .mat) .s false], .vmlten_tsin, [0, 1]⟩,
  ⟨.vml_sin, [.obj .tdense .s true, .obj (.viewTDense .ten) .s false], .vmlten_tsin, [0, 1]⟩,
  ⟨.vml_sin, [.obj (.viewTDense .vec) .s true, .obj .tdense .s false], .vmlten_tsin, [0, 1]⟩,
  ⟨.vml_sin, [.obj (.viewTDense .vec) .s true, .obj (.viewTDense .vec) .s false], .vmlten_tsin, [0, 1]⟩,
  ⟨.vml_sin, [.obj (.viewTDense .vec) .s true, .obj (.viewTDense .mat) .s false], .vmlten_tsin, [0, 1]⟩,
  ⟨.vml_sin, [.obj (.viewTDense .vec) .s true, .obj (.viewTDense .ten) .s false], .vmlten_tsin, [0, 1]⟩]

/-- src/vml/tensor/tensor_vml.cpp:4221-4535 -/
def tVmlTen_11 : List Overload := [
  ⟨.vml_sin, [.obj (.viewTDense .mat) .s true, .obj .tdense .s false], .vmlten_tsin, [0, 1]⟩,
  ⟨.vml_sin, [.obj (.viewTDense .mat) .s true, .obj (.viewTDense .vec) .s false], .vmlten_tsin, [0, 1]⟩,
  ⟨.vml_sin, [.obj (.viewTDense .mat) .s true, .obj (.viewTDense .mat) .s false], .vmlten_tsin, [0, 1]⟩,
  ⟨.vml_sin, [.obj (.viewTDense .mat) .s true, .obj (.viewTDense .ten) .s false], .vmlten_tsin, [0, 1]⟩,
  ⟨.vml_sin, [.obj (.viewTDense .ten) .s true, .obj .tdense .s false], .vmlten_tsin, [0, 1]⟩,
  ⟨.vml_sin, [.obj (.viewTDense .ten) .s true, .obj (.viewTDense .vec) .s false], .vmlten_tsin, [0, 1]⟩,
  ⟨.vml_sin, [.obj (.viewTDense .ten) .s true, .obj (.viewTDense .mat) .s false], .vmlten_tsin, [0, 1]⟩,
  ⟨.vml_sin, [.obj (.viewTDense .ten) .s true, .obj (.viewTDense .ten) .s false], .vmlten_tsin, [0, 1]⟩,
  ⟨.vml_sqrt, [.obj .tcrs .d true, .obj .tcrs .d false], .vmlten_tsqrt, [0, 1]⟩,
  ⟨.vml_sqrt, [.obj .tdense .d true, .obj .tdense .d false], .vmlten_tsqrt, [0, 1]⟩,
  ⟨.vml_sqrt, [.obj .tdense .d true, .obj (.viewTDense .vec) .d false], .vmlten_tsqrt, [0, 1]⟩,
  ⟨.vml_sqrt, [.obj .tdense .d true, .obj (.viewTDense .mat) .d false], .vmlten_tsqrt, [0, 1]⟩,
  ⟨.vml_sqrt, [.obj .tdense .d true, .obj (.viewTDense .ten) .d false], .vmlten_tsqrt, [0, 1]⟩,
  ⟨.vml_sqrt, [.obj (.viewTDense .vec) .d true, .obj .tdense .d false], .vmlten_tsqrt, [0, 1]⟩,
  ⟨.vml_sqrt, [.obj (.viewTDense .vec) .d true, .obj (.viewTDense .vec) .d false], .vmlten_tsqrt, [0, 1]⟩,
  ⟨.vml_sqrt, [.obj (.viewTDense .vec) .d true, .obj (.viewTDense .mat) .d false], .vmlten_tsqrt, [0, 1]⟩,
  ⟨.vml_sqrt, [.obj (.viewTDense .vec) .d true, .obj (.viewTDense .ten) .d false], .vmlten_tsqrt, [0, 1]⟩,
  ⟨.vml_sqrt, [.obj (.viewTDense .mat) .d true, .obj .tdense .d false], .vmlten_tsqrt, [0, 1]⟩,
  ⟨.vml_sqrt, [.obj (.viewTDense .mat) .d true, .obj (.viewTDense .vec) .d false], .vmlten_tsqrt, [0, 1]⟩,
  ⟨.vml_sqrt, [.obj (.viewTDense .mat) .d true, .obj (.viewTDense .mat) .d false], .vmlten_tsqrt, [0, 1]⟩,
  ⟨.vml_sqrt, [.obj (.viewTDense .mat) .d true, .obj (.viewTDense .ten) .d false], .vmlten_tsqrt, [0, 1]⟩,
  ⟨.vml_sqrt, [.obj (.viewTDense .ten) .d true, .obj .tdense .d false], .vmlten_tsqrt, [0, 1]⟩,
  ⟨.vml_sqrt, [.obj (.viewTDense .ten) .d true, .obj (.viewTDense .vec) .d false], .vmlten_tsqrt, [0, 1]⟩,
  ⟨.vml_sqrt, [.obj (.viewTDense .ten) .d true, .obj (.viewTDense .mat) .d false], .vmlten_tsqrt, [0, 1]⟩,
  ⟨.vml_sqrt, [.obj (.viewTDense .ten) .d true, .obj (.viewTDense .ten) .d false], .vmlten_tsqrt, [0, 1]⟩,
  ⟨.vml_sqrt, [.obj .tcrs .s true, .obj .tcrs .s false], .vmlten_tsqrt, [0, 1]⟩,
  ⟨.vml_sqrt, [.obj .tdense .s true, .obj .tdense .s false], .vmlten_tsqrt, [0, 1]⟩,
  ⟨.vml_sqrt, [.obj .tdense .s true, .obj (.viewTDense .vec) .s false], .vmlten_tsqrt, [0, 1]⟩,
  ⟨.vml_sqrt, [.obj .tdense .s true, .obj (.viewTDense .mat) .s false], .vmlten_tsqrt, [0, 1]⟩,
  ⟨.vml_sqrt, [.obj .tdense .s true, .obj (.viewTDense .ten) .s false], .vmlten_tsqrt, [0, 1]⟩,
  ⟨.vml_sqrt, [.obj (.viewTDense .vec) .s true, .obj .tdense .s false], .vmlten_tsqrt, [0, 1]⟩,
  ⟨.vml_sqrt, [.obj (.viewTDense .vec) .s true, .obj (.viewTDense .vec) .s false], .vmlten_tsqrt, [0, 1]⟩,
  ⟨.vml_sqrt, [.obj (.viewTDense .vec) .s true, .obj (.viewTDense .mat) .s false], .vmlten_tsqrt, [0, 1]⟩,
  ⟨.vml_sqrt, [.obj (.viewTDense .vec) .s true, .obj (.viewTDense .ten) .s false], .vmlten_tsqrt, [0, 1]⟩,
  ⟨.vml_sqrt, [.obj (.viewTDense .mat) .s true, .obj .tdense .s false], .vmlten_tsqrt, [0, 1]⟩,
  ⟨.vml_sqrt, [.obj (.viewTDense .mat) .s true, .obj (.viewTDense .vec) .s false], .vmlten_tsqrt, [0, 1]⟩,
  ⟨.vml_sqrt, [.obj (.viewTDense .mat) .s true, .obj (.viewTDense .mat) .s false], .vmlten_tsqrt, [0, 1]⟩,
  ⟨.vml_sqrt, [.obj (.viewTDense .mat) .s true, .obj (.viewTDense .ten) .s false], .vmlten_tsqrt, [0, 1]⟩,
  ⟨.vml_sqrt, [.obj (.viewTDense .ten) .s true, .obj .tdense .s false], .vmlten_tsqrt, [0, 1]⟩,
  ⟨.vml_sqrt, [.obj (.viewTDense .ten) .s true, .obj (.viewTDense .vec) .s false], .vmlten_tsqrt, [0, 1]⟩,
  ⟨.vml_sqrt, [.obj (.viewTDense .ten) .s true, .obj (.viewTDense .mat) .s false], .vmlten_tsqrt, [0, 1]⟩,
  ⟨.vml_sqrt, [.obj (.viewTDense .ten) .s true, .obj (.viewTDense .ten) .s false], .vmlten_tsqrt, [0, 1]⟩,
  ⟨.vml_sinh, [.obj .tcrs .d true, .obj .tcrs .d false], .vmlten_tsinh, [0, 1]⟩,
  ⟨.vml_sinh, [.obj .tdense .d true, .obj .tdense .d false], .vmlten_tsinh, [0, 1]⟩,
  ⟨.vml_sinh, [.obj .tdense .d true, .obj (.viewTDense .vec) .d false], .vmlten_tsinh, [0, 1]⟩,
  ⟨.vml_sinh, [.obj .tdense .d true, .obj (.viewTDense .mat) .d false], .vmlten_tsinh, [0, 1]⟩,
  ⟨.vml_sinh, [.obj .tdense .d true, .obj (.viewTDense .ten) .d false], .vmlten_tsinh, [0, 1]⟩,
  ⟨.vml_sinh, [.obj (.viewTDense .vec) .d true, .obj .tdense .d false], .vmlten_tsinh, [0, 1]⟩,
  ⟨.vml_sinh, [.obj (.viewTDense .vec) .d true, .obj (.viewTDense .vec) .d false], .vmlten_tsinh, [0, 1]⟩,
  ⟨.vml_sinh, [.obj (.viewTDense .vec) .d true, .obj (.viewTDense .mat) .d false], .vmlten_tsinh, [0, 1]⟩,
  ⟨.vml_sinh, [.obj (.viewTDense .vec) .d true, .obj (.viewTDense .ten) .d false], .vmlten_tsinh, [0, 1]⟩,
  ⟨.vml_sinh, [.obj (.viewTDense .mat) .d true, .obj .tdense .d false], .vmlten_tsinh, [0, 1]⟩,
  ⟨.vml_sinh, [.obj (.viewTDense .mat) .d true, .obj (.viewTDense .vec) .d false], .vmlten_tsinh, [0, 1]⟩,
  ⟨.vml_sinh, [.obj (.viewTDense .mat) .d true, .obj (.viewTDense .mat) .d false], .vmlten_tsinh, [0, 1]⟩,
  ⟨.vml_sinh, [.obj (.viewTDense .mat) .d true, .obj (.viewTDense .ten) .d false], .vmlten_tsinh, [0, 1]⟩,
  ⟨.vml_sinh, [.obj (.viewTDense .ten) .d true, .obj .tdense .d false], .vmlten_tsinh, [0, 1]⟩,
  ⟨.vml_sinh, [.obj (.viewTDense .ten) .d true, .obj (.viewTDense .vec) .d false], .vmlten_tsinh, [0, 1]⟩,
  ⟨.vml_sinh, [.obj (.viewTDense .ten) .d true, .obj (.viewTDense .mat) .d false], .vmlten_tsinh, [0, 1]⟩,
  ⟨.vml_sinh, [.obj (.viewTDense .ten) .d true, .obj (.viewTDense .ten) .d false], .vmlten_tsinh, [0, 1]⟩,
  ⟨.vml_sinh, [.obj .tcrs .s true, .obj .tcrs .s false], .vmlten_tsinh, [0, 1]⟩,
  ⟨.vml_sinh, [.obj .tdense .s true, .obj .tdense .s false], .vmlten_tsinh, [0, 1]⟩,
  ⟨.vml_sinh, [.obj .tdense .s true, .obj (.viewTDense .vec) .s false], .vmlten_tsinh, [0, 1]⟩,
  ⟨.vml_sinh, [.obj .tdense .s true, .obj (.viewTDense .mat) .s false], .vmlten_tsinh, [0, 1]⟩,
  ⟨.vml_sinh, [.obj .tdense .s true, .obj (.viewTDense .ten) .s false], .vmlten_tsinh, [0, 1]⟩,
  ⟨.vml_sinh, [.obj (.viewTDense .vec) .s true, .obj .tdense .s false], .vmlten_tsinh, [0, 1]⟩,
  ⟨.vml_sinh, [.obj (.viewTDense .vec) .s true, .obj (.viewTDense .vec) .s false], .vmlten_tsinh, [0, 1]⟩,
  ⟨.vml_sinh, [.obj (.viewTDense .vec) .s true, .obj (.viewTDense .mat) .s false], .vmlten_tsinh, [0, 1]⟩,
  ⟨.vml_sinh, [.obj (.viewTDense .vec) .s true, .obj (.viewTDense .ten) .s false], .vmlten_tsinh, [0, 1]⟩,
  ⟨.vml_sinh, [.obj (.viewTDense .mat) .s true, .obj .tdense .s false], .vmlten_tsinh, [0, 1]⟩,
  ⟨.vml_sinh, [.obj (.viewTDense .mat) .s true, .obj (.viewTDense .vec) .s false], .vmlten_tsinh, [0, 1]⟩,
  ⟨.vml_sinh, [.obj (.viewTDense .mat) .s true, .obj (.viewTDense .mat) .s false], .vmlten_tsinh, [0, 1]⟩,
  ⟨.vml_sinh, [.obj (.viewTDense .mat) .s true, .obj (.viewTDense .ten) .s false], .vmlten_tsinh, [0, 1]⟩,
  ⟨.vml_sinh, [.obj (.viewTDense .ten) .s true, .obj .tdense .s false], .vmlten_tsinh, [0, 1]⟩,
  ⟨.vml_sinh, [.obj (.viewTDense .ten) .s true, .obj (.viewTDense .vec) .s false], .vmlten_tsinh, [0, 1]⟩,
  ⟨.vml_sinh, [.obj (.viewTDense .ten) .s true, .obj (.viewTDense .mat) .s false], .vmlten_tsinh, [0, 1]⟩,
  ⟨.vml_sinh, [.obj (.viewTDense .ten) .s true, .obj (.viewTDense .ten) .s false], .vmlten_tsinh, [0, 1]⟩,
  ⟨.vml_asin, [.obj .tcrs .d true, .obj .tcrs .d false], .vmlten_tasin, [0, 1]⟩,
  ⟨.vml_asin, [.obj .tdense .d true, .obj .tdense .d false], .vmlten_tasin, [0, 1]⟩,
  ⟨.vml_asin, [.obj .tdense .d true, .obj (.viewTDense .vec) .d false], .vmlten_tasin, [0, 1]⟩,
  ⟨.vml_asin, [.obj .tdense .d true, .obj (.viewTDense .mat) .d false], .vmlten_tasin, [0, 1]⟩]

/-- src/vml/tensor/tensor_vml.cpp:4536-4851 -/
def tVmlTen_12 : List Overload := [
  ⟨.vml_asin, [.obj .tdense .d true, .obj (.viewTDense .ten) .d false], .vmlten_tasin, [0, 1]⟩,
  ⟨.vml_asin, [.obj (.viewTDense .vec) .d true, .obj .tdense .d false], .vmlten_tasin, [0, 1]⟩,
  ⟨.vml_asin, [.obj (.viewTDense .vec) .d true, .obj (.viewTDense .vec) .d false], .vmlten_tasin, [0, 1]⟩,
  ⟨.vml_asin, [.obj (.viewTDense .vec) .d true, .obj (.viewTDense .mat) .d false], .vmlten_tasin, [0, 1]⟩,
  ⟨.vml_asin, [.obj (.viewTDense .vec) .d true, .obj (.viewTDense .ten) .d false], .vmlten_tasin, [0, 1]⟩,
  ⟨.vml_asin, [.obj (.viewTDense .mat) .d true, .obj .tdense .d false], .vmlten_tasin, [0, 1]⟩,
  ⟨.vml_asin, [.obj (.viewTDense .mat) .d true, .obj (.viewTDense .vec) .d false], .vmlten_tasin, [0, 1]⟩,
  ⟨.vml_asin, [.obj (.viewTDense .mat) .d true, .obj (.viewTDense .mat) .d false], .vmlten_tasin, [0, 1]⟩,
  ⟨.vml_asin, [.obj (.viewTDense .mat) .d true, .obj (.viewTDense .ten) .d false], .vmlten_tasin, [0, 1]⟩,
  ⟨.vml_asin, [.obj (.viewTDense .ten) .d true, .obj .tdense .d false], .vmlten_tasin, [0, 1]⟩,
  ⟨.vml_asin, [.obj (.viewTDense .ten) .d true, .obj (.viewTDense .vec) .d false], .vmlten_tasin, [0, 1]⟩,
  ⟨.vml_asin, [.obj (.viewTDense .ten) .d true, .obj (.viewTDense .mat) .d false], .vmlten_tasin, [0, 1]⟩,
  ⟨.vml_asin, [.obj (.viewTDense .ten) .d true, .obj (.viewTDense .ten) .d false], .vmlten_tasin, [0, 1]⟩,
  ⟨.vml_asin, [.obj .tcrs .s true, .obj .tcrs .s false], .vmlten_tasin, [0, 1]⟩,
  ⟨.vml_asin, [.obj .tdense .s true, .obj .tdense .s false], .vmlten_tasin, [0, 1]⟩,
  ⟨.vml_asin, [.obj .tdense .s true, .obj (.viewTDense .vec) .s false], .vmlten_tasin, [0, 1]⟩,
  ⟨.vml_asin, [.obj .tdense .s true, .obj (.viewTDense .mat) .s false], .vmlten_tasin, [0, 1]⟩,
  ⟨.vml_asin, [.obj .tdense .s true, .obj (.viewTDense .ten) .s false], .vmlten_tasin, [0, 1]⟩,
  ⟨.vml_asin, [.obj (.viewTDense .vec) .s true, .obj .tdense .s false], .vmlten_tasin, [0, 1]⟩,
  ⟨.vml_asin, [.obj (.viewTDense .vec) .s true, .obj (.viewTDense .vec) .s false], .vmlten_tasin, [0, 1]⟩,
  ⟨.vml_asin, [.obj (.viewTDense .vec) .s true, .obj (.viewTDense .mat) .s false], .vmlten_tasin, [0, 1]⟩,
  ⟨.vml_asin, [.obj (.viewTDense .vec) .s true, .obj (.viewTDense .ten) .s false], .vmlten_tasin, [0, 1]⟩,
  ⟨.vml_asin, [.obj (.viewTDense .mat) .s true, .obj .tdense .s false], .vmlten_tasin, [0, 1]⟩,
  ⟨.vml_asin, [.obj (.viewTDense .mat) .s true, .obj (.viewTDense .vec) .s false], .vmlten_tasin, [0, 1]⟩,
  ⟨.vml_asin, [.obj (.viewTDense .mat) .s true, .obj (.viewTDense .mat) .s false], .vmlten_tasin, [0, 1]⟩,
  ⟨.vml_asin, [.obj (.viewTDense .mat) .s true, .obj (.viewTDense .ten) .s false], .vmlten_tasin, [0, 1]⟩,
  ⟨.vml_asin, [.obj (.viewTDense .ten) .s true, .obj .tdense .s false], .vmlten_tasin, [0, 1]⟩,
  ⟨.vml_asin, [.obj (.viewTDense .ten) .s true, .obj (.viewTDense .vec) .s false], .vmlten_tasin, [0, 1]⟩,
  ⟨.vml_asin, [.obj (.viewTDense .ten) .s true, .obj (.viewTDense .mat) .s false], .vmlten_tasin, [0, 1]⟩,
  ⟨.vml_asin, [.obj (.viewTDense .ten) .s true, .obj (.viewTDense .ten) .s false], .vmlten_tasin, [0, 1]⟩,
  ⟨.vml_asinh, [.obj .tcrs .d true, .obj .tcrs .d false], .vmlten_tasinh, [0, 1]⟩,
  ⟨.vml_asinh, [.obj .tdense .d true, .obj .tdense .d false], .vmlten_tasinh, [0, 1]⟩,
  ⟨.vml_asinh, [.obj .tdense .d true, .obj (.viewTDense .vec) .d false], .vmlten_tasinh, [0, 1]⟩,
  ⟨.vml_asinh, [.obj .tdense .d true, .obj (.viewTDense .mat) .d false], .vmlten_tasinh, [0, 1]⟩,
  ⟨.vml_asinh, [.obj .tdense .d true, .obj (.viewTDense .ten) .d false], .vmlten_tasinh, [0, 1]⟩,
  ⟨.vml_asinh, [.obj (.viewTDense .vec) .d true, .obj .tdense .d false], .vmlten_tasinh, [0, 1]⟩,
  ⟨.vml_asinh, [.obj (.viewTDense .vec) .d true, .obj (.viewTDense .vec) .d false], .vmlten_tasinh, [0, 1]⟩,
  ⟨.vml_asinh, [.obj (.viewTDense .vec) .d true, .obj (.viewTDense .mat) .d false], .vmlten_tasinh, [0, 1]⟩,
  ⟨.vml_asinh, [.obj (.viewTDense .vec) .d true, .obj (.viewTDense .ten) .d false], .vmlten_tasinh, [0, 1]⟩,
  ⟨.vml_asinh, [.obj (.viewTDense .mat) .d true, .obj .tdense .d false], .vmlten_tasinh, [0, 1]⟩,
  ⟨.vml_asinh, [.obj (.viewTDense .mat) .d true, .obj (.viewTDense .vec) .d false], .vmlten_tasinh, [0, 1]⟩,
  ⟨.vml_asinh, [.obj (.viewTDense .mat) .d true, .obj (.viewTDense .mat) .d false], .vmlten_tasinh, [0, 1]⟩,
  ⟨.vml_asinh, [.obj (.viewTDense .mat) .d true, .obj (.viewTDense .ten) .d false], .vmlten_tasinh, [0, 1]⟩,
  ⟨.vml_asinh, [.obj (.viewTDense .ten) .d true, .obj .tdense .d false], .vmlten_tasinh, [0, 1]⟩,
  ⟨.vml_asinh, [.obj (.viewTDense .ten) .d true, .obj (.viewTDense .vec) .d false], .vmlten_tasinh, [0, 1]⟩,
  ⟨.vml_asinh, [.obj (.viewTDense .ten) .d true, .obj (.viewTDense .mat) .d false], .vmlten_tasinh, [0, 1]⟩,
  ⟨.vml_asinh, [.obj (.viewTDense .ten) .d true, .obj (.viewTDense .ten) .d false], .vmlten_tasinh, [0, 1]⟩,
  ⟨.vml_asinh, [.obj .tcrs .s true, .obj .tcrs .s false], .vmlten_tasinh, [0, 1]⟩,
  ⟨.vml_asinh, [.obj .tdense .s true, .obj .tdense .s false], .vmlten_tasinh, [0, 1]⟩,
  ⟨.vml_asinh, [.obj .tdense .s true, .obj (.viewTDense .vec) .s false], .vmlten_tasinh, [0, 1]⟩,
  ⟨.vml_asinh, [.obj .tdense .s true, .obj (.viewTDense .mat) .s false], .vmlten_tasinh, [0, 1]⟩,
  ⟨.vml_asinh, [.obj .tdense .s true, .obj (.viewTDense .ten) .s false], .vmlten_tasinh, [0, 1]⟩,
  ⟨.vml_asinh, [.obj (.viewTDense .vec) .s true, .obj .tdense .s false], .vmlten_tasinh, [0, 1]⟩,
  ⟨.vml_asinh, [.obj (.viewTDense .vec) .s true, .obj (.viewTDense .vec) .s false], .vmlten_tasinh, [0, 1]⟩,
  ⟨.vml_asinh, [.obj (.viewTDense .vec) .s true, .obj (.viewTDense .mat) .s false], .vmlten_tasinh, [0, 1]⟩,
  ⟨.vml_asinh, [.obj (.viewTDense .vec) .s true, .obj (.viewTDense .ten) .s false], .vmlten_tasinh, [0, 1]⟩,
  ⟨.vml_asinh, [.obj (.viewTDense .mat) .s true, .obj .tdense .s false], .vmlten_tasinh, [0, 1]⟩,
  ⟨.vml_asinh, [.obj (.viewTDense .mat) .s true, .obj (.viewTDense .vec) .s false], .vmlten_tasinh, [0, 1]⟩,
  ⟨.vml_asinh, [.obj (.viewTDense .mat) .s true, .obj (.viewTDense .mat) .s false], .vmlten_tasinh, [0, 1]⟩,
  ⟨.vml_asinh, [.obj (.viewTDense .mat) .s true, .obj (.viewTDense .ten) .s false], .vmlten_tasinh, [0, 1]⟩,
  ⟨.vml_asinh, [.obj (.viewTDense .ten) .s true, .obj .tdense .s false], .vmlten_tasinh, [0, 1]⟩,
  ⟨.vml_asinh, [.obj (.viewTDense .ten) .s true, .obj (.viewTDense .vec) .s false], .vmlten_tasinh, [0, 1]⟩,
  ⟨.vml_asinh, [.obj (.viewTDense .ten) .s true, .obj (.viewTDense .mat) .s false], .vmlten_tasinh, [0, 1]⟩,
  ⟨.vml_asinh, [.obj (.viewTDense .ten) .s true, .obj (.viewTDense .ten) .s false], .vmlten_tasinh, [0, 1]⟩,
  ⟨.vml_tan, [.obj .tcrs .d true, .obj .tcrs .d false], .vmlten_ttan, [0, 1]⟩,
  ⟨.vml_tan, [.obj .tdense .d true, .obj .tdense .d false], .vmlten_ttan, [0, 1]⟩,
  ⟨.vml_tan, [.obj .tdense .d true, .obj (.viewTDense .vec) .d false], .vmlten_ttan, [0, 1]⟩,
  ⟨.vml_tan, [.obj .tdense .d true, .obj (.viewTDense .mat) .d false], .vmlten_ttan, [0, 1]⟩,
  ⟨.vml_tan, [.obj .tdense .d true, .obj (.viewTDense .ten) .d false], .vmlten_ttan, [0, 1]⟩,
  ⟨.vml_tan, [.obj (.viewTDense .vec) .d true, .obj .tdense .d false], .vmlten_ttan, [0, 1]⟩,
  ⟨.vml_tan, [.obj (.viewTDense .vec) .d true, .obj (.viewTDense .vec) .d false], .vmlten_ttan, [0, 1]⟩,
  ⟨.vml_tan, [.obj (.viewTDense .vec) .d true, .obj (.viewTDense .mat) .d false], .vmlten_ttan, [0, 1]⟩,
  ⟨.vml_tan, [.obj (.viewTDense .vec) .d true, .obj (.viewTDense .ten) .d false], .vmlten_ttan, [0, 1]⟩,
  ⟨.vml_tan, [.obj (.viewTDense .mat) .d true, .obj .tdense .d false], .vmlten_ttan, [0, 1]⟩,
  ⟨.vml_tan, [.obj (.viewTDense .mat) .d true, .obj (.viewTDense .vec) .d false], .vmlten_ttan, [0, 1]⟩,
  ⟨.vml_tan, [.obj (.viewTDense .mat) .d true, .obj (.viewTDense .mat) .d false], .vmlten_ttan, [0, 1]⟩,
  ⟨.vml_tan, [.obj (.viewTDense .mat) .d true, .obj (.viewTDense .ten) .d false], .vmlten_ttan, [0, 1]⟩,
  ⟨.vml_tan, [.obj (.viewTDense .ten) .d true, .obj .tdense .d false], .vmlten_ttan, [0, 1]⟩,
  ⟨.vml_tan, [.obj (.viewTDense .ten) .d true, .obj (.viewTDense .vec) .d false], .vmlten_ttan, [0, 1]⟩,
  ⟨.vml_tan, [.obj (.viewTDense .ten) .d true, .obj (.viewTDense .mat) .d false], .vmlten_ttan, [0, 1]⟩]

/-- src/vml/tensor/tensor_vml.cpp:4852-5165 -/
def tVmlTen_13 : List Overload := [
  ⟨.vml_tan, [.obj (.viewTDense .ten) .d true, .obj (.viewTDense .ten) .d false], .vmlten_ttan, [0, 1]⟩,
  ⟨.vml_tan, [.obj .tcrs .s true, .obj .tcrs .s false], .vmlten_ttan, [0, 1]⟩,
  ⟨.vml_tan, [.obj .tdense .s true, .obj .tdense .s false], .vmlten_ttan, [0, 1]⟩,
  ⟨.vml_tan, [.obj .tdense .s true, .obj (.viewTDense .vec) .s false], .vmlten_ttan, [0, 1]⟩,
  ⟨.vml_tan, [.obj .tdense .s true, .obj (.viewTDense .mat) .s false], .vmlten_ttan, [0, 1]⟩,
  ⟨.vml_tan, [.obj .tdense .s true, .obj (.viewTDense .ten) .s false], .vmlten_ttan, [0, 1]⟩,
  ⟨.vml_tan, [.obj (.viewTDense .vec) .s true, .obj .tdense .s false], .vmlten_ttan, [0, 1]⟩,
  ⟨.vml_tan, [.obj (.viewTDense .vec) .s true, .obj (.viewTDense .vec) .s false], .vmlten_ttan, [0, 1]⟩,
  ⟨.vml_tan, [.obj (.viewTDense .vec) .s true, .obj (.viewTDense .mat) .s false], .vmlten_ttan, [0, 1]⟩,
  ⟨.vml_tan, [.obj (.viewTDense .vec) .s true, .obj (.viewTDense .ten) .s false], .vmlten_ttan, [0, 1]⟩,
  ⟨.vml_tan, [.obj (.viewTDense .mat) .s true, .obj .tdense .s false], .vmlten_ttan, [0, 1]⟩,
  ⟨.vml_tan, [.obj (.viewTDense .mat) .s true, .obj (.viewTDense .vec) .s false], .vmlten_ttan, [0, 1]⟩,
  ⟨.vml_tan, [.obj (.viewTDense .mat) .s true, .obj (.viewTDense .mat) .s false], .vmlten_ttan, [0, 1]⟩,
  ⟨.vml_tan, [.obj (.viewTDense .mat) .s true, .obj (.viewTDense .ten) .s false], .vmlten_ttan, [0, 1]⟩,
  ⟨.vml_tan, [.obj (.viewTDense .ten) .s true, .obj .tdense .s false], .vmlten_ttan, [0, 1]⟩,
  ⟨.vml_tan, [.obj (.viewTDense .ten) .s true, .obj (.viewTDense .vec) .s false], .vmlten_ttan, [0, 1]⟩,
  ⟨.vml_tan, [.obj (.viewTDense .ten) .s true, .obj (.viewTDense .mat) .s false], .vmlten_ttan, [0, 1]⟩,
  ⟨.vml_tan, [.obj (.viewTDense .ten) .s true, .obj (.viewTDense .ten) .s false], .vmlten_ttan, [0, 1]⟩,
  ⟨.vml_tanh, [.obj .tcrs .d true, .obj .tcrs .d false], .vmlten_ttanh, [0, 1]⟩,
  ⟨.vml_tanh, [.obj .tdense .d true, .obj .tdense .d false], .vmlten_ttanh, [0, 1]⟩,
  ⟨.vml_tanh, [.obj .tdense .d true, .obj (.viewTDense .vec) .d false], .vmlten_ttanh, [0, 1]⟩,
  ⟨.vml_tanh, [.obj .tdense .d true, .obj (.viewTDense .mat) .d false], .vmlten_ttanh, [0, 1]⟩,
  ⟨.vml_tanh, [.obj .tdense .d true, .obj (.viewTDense .ten) .d false], .vmlten_ttanh, [0, 1]⟩,
  ⟨.vml_tanh, [.obj (.viewTDense .vec) .d true, .obj .tdense .d false], .vmlten_ttanh, [0, 1]⟩,
  ⟨.vml_tanh, [.obj (.viewTDense .vec) .d true, .obj (.viewTDense .vec) .d false], .vmlten_ttanh, [0, 1]⟩,
  ⟨.vml_tanh, [.obj (.viewTDense .vec) .d true, .obj (.viewTDense .mat) .d false], .vmlten_ttanh, [0, 1]⟩,
  ⟨.vml_tanh, [.obj (.viewTDense .vec) .d true, .obj (.viewTDense .ten) .d false], .vmlten_ttanh, [0, 1]⟩,
  ⟨.vml_tanh, [.obj (.viewTDense .mat) .d true, .obj .tdense .d false], .vmlten_ttanh, [0, 1]⟩,
  ⟨.vml_tanh, [.obj (.viewTDense .mat) .d true, .obj (.viewTDense .vec) .d false], .vmlten_ttanh, [0, 1]⟩,
  ⟨.vml_tanh, [.obj (.viewTDense .mat) .d true, .obj (.viewTDense .mat) .d false], .vmlten_ttanh, [0, 1]⟩,
  ⟨.vml_tanh, [.obj (.viewTDense .mat) .d true, .obj (.viewTDense .ten) .d false], .vmlten_ttanh, [0, 1]⟩,
  ⟨.vml_tanh, [.obj (.viewTDense .ten) .d true, .obj .tdense .d false], .vmlten_ttanh, [0, 1]⟩,
  ⟨.vml_tanh, [.obj (.viewTDense .ten) .d true, .obj (.viewTDense .vec) .d false], .vmlten_ttanh, [0, 1]⟩,
  ⟨.vml_tanh, [.obj (.viewTDense .ten) .d true, .obj (.viewTDense .mat) .d false], .vmlten_ttanh, [0, 1]⟩,
  ⟨.vml_tanh, [.obj (.viewTDense .ten) .d true, .obj (.viewTDense .ten) .d false], .vmlten_ttanh, [0, 1]⟩,
  ⟨.vml_tanh, [.obj .tcrs .s true, .obj .tcrs .s false], .vmlten_ttanh, [0, 1]⟩,
  ⟨.vml_tanh, [.obj .tdense .s true, .obj .tdense .s false], .vmlten_ttanh, [0, 1]⟩,
  ⟨.vml_tanh, [.obj .tdense .s true, .obj (.viewTDense .vec) .s false], .vmlten_ttanh, [0, 1]⟩,
  ⟨.vml_tanh, [.obj .tdense .s true, .obj (.viewTDense .mat) .s false], .vmlten_ttanh, [0, 1]⟩,
  ⟨.vml_tanh, [.obj .tdense .s true, .obj (.viewTDense .ten) .s false], .vmlten_ttanh, [0, 1]⟩,
  ⟨.vml_tanh, [.obj (.viewTDense .vec) .s true, .obj .tdense .s false], .vmlten_ttanh, [0, 1]⟩,
  ⟨.vml_tanh, [.obj (.viewTDense .vec) .s true, .obj (.viewTDense .vec) .s false], .vmlten_ttanh, [0, 1]⟩,
  ⟨.vml_tanh, [.obj (.viewTDense .vec) .s true, .obj (.viewTDense .mat) .s false], .vmlten_ttanh, [0, 1]⟩,
  ⟨.vml_tanh, [.obj (.viewTDense .vec) .s true, .obj (.viewTDense .ten) .s false], .vmlten_ttanh, [0, 1]⟩,
  ⟨.vml_tanh, [.obj (.viewTDense .mat) .s true, .obj .tdense .s false], .vmlten_ttanh, [0, 1]⟩,
  ⟨.vml_tanh, [.obj (.viewTDense .mat) .s true, .obj (.viewTDense .vec) .s false], .vmlten_ttanh, [0, 1]⟩,
  ⟨.vml_tanh, [.obj (.viewTDense .mat) .s true, .obj (.viewTDense .mat) .s false], .vmlten_ttanh, [0, 1]⟩,
  ⟨.vml_tanh, [.obj (.viewTDense .mat) .s true, .obj (.viewTDense .ten) .s false], .vmlten_ttanh, [0, 1]⟩,
  ⟨.vml_tanh, [.obj (.viewTDense .ten) .s true, .obj .tdense .s false], .vmlten_ttanh, [0, 1]⟩,
  ⟨.vml_tanh, [.obj (.viewTDense .ten) .s true, .obj (.viewTDense .vec) .s false], .vmlten_ttanh, [0, 1]⟩,
  ⟨.vml_tanh, [.obj (.viewTDense .ten) .s true, .obj (.viewTDense .mat) .s false], .vmlten_ttanh, [0, 1]⟩,
  ⟨.vml_tanh, [.obj (.viewTDense .ten) .s true, .obj (.viewTDense .ten) .s false], .vmlten_ttanh, [0, 1]⟩,
  ⟨.vml_atan, [.obj .tcrs .d true, .obj .tcrs .d false], .vmlten_tatan, [0, 1]⟩,
  ⟨.vml_atan, [.obj .tdense .d true, .obj .tdense .d false], .vmlten_tatan, [0, 1]⟩,
  ⟨.vml_atan, [.obj .tdense .d true, .obj (.viewTDense .vec) .d false], .vmlten_tatan, [0, 1]⟩,
  ⟨.vml_atan, [.obj .tdense .d true, .obj (.viewTDense .mat) .d false], .vmlten_tatan, [0, 1]⟩,
  ⟨.vml_atan, [.obj .tdense .d true, .obj (.viewTDense .ten) .d false], .vmlten_tatan, [0, 1]⟩,
  ⟨.vml_atan, [.obj (.viewTDense .vec) .d true, .obj .tdense .d false], .vmlten_tatan, [0, 1]⟩,
  ⟨.vml_atan, [.obj (.viewTDense .vec) .d true, .obj (.viewTDense .vec) .d false], .vmlten_tatan, [0, 1]⟩,
  ⟨.vml_atan, [.obj (.viewTDense .vec) .d true, .obj (.viewTDense .mat) .d false], .vmlten_tatan, [0, 1]⟩,
  ⟨.vml_atan, [.obj (.viewTDense .vec) .d true, .obj (.viewTDense .ten) .d false], .vmlten_tatan, [0, 1]⟩,
  ⟨.vml_atan, [.obj (.viewTDense .mat) .d true, .obj .tdense .d false], .vmlten_tatan, [0, 1]⟩,
  ⟨.vml_atan, [.obj (.viewTDense .mat) .d true, .obj (.viewTDense .vec) .d false], .vmlten_tatan, [0, 1]⟩,
  ⟨.vml_atan, [.obj (.viewTDense .mat) .d true, .obj (.viewTDense .mat) .d false], .vmlten_tatan, [0, 1]⟩,
  ⟨.vml_atan, [.obj (.viewTDense .mat) .d true, .obj (.viewTDense .ten) .d false], .vmlten_tatan, [0, 1]⟩,
  ⟨.vml_atan, [.obj (.viewTDense .ten) .d true, .obj .tdense .d false], .vmlten_tatan, [0, 1]⟩,
  ⟨.vml_atan, [.obj (.viewTDense .ten) .d true, .obj (.viewTDense .vec) .d false], .vmlten_tatan, [0, 1]⟩,
  ⟨.vml_atan, [.obj (.viewTDense .ten) .d true, .obj (.viewTDense .mat) .d false], .vmlten_tatan, [0, 1]⟩,
  ⟨.vml_atan, [.obj (.viewTDense .ten) .d true, .obj (.viewTDense .ten) .d false], .vmlten_tatan, [0, 1]⟩,
  ⟨.vml_atan, [.obj .tcrs .s true, .obj .tcrs .s false], .vmlten_tatan, [0, 1]⟩,
  ⟨.vml_atan, [.obj .tdense .s true, .obj .tdense .s false], .vmlten_tatan, [0, 1]⟩,
  ⟨.vml_atan, [.obj .tdense .s true, .obj (.viewTDense .vec) .s false], .vmlten_tatan, [0, 1]⟩,
  ⟨.vml_atan, [.obj .tdense .s true, .obj (.viewTDense .mat) .s false], .vmlten_tatan, [0, 1]⟩,
  ⟨.vml_atan, [.obj .tdense .s true, .obj (.viewTDense .ten) .s false], .vmlten_tatan, [0, 1]⟩,
  ⟨.vml_atan, [.obj (.viewTDense .vec) .s true, .obj .tdense .s false], .vmlten_tatan, [0, 1]⟩,
  ⟨.vml_atan, [.obj (.viewTDense .vec) .s true, .obj (.viewTDense .vec) .s false], .vmlten_tatan, [0, 1]⟩,
  ⟨.vml_atan, [.obj (.viewTDense .vec) .s true, .obj (.viewTDense .mat) .s false], .vmlten_tatan, [0, 1]⟩,
  ⟨.vml_atan, [.obj (.viewTDense .vec) .s true, .obj (.viewTDense .ten) .s false], .vmlten_tatan, [0, 1]⟩,
  ⟨.vml_atan, [.obj (.viewTDense .mat) .s true, .obj .tdense .s false], .vmlten_tatan, [0, 1]⟩,
  ⟨.vml_atan, [.obj (.viewTDense .mat) .s true, .obj (.viewTDense .vec) .s false], .vmlten_tatan, [0, 1]⟩]

/-- src/vml/tensor/tensor_vml.cpp:5166-5480 -/
def tVmlTen_14 : List Overload := [
  ⟨.vml_atan, [.obj (.viewTDense .mat) .s true, .obj (.viewTDense .mat) .s false], .vmlten_tatan, [0, 1]⟩,
  ⟨.vml_atan, [.obj (.viewTDense .mat) .s true, .obj (.viewTDense .ten) .s false], .vmlten_tatan, [0, 1]⟩,
  ⟨.vml_atan, [.obj (.viewTDense .ten) .s true, .obj .tdense .s false], .vmlten_tatan, [0, 1]⟩,
  ⟨.vml_atan, [.obj (.viewTDense .ten) .s true, .obj (.viewTDense .vec) .s false], .vmlten_tatan, [0, 1]⟩,
  ⟨.vml_atan, [.obj (.viewTDense .ten) .s true, .obj (.viewTDense .mat) .s false], .vmlten_tatan, [0, 1]⟩,
  ⟨.vml_atan, [.obj (.viewTDense .ten) .s true, .obj (.viewTDense .ten) .s false], .vmlten_tatan, [0, 1]⟩,
  ⟨.vml_atanh, [.obj .tcrs .d true, .obj .tcrs .d false], .vmlten_tatanh, [0, 1]⟩,
  ⟨.vml_atanh, [.obj .tdense .d true, .obj .tdense .d false], .vmlten_tatanh, [0, 1]⟩,
  ⟨.vml_atanh, [.obj .tdense .d true, .obj (.viewTDense .vec) .d false], .vmlten_tatanh, [0, 1]⟩,
  ⟨.vml_atanh, [.obj .tdense .d true, .obj (.viewTDense .mat) .d false], .vmlten_tatanh, [0, 1]⟩,
  ⟨.vml_atanh, [.obj .tdense .d true, .obj (.viewTDense .ten) .d false], .vmlten_tatanh, [0, 1]⟩,
  ⟨.vml_atanh, [.obj (.viewTDense .vec) .d true, .obj .tdense .d false], .vmlten_tatanh, [0, 1]⟩,
  ⟨.vml_atanh, [.obj (.viewTDense .vec) .d true, .obj (.viewTDense .vec) .d false], .vmlten_tatanh, [0, 1]⟩,
  ⟨.vml_atanh, [.obj (.viewTDense .vec) .d true, .obj (.viewTDense .mat) .d false], .vmlten_tatanh, [0, 1]⟩,
  ⟨.vml_atanh, [.obj (.viewTDense .vec) .d true, .obj (.viewTDense .ten) .d false], .vmlten_tatanh, [0, 1]⟩,
  ⟨.vml_atanh, [.obj (.viewTDense .mat) .d true, .obj .tdense .d false], .vmlten_tatanh, [0, 1]⟩,
  ⟨.vml_atanh, [.obj (.viewTDense .mat) .d true, .obj (.viewTDense .vec) .d false], .vmlten_tatanh, [0, 1]⟩,
  ⟨.vml_atanh, [.obj (.viewTDense .mat) .d true, .obj (.viewTDense .mat) .d false], .vmlten_tatanh, [0, 1]⟩,
  ⟨.vml_atanh, [.obj (.viewTDense .mat) .d true, .obj (.viewTDense .ten) .d false], .vmlten_tatanh, [0, 1]⟩,
  ⟨.vml_atanh, [.obj (.viewTDense .ten) .d true, .obj .tdense .d false], .vmlten_tatanh, [0, 1]⟩,
  ⟨.vml_atanh, [.obj (.viewTDense .ten) .d true, .obj (.viewTDense .vec) .d false], .vmlten_tatanh, [0, 1]⟩,
  ⟨.vml_atanh, [.obj (.viewTDense .ten) .d true, .obj (.viewTDense .mat) .d false], .vmlten_tatanh, [0, 1]⟩,
  ⟨.vml_atanh, [.obj (.viewTDense .ten) .d true, .obj (.viewTDense .ten) .d false], .vmlten_tatanh, [0, 1]⟩,
  ⟨.vml_atanh, [.obj .tcrs .s true, .obj .tcrs .s false], .vmlten_tatanh, [0, 1]⟩,
  ⟨.vml_atanh, [.obj .tdense .s true, .obj .tdense .s false], .vmlten_tatanh, [0, 1]⟩,
  ⟨.vml_atanh, [.obj .tdense .s true, .obj (.viewTDense .vec) .s false], .vmlten_tatanh, [0, 1]⟩,
  ⟨.vml_atanh, [.obj .tdense .s true, .obj (.viewTDense .mat) .s false], .vmlten_tatanh, [0, 1]⟩,
  ⟨.vml_atanh, [.obj .tdense .s true, .obj (.viewTDense .ten) .s false], .vmlten_tatanh, [0, 1]⟩,
  ⟨.vml_atanh, [.obj (.viewTDense .vec) .s true, .obj .tdense .s false], .vmlten_tatanh, [0, 1]⟩,
  ⟨.vml_atanh, [.obj (.viewTDense .vec) .s true, .obj (.viewTDense .vec) .s false], .vmlten_tatanh, [0, 1]⟩,
  ⟨.vml_atanh, [.obj (.viewTDense .vec) .s true, .obj (.viewTDense .mat) .s false], .vmlten_tatanh, [0, 1]⟩,
  ⟨.vml_atanh, [.obj (.viewTDense .vec) .s true, .obj (.viewTDense .ten) .s false], .vmlten_tatanh, [0, 1]⟩,
  ⟨.vml_atanh, [.obj (.viewTDense .mat) .s true, .obj .tdense .s false], .vmlten_tatanh, [0, 1]⟩,
  ⟨.vml_atanh, [.obj (.viewTDense .mat) .s true, .obj (.viewTDense .vec) .s false], .vmlten_tatanh, [0, 1]⟩,
  ⟨.vml_atanh, [.obj (.viewTDense .mat) .s true, .obj (.viewTDense .mat) .s false], .vmlten_tatanh, [0, 1]⟩,
  ⟨.vml_atanh, [.obj (.viewTDense .mat) .s true, .obj (.viewTDense .ten) .s false], .vmlten_tatanh, [0, 1]⟩,
  ⟨.vml_atanh, [.obj (.viewTDense .ten) .s true, .obj .tdense .s false], .vmlten_tatanh, [0, 1]⟩,
  ⟨.vml_atanh, [.obj (.viewTDense .ten) .s true, .obj (.viewTDense .vec) .s false], .vmlten_tatanh, [0, 1]⟩,
  ⟨.vml_atanh, [.obj (.viewTDense .ten) .s true, .obj (.viewTDense .mat) .s false], .vmlten_tatanh, [0, 1]⟩,
  ⟨.vml_atanh, [.obj (.viewTDense .ten) .s true, .obj (.viewTDense .ten) .s false], .vmlten_tatanh, [0, 1]⟩,
  ⟨.vml_ceil, [.obj .tcrs .d true, .obj .tcrs .d false], .vmlten_tceil, [0, 1]⟩,
  ⟨.vml_ceil, [.obj .tdense .d true, .obj .tdense .d false], .vmlten_tceil, [0, 1]⟩,
  ⟨.vml_ceil, [.obj .tdense .d true, .obj (.viewTDense .vec) .d false], .vmlten_tceil, [0, 1]⟩,
  ⟨.vml_ceil, [.obj .tdense .d true, .obj (.viewTDense .mat) .d false], .vmlten_tceil, [0, 1]⟩,
  ⟨.vml_ceil, [.obj .tdense .d true, .obj (.viewTDense .ten) .d false], .vmlten_tceil, [0, 1]⟩,
  ⟨.vml_ceil, [.obj (.viewTDense .vec) .d true, .obj .tdense .d false], .vmlten_tceil, [0, 1]⟩,
  ⟨.vml_ceil, [.obj (.viewTDense .vec) .d true, .obj (.viewTDense .vec) .d false], .vmlten_tceil, [0, 1]⟩,
  ⟨.vml_ceil, [.obj (.viewTDense .vec) .d true, .obj (.viewTDense .mat) .d false], .vmlten_tceil, [0, 1]⟩,
  ⟨.vml_ceil, [.obj (.viewTDense .vec) .d true, .obj (.viewTDense .ten) .d false], .vmlten_tceil, [0, 1]⟩,
  ⟨.vml_ceil, [.obj (.viewTDense .mat) .d true, .obj .tdense .d false], .vmlten_tceil, [0, 1]⟩,
  ⟨.vml_ceil, [.obj (.viewTDense .mat) .d true, .obj (.viewTDense .vec) .d false], .vmlten_tceil, [0, 1]⟩,
  ⟨.vml_ceil, [.obj (.viewTDense .mat) .d true, .obj (.viewTDense .mat) .d false], .vmlten_tceil, [0, 1]⟩,
  ⟨.vml_ceil, [.obj (.viewTDense .mat) .d true, .obj (.viewTDense .ten) .d false], .vmlten_tceil, [0, 1]⟩,
  ⟨.vml_ceil, [.obj (.viewTDense .ten) .d true, .obj .tdense .d false], .vmlten_tceil, [0, 1]⟩,
  ⟨.vml_ceil, [.obj (.viewTDense .ten) .d true, .obj (.viewTDense .vec) .d false], .vmlten_tceil, [0, 1]⟩,
  ⟨.vml_ceil, [.obj (.viewTDense .ten) .d true, .obj (.viewTDense .mat) .d false], .vmlten_tceil, [0, 1]⟩,
  ⟨.vml_ceil, [.obj (.viewTDense .ten) .d true, .obj (.viewTDense .ten) .d false], .vmlten_tceil, [0, 1]⟩,
  ⟨.vml_ceil, [.obj .tcrs .s true, .obj .tcrs .s false], .vmlten_tceil, [0, 1]⟩,
  ⟨.vml_ceil, [.obj .tdense .s true, .obj .tdense .s false], .vmlten_tceil, [0, 1]⟩,
  ⟨.vml_ceil, [.obj .tdense .s true, .obj (.viewTDense .vec) .s false], .vmlten_tceil, [0, 1]⟩,
  ⟨.vml_ceil, [.obj .tdense .s true, .obj (.viewTDense .mat) .s false], .vmlten_tceil, [0, 1]⟩,
  ⟨.vml_ceil, [.obj .tdense .s true, .obj (.viewTDense .ten) .s false], .vmlten_tceil, [0, 1]⟩,
  ⟨.vml_ceil, [.obj (.viewTDense .vec) .s true, .obj .tdense .s false], .vmlten_tceil, [0, 1]⟩,
  ⟨.vml_ceil, [.obj (.viewTDense .vec) .s true, .obj (.viewTDense .vec) .s false], .vmlten_tceil, [0, 1]⟩,
  ⟨.vml_ceil, [.obj (.viewTDense .vec) .s true, .obj (.viewTDense .mat) .s false], .vmlten_tceil, [0, 1]⟩,
  ⟨.vml_ceil, [.obj (.viewTDense .vec) .s true, .obj (.viewTDense .ten) .s false], .vmlten_tceil, [0, 1]⟩,
  ⟨.vml_ceil, [.obj (.viewTDense .mat) .s true, .obj .tdense .s false], .vmlten_tceil, [0, 1]⟩,
  ⟨.vml_ceil, [.obj (.viewTDense .mat) .s true, .obj (.viewTDense .vec) .s false], .vmlten_tceil, [0, 1]⟩,
  ⟨.vml_ceil, [.obj (.viewTDense .mat) .s true, .obj (.viewTDense .mat) .s false], .vmlten_tceil, [0, 1]⟩,
  ⟨.vml_ceil, [.obj (.viewTDense .mat) .s true, .obj (.viewTDense .ten) .s false], .vmlten_tceil, [0, 1]⟩,
  ⟨.vml_ceil, [.obj (.viewTDense .ten) .s true, .obj .tdense .s false], .vmlten_tceil, [0, 1]⟩,
  ⟨.vml_ceil, [.obj (.viewTDense .ten) .s true, .obj (.viewTDense .vec) .s false], .vmlten_tceil, [0, 1]⟩,
  ⟨.vml_ceil, [.obj (.viewTDense .ten) .s true, .obj (.viewTDense .mat) .s false], .vmlten_tceil, [0, 1]⟩,
  ⟨.vml_ceil, [.obj (.viewTDense .ten) .s true, .obj (.viewTDense .ten) .s false], .vmlten_tceil, [0, 1]⟩,
  ⟨.vml_floor, [.obj .tcrs .d true, .obj .tcrs .d false], .vmlten_tfloor, [0, 1]⟩,
  ⟨.vml_floor, [.obj .tdense .d true, .obj .tdense .d false], .vmlten_tfloor, [0, 1]⟩,
  ⟨.vml_floor, [.obj .tdense .d true, .obj (.viewTDense .vec) .d false], .vmlten_tfloor, [0, 1]⟩,
  ⟨.vml_floor, [.obj .tdense .d true, .obj (.viewTDense .mat) .d false], .vmlten_tfloor, [0, 1]⟩,
  ⟨.vml_floor, [.obj .tdense .d true, .obj (.viewTDense .ten) .d false], .vmlten_tfloor, [0, 1]⟩,
  ⟨.vml_floor, [.obj (.viewTDense .vec) .d true, .obj .tdense .d false], .vmlten_tfloor, [0, 1]⟩]

/-- src/vml/tensor/tensor_vml.cpp:5481-5801 -/
def tVmlTen_15 : List Overload := [
  ⟨.vml_floor, [.obj (.viewTDense .vec) .d true, .obj (.viewTDense .vec) .d false], .vmlten_tfloor, [0, 1]⟩,
  ⟨.vml_floor, [.obj (.viewTDense .vec) .d true, .obj (.viewTDense .mat) .d false], .vmlten_tfloor, [0, 1]⟩,
  ⟨.vml_floor, [.obj (.viewTDense .vec) .d true, .obj (.viewTDense .ten) .d false], .vmlten_tfloor, [0, 1]⟩,
  ⟨.vml_floor, [.obj (.viewTDense .mat) .d true, .obj .tdense .d false], .vmlten_tfloor, [0, 1]⟩,
  ⟨.vml_floor, [.obj (.viewTDense .mat) .d true, .obj (.viewTDense .vec) .d false], .vmlten_tfloor, [0, 1]⟩,
  ⟨.vml_floor, [.obj (.viewTDense .mat) .d true, .obj (.viewTDense .mat) .d false], .vmlten_tfloor, [0, 1]⟩,
  ⟨.vml_floor, [.obj (.viewTDense .mat) .d true, .obj (.viewTDense .ten) .d false], .vmlten_tfloor, [0, 1]⟩,
  ⟨.vml_floor, [.obj (.viewTDense .ten) .d true, .obj .tdense .d false], .vmlten_tfloor, [0, 1]⟩,
  ⟨.vml_floor, [.obj (.viewTDense .ten) .d true, .obj (.viewTDense .vec) .d false], .vmlten_tfloor, [0, 1]⟩,
  ⟨.vml_floor, [.obj (.viewTDense .ten) .d true, .obj (.viewTDense .mat) .d false], .vmlten_tfloor, [0, 1]⟩,
  ⟨.vml_floor, [.obj (.viewTDense .ten) .d true, .obj (.viewTDense .ten) .d false], .vmlten_tfloor, [0, 1]⟩,
  ⟨.vml_floor, [.obj .tcrs .s true, .obj .tcrs .s false], .vmlten_tfloor, [0, 1]⟩,
  ⟨.vml_floor, [.obj .tdense .s true, .obj .tdense .s false], .vmlten_tfloor, [0, 1]⟩,
  ⟨.vml_floor, [.obj .tdense .s true, .obj (.viewTDense .vec) .s false], .vmlten_tfloor, [0, 1]⟩,
  ⟨.vml_floor, [.obj .tdense .s true, .obj (.viewTDense .mat) .s false], .vmlten_tfloor, [0, 1]⟩,
  ⟨.vml_floor, [.obj .tdense .s true, .obj (.viewTDense .ten) .s false], .vmlten_tfloor, [0, 1]⟩,
  ⟨.vml_floor, [.obj (.viewTDense .vec) .s true, .obj .tdense .s false], .vmlten_tfloor, [0, 1]⟩,
  ⟨.vml_floor, [.obj (.viewTDense .vec) .s true, .obj (.viewTDense .vec) .s false], .vmlten_tfloor, [0, 1]⟩,
  ⟨.vml_floor, [.obj (.viewTDense .vec) .s true, .obj (.viewTDense .mat) .s false], .vmlten_tfloor, [0, 1]⟩,
  ⟨.vml_floor, [.obj (.viewTDense .vec) .s true, .obj (.viewTDense .ten) .s false], .vmlten_tfloor, [0, 1]⟩,
  ⟨.vml_floor, [.obj (.viewTDense .mat) .s true, .obj .tdense .s false], .vmlten_tfloor, [0, 1]⟩,
  ⟨.vml_floor, [.obj (.viewTDense .mat) .s true, .obj (.viewTDense .vec) .s false], .vmlten_tfloor, [0, 1]⟩,
  ⟨.vml_floor, [.obj (.viewTDense .mat) .s true, .obj (.viewTDense .mat) .s false], .vmlten_tfloor, [0, 1]⟩,
  ⟨.vml_floor, [.obj (.viewTDense .mat) .s true, .obj (.viewTDense .ten) .s false], .vmlten_tfloor, [0, 1]⟩,
  ⟨.vml_floor, [.obj (.viewTDense .ten) .s true, .obj .tdense .s false], .vmlten_tfloor, [0, 1]⟩,
  ⟨.vml_floor, [.obj (.viewTDense .ten) .s true, .obj (.viewTDense .vec) .s false], .vmlten_tfloor, [0, 1]⟩,
  ⟨.vml_floor, [.obj (.viewTDense .ten) .s true, .obj (.viewTDense .mat) .s false], .vmlten_tfloor, [0, 1]⟩,
  ⟨.vml_floor, [.obj (.viewTDense .ten) .s true, .obj (.viewTDense .ten) .s false], .vmlten_tfloor, [0, 1]⟩,
  ⟨.vml_sign, [.obj .tcrs .d true, .obj .tcrs .d false], .vmlten_tsign, [0, 1]⟩,
  ⟨.vml_sign, [.obj .tdense .d true, .obj .tdense .d false], .vmlten_tsign, [0, 1]⟩,
  ⟨.vml_sign, [.obj .tdense .d true, .obj (.viewTDense .vec) .d false], .vmlten_tsign, [0, 1]⟩,
  ⟨.vml_sign, [.obj .tdense .d true, .obj (.viewTDense .mat) .d false], .vmlten_tsign, [0, 1]⟩,
  ⟨.vml_sign, [.obj .tdense .d true, .obj (.viewTDense .ten) .d false], .vmlten_tsign, [0, 1]⟩,
  ⟨.vml_sign, [.obj (.viewTDense .vec) .d true, .obj .tdense .d false], .vmlten_tsign, [0, 1]⟩,
  ⟨.vml_sign, [.obj (.viewTDense .vec) .d true, .obj (.viewTDense .vec) .d false], .vmlten_tsign, [0, 1]⟩,
  ⟨.vml_sign, [.obj (.viewTDense .vec) .d true, .obj (.viewTDense .mat) .d false], .vmlten_tsign, [0, 1]⟩,
  ⟨.vml_sign, [.obj (.viewTDense .vec) .d true, .obj (.viewTDense .ten) .d false], .vmlten_tsign, [0, 1]⟩,
  ⟨.vml_sign, [.obj (.viewTDense .mat) .d true, .obj .tdense .d false], .vmlten_tsign, [0, 1]⟩,
  ⟨.vml_sign, [.obj (.viewTDense .mat) .d true, .obj (.viewTDense .vec) .d false], .vmlten_tsign, [0, 1]⟩,
  ⟨.vml_sign, [.obj (.viewTDense .mat) .d true, .obj (.viewTDense .mat) .d false], .vmlten_tsign, [0, 1]⟩,
  ⟨.vml_sign, [.obj (.viewTDense .mat) .d true, .obj (.viewTDense .ten) .d false], .vmlten_tsign, [0, 1]⟩,
  ⟨.vml_sign, [.obj (.viewTDense .ten) .d true, .obj .tdense .d false], .vmlten_tsign, [0, 1]⟩,
  ⟨.vml_sign, [.obj (.viewTDense .ten) .d true, .obj (.viewTDense .vec) .d false], .vmlten_tsign, [0, 1]⟩,
  ⟨.vml_sign, [.obj (.viewTDense .ten) .d true, .obj (.viewTDense .mat) .d false], .vmlten_tsign, [0, 1]⟩,
  ⟨.vml_sign, [.obj (.viewTDense .ten) .d true, .obj (.viewTDense .ten) .d false], .vmlten_tsign, [0, 1]⟩,
  ⟨.vml_sign, [.obj .tcrs .s true, .obj .tcrs .s false], .vmlten_tsign, [0, 1]⟩,
  ⟨.vml_sign, [.obj .tdense .s true, .obj .tdense .s false], .vmlten_tsign, [0, 1]⟩,
  ⟨.vml_sign, [.obj .tdense .s true, .obj (.viewTDense .vec) .s false], .vmlten_tsign, [0, 1]⟩,
  ⟨.vml_sign, [.obj .tdense .s true, .obj (.viewTDense .mat) .s false], .vmlten_tsign, [0, 1]⟩,
  ⟨.vml_sign, [.obj .tdense .s true, .obj (.viewTDense .ten) .s false], .vmlten_tsign, [0, 1]⟩,
  ⟨.vml_sign, [.obj (.viewTDense .vec) .s true, .obj .tdense .s false], .vmlten_tsign, [0, 1]⟩,
  ⟨.vml_sign, [.obj (.viewTDense .vec) .s true, .obj (.viewTDense .vec) .s false], .vmlten_tsign, [0, 1]⟩,
  ⟨.vml_sign, [.obj (.viewTDense .vec) .s true, .obj (.viewTDense .mat) .s false], .vmlten_tsign, [0, 1]⟩,
  ⟨.vml_sign, [.obj (.viewTDense .vec) .s true, .obj (.viewTDense .ten) .s false], .vmlten_tsign, [0, 1]⟩,
  ⟨.vml_sign, [.obj (.viewTDense .mat) .s true, .obj .tdense .s false], .vmlten_tsign, [0, 1]⟩,
  ⟨.vml_sign, [.obj (.viewTDense .mat) .s true, .obj (.viewTDense .vec) .s false], .vmlten_tsign, [0, 1]⟩,
  ⟨.vml_sign, [.obj (.viewTDense .mat) .s true, .obj (.viewTDense .mat) .s false], .vmlten_tsign, [0, 1]⟩,
  ⟨.vml_sign, [.obj (.viewTDense .mat) .s true, .obj (.viewTDense .ten) .s false], .vmlten_tsign, [0, 1]⟩,
  ⟨.vml_sign, [.obj (.viewTDense .ten) .s true, .obj .tdense .s false], .vmlten_tsign, [0, 1]⟩,
  ⟨.vml_sign, [.obj (.viewTDense .ten) .s true, .obj (.viewTDense .vec) .s false], .vmlten_tsign, [0, 1]⟩,
  ⟨.vml_sign, [.obj (.viewTDense .ten) .s true, .obj (.viewTDense .mat) .s false], .vmlten_tsign, [0, 1]⟩,
  ⟨.vml_sign, [.obj (.viewTDense .ten) .s true, .obj (.viewTDense .ten) .s false], .vmlten_tsign, [0, 1]⟩,
  ⟨.vml_reciprocal, [.obj .tcrs .d true, .obj .tcrs .d false], .vmlten_treciprocal, [0, 1]⟩,
  ⟨.vml_reciprocal, [.obj .tdense .d true, .obj .tdense .d false], .vmlten_treciprocal, [0, 1]⟩,
  ⟨.vml_reciprocal, [.obj .tdense .d true, .obj (.viewTDense .vec) .d false], .vmlten_treciprocal, [0, 1]⟩,
  ⟨.vml_reciprocal, [.obj .tdense .d true, .obj (.viewTDense .mat) .d false], .vmlten_treciprocal, [0, 1]⟩,
  ⟨.vml_reciprocal, [.obj .tdense .d true, .obj (.viewTDense .ten) .d false], .vmlten_treciprocal, [0, 1]⟩,
  ⟨.vml_reciprocal, [.obj (.viewTDense .vec) .d true, .obj .tdense .d false], .vmlten_treciprocal, [0, 1]⟩,
  ⟨.vml_reciprocal, [.obj (.viewTDense .vec) .d true, .obj (.viewTDense .vec) .d false], .vmlten_treciprocal, [0, 1]⟩,
  ⟨.vml_reciprocal, [.obj (.viewTDense .vec) .d true, .obj (.viewTDense .mat) .d false], .vmlten_treciprocal, [0, 1]⟩,
  ⟨.vml_reciprocal, [.obj (.viewTDense .vec) .d true, .obj (.viewTDense .ten) .d false], .vmlten_treciprocal, [0, 1]⟩,
  ⟨.vml_reciprocal, [.obj (.viewTDense .mat) .d true, .obj .tdense .d false], .vmlten_treciprocal, [0, 1]⟩,
  ⟨.vml_reciprocal, [.obj (.viewTDense .mat) .d true, .obj (.viewTDense .vec) .d false], .vmlten_treciprocal, [0, 1]⟩,
  ⟨.vml_reciprocal, [.obj (.viewTDense .mat) .d true, .obj (.viewTDense .mat) .d false], .vmlten_treciprocal, [0, 1]⟩,
  ⟨.vml_reciprocal, [.obj (.viewTDense .mat) .d true, .obj (.viewTDense .ten) .d false], .vmlten_treciprocal, [0, 1]⟩,
  ⟨.vml_reciprocal, [.obj (.viewTDense .ten) .d true, .obj .tdense .d false], .vmlten_treciprocal, [0, 1]⟩,
  ⟨.vml_reciprocal, [.obj (.viewTDense .ten) .d true, .obj (.viewTDense .vec) .d false], .vmlten_treciprocal, [0, 1]⟩,
  ⟨.vml_reciprocal, [.obj (.viewTDense .ten) .d true, .obj (.viewTDense .mat) .d false], .vmlten_treciprocal, [0, 1]⟩,
  ⟨.vml_reciprocal, [.obj (.viewTDense .ten) .d true, .obj (.viewTDense .ten) .d false], .vmlten_treciprocal, [0, 1]⟩,
  ⟨.vml_reciprocal, [.obj .tcrs .s true, .obj .tcrs .s false], .vmlten_treciprocal, [0, 1]⟩]

/-- src/vml/tensor/tensor_vml.cpp:5802-6148 -/
def tVmlTen_16 : List Overload := [
  ⟨.vml_reciprocal, [.obj .tdense .s true, .obj .tdense .s false], .vmlten_treciprocal, [0, 1]⟩,
  ⟨.vml_reciprocal, [.obj .tdense .s true, .obj (.viewTDense .vec) .s false], .vmlten_treciprocal, [0, 1]⟩,
  ⟨.vml_reciprocal, [.obj .tdense .s true, .obj (.viewTDense .mat) .s false], .vmlten_treciprocal, [0, 1]⟩,
  ⟨.vml_reciprocal, [.obj .tdense .s true, .obj (.viewTDense .ten) .s false], .vmlten_treciprocal, [0, 1]⟩,
  ⟨.vml_reciprocal, [.obj (.viewTDense .vec) .s true, .obj .tdense .s false], .vmlten_treciprocal, [0, 1]⟩,
  ⟨.vml_reciprocal, [.obj (.viewTDense .vec) .s true, .obj (.viewTDense .vec) .s false], .vmlten_treciprocal, [0, 1]⟩,
  ⟨.vml_reciprocal, [.obj (.viewTDense .vec) .s true, .obj (.viewTDense .mat) .s false], .vmlten_treciprocal, [0, 1]⟩,
  ⟨.vml_reciprocal, [.obj (.viewTDense .vec) .s true, .obj (.viewTDense .ten) .s false], .vmlten_treciprocal, [0, 1]⟩,
  ⟨.vml_reciprocal, [.obj (.viewTDense .mat) .s true, .obj .tdense .s false], .vmlten_treciprocal, [0, 1]⟩,
  ⟨.vml_reciprocal, [.obj (.viewTDense .mat) .s true, .obj (.viewTDense .vec) .s false], .vmlten_treciprocal, [0, 1]⟩,
  ⟨.vml_reciprocal, [.obj (.viewTDense .mat) .s true, .obj (.viewTDense .mat) .s false], .vmlten_treciprocal, [0, 1]⟩,
  ⟨.vml_reciprocal, [.obj (.viewTDense .mat) .s true, .obj (.viewTDense .ten) .s false], .vmlten_treciprocal, [0, 1]⟩,
  ⟨.vml_reciprocal, [.obj (.viewTDense .ten) .s true, .obj .tdense .s false], .vmlten_treciprocal, [0, 1]⟩,
  ⟨.vml_reciprocal, [.obj (.viewTDense .ten) .s true, .obj (.viewTDense .vec) .s false], .vmlten_treciprocal, [0, 1]⟩,
  ⟨.vml_reciprocal, [.obj (.viewTDense .ten) .s true, .obj (.viewTDense .mat) .s false], .vmlten_treciprocal, [0, 1]⟩,
  ⟨.vml_reciprocal, [.obj (.viewTDense .ten) .s true, .obj (.viewTDense .ten) .s false], .vmlten_treciprocal, [0, 1]⟩,
  ⟨.vml_exp, [.obj .tcrs .d true, .obj .tcrs .d false], .vmlten_texp, [0, 1]⟩,
  ⟨.vml_exp, [.obj .tdense .d true, .obj .tdense .d false], .vmlten_texp, [0, 1]⟩,
  ⟨.vml_exp, [.obj .tdense .d true, .obj (.viewTDense .vec) .d false], .vmlten_texp, [0, 1]⟩,
  ⟨.vml_exp, [.obj .tdense .d true, .obj (.viewTDense .mat) .d false], .vmlten_texp, [0, 1]⟩,
  ⟨.vml_exp, [.obj .tdense .d true, .obj (.viewTDense .ten) .d false], .vmlten_texp, [0, 1]⟩,
  ⟨.vml_exp, [.obj (.viewTDense .vec) .d true, .obj .tdense .d false], .vmlten_texp, [0, 1]⟩,
  ⟨.vml_exp, [.obj (.viewTDense .vec) .d true, .obj (.viewTDense .vec) .d false], .vmlten_texp, [0, 1]⟩,
  ⟨.vml_exp, [.obj (.viewTDense .vec) .d true, .obj (.viewTDense .mat) .d false], .vmlten_texp, [0, 1]⟩,
  ⟨.vml_exp, [.obj (.viewTDense .vec) .d true, .obj (.viewTDense .ten) .d false], .vmlten_texp, [0, 1]⟩,
  ⟨.vml_exp, [.obj (.viewTDense .mat) .d true, .obj .tdense .d false], .vmlten_texp, [0, 1]⟩,
  ⟨.vml_exp, [.obj (.viewTDense .mat) .d true, .obj (.viewTDense .vec) .d false], .vmlten_texp, [0, 1]⟩,
  ⟨.vml_exp, [.obj (.viewTDense .mat) .d true, .obj (.viewTDense .mat) .d false], .vmlten_texp, [0, 1]⟩,
  ⟨.vml_exp, [.obj (.viewTDense .mat) .d true, .obj (.viewTDense .ten) .d false], .vmlten_texp, [0, 1]⟩,
  ⟨.vml_exp, [.obj (.viewTDense .ten) .d true, .obj .tdense .d false], .vmlten_texp, [0, 1]⟩,
  ⟨.vml_exp, [.obj (.viewTDense .ten) .d true, .obj (.viewTDense .vec) .d false], .vmlten_texp, [0, 1]⟩,
  ⟨.vml_exp, [.obj (.viewTDense .ten) .d true, .obj (.viewTDense .mat) .d false], .vmlten_texp, [0, 1]⟩,
  ⟨.vml_exp, [.obj (.viewTDense .ten) .d true, .obj (.viewTDense .ten) .d false], .vmlten_texp, [0, 1]⟩,
  ⟨.vml_exp, [.obj .tcrs .s true, .obj .tcrs .s false], .vmlten_texp, [0, 1]⟩,
  ⟨.vml_exp, [.obj .tdense .s true, .obj .tdense .s false], .vmlten_texp, [0, 1]⟩,
  ⟨.vml_exp, [.obj .tdense .s true, .obj (.viewTDense .vec) .s false], .vmlten_texp, [0, 1]⟩,
  ⟨.vml_exp, [.obj .tdense .s true, .obj (.viewTDense .mat) .s false], .vmlten_texp, [0, 1]⟩,
  ⟨.vml_exp, [.obj .tdense .s true, .obj (.viewTDense .ten) .s false], .vmlten_texp, [0, 1]⟩,
  ⟨.vml_exp, [.obj (.viewTDense .vec) .s true, .obj .tdense .s false], .vmlten_texp, [0, 1]⟩,
  ⟨.vml_exp, [.obj (.viewTDense .vec) .s true, .obj (.viewTDense .vec) .s false], .vmlten_texp, [0, 1]⟩,
  ⟨.vml_exp, [.obj (.viewTDense .vec) .s true, .obj (.viewTDense .mat) .s false], .vmlten_texp, [0, 1]⟩,
  ⟨.vml_exp, [.obj (.viewTDense .vec) .s true, .obj (.viewTDense .ten) .s false], .vmlten_texp, [0, 1]⟩,
  ⟨.vml_exp, [.obj (.viewTDense .mat) .s true, .obj .tdense .s false], .vmlten_texp, [0, 1]⟩,
  ⟨.vml_exp, [.obj (.viewTDense .mat) .s true, .obj (.viewTDense .vec) .s false], .vmlten_texp, [0, 1]⟩,
  ⟨.vml_exp, [.obj (.viewTDense .mat) .s true, .obj (.viewTDense .mat) .s false], .vmlten_texp, [0, 1]⟩,
  ⟨.vml_exp, [.obj (.viewTDense .mat) .s true, .obj (.viewTDense .ten) .s false], .vmlten_texp, [0, 1]⟩,
  ⟨.vml_exp, [.obj (.viewTDense .ten) .s true, .obj .tdense .s false], .vmlten_texp, [0, 1]⟩,
  ⟨.vml_exp, [.obj (.viewTDense .ten) .s true, .obj (.viewTDense .vec) .s false], .vmlten_texp, [0, 1]⟩,
  ⟨.vml_exp, [.obj (.viewTDense .ten) .s true, .obj (.viewTDense .mat) .s false], .vmlten_texp, [0, 1]⟩,
  ⟨.vml_exp, [.obj (.viewTDense .ten) .s true, .obj (.viewTDense .ten) .s false], .vmlten_texp, [0, 1]⟩,
  ⟨.vml_max, [.obj .tcrs .d true, .obj .tcrs .d true, .obj .tcrs .d false], .vmlten_ttmax, [0, 1, 2]⟩,
  ⟨.vml_max, [.obj .tdense .d true, .obj .tdense .d true, .obj .tdense .d false], .vmlten_ttmax, [0, 1, 2]⟩,
  ⟨.vml_max, [.obj .tdense .d true, .obj .tdense .d true, .obj (.viewTDense .vec) .d false], .vmlten_ttmax, [0, 1, 2]⟩,
  ⟨.vml_max, [.obj .tdense .d true, .obj .tdense .d true, .obj (.viewTDense .mat) .d false], .vmlten_ttmax, [0, 1, 2]⟩,
  ⟨.vml_max, [.obj .tdense .d true, .obj .tdense .d true, .obj (.viewTDense .ten) .d false], .vmlten_ttmax, [0, 1, 2]⟩,
  ⟨.vml_max, [.obj .tdense .d true, .obj (.viewTDense .vec) .d true, .obj .tdense .d false], .vmlten_ttmax, [0, 1, 2]⟩,
  ⟨.vml_max, [.obj .tdense .d true, .obj (.viewTDense .vec) .d true, .obj (.viewTDense .vec) .d false], .vmlten_ttmax, [0, 1, 2]⟩,
  ⟨.vml_max, [.obj .tdense .d true, .obj (.viewTDense .vec) .d true, .obj (.viewTDense .mat) .d false], .vmlten_ttmax, [0, 1, 2]⟩,
  ⟨.vml_max, [.obj .tdense .d true, .obj (.viewTDense .vec) .d true, .obj (.viewTDense .ten) .d false], .vmlten_ttmax, [0, 1, 2]⟩,
  ⟨.vml_max, [.obj .tdense .d true, .obj (.viewTDense .mat) .d true, .obj .tdense .d false], .vmlten_ttmax, [0, 1, 2]⟩,
  ⟨.vml_max, [.obj .tdense .d true, .obj (.viewTDense .mat) .d true, .obj (.viewTDense .vec) .d false], .vmlten_ttmax, [0, 1, 2]⟩,
  ⟨.vml_max, [.obj .tdense .d true, .obj (.viewTDense .mat) .d true, .obj (.viewTDense .mat) .d false], .vmlten_ttmax, [0, 1, 2]⟩,
  ⟨.vml_max, [.obj .tdense .d true, .obj (.viewTDense .mat) .d true, .obj (.viewTDense .ten) .d false], .vmlten_ttmax, [0, 1, 2]⟩,
  ⟨.vml_max, [.obj .tdense .d true, .obj (.viewTDense .ten) .d true, .obj .tdense .d false], .vmlten_ttmax, [0, 1, 2]⟩,
  ⟨.vml_max, [.obj .tdense .d true, .obj (.viewTDense .ten) .d true, .obj (.viewTDense .vec) .d false], .vmlten_ttmax, [0, 1, 2]⟩,
  ⟨.vml_max, [.obj .tdense .d true, .obj (.viewTDense .ten) .d true, .obj (.viewTDense .mat) .d false], .vmlten_ttmax, [0, 1, 2]⟩,
  ⟨.vml_max, [.obj .tdense .d true, .obj (.viewTDense .ten) .d true, .obj (.viewTDense .ten) .d false], .vmlten_ttmax, [0, 1, 2]⟩,
  ⟨.vml_max, [.obj (.viewTDense .vec) .d true, .obj .tdense .d true, .obj .tdense .d false], .vmlten_ttmax, [0, 1, 2]⟩,
  ⟨.vml_max, [.obj (.viewTDense .vec) .d true, .obj .tdense .d true, .obj (.viewTDense .vec) .d false], .vmlten_ttmax, [0, 1, 2]⟩,
  ⟨.vml_max, [.obj (.viewTDense .vec) .d true, .obj .tdense .d true, .obj (.viewTDense .mat) .d false], .vmlten_ttmax, [0, 1, 2]⟩,
  ⟨.vml_max, [.obj (.viewTDense .vec) .d true, .obj .tdense .d true, .obj (.viewTDense .ten) .d false], .vmlten_ttmax, [0, 1, 2]⟩,
  ⟨.vml_max, [.obj (.viewTDense .vec) .d true, .obj (.viewTDense .vec) .d true, .obj .tdense .d false], .vmlten_ttmax, [0, 1, 2]⟩,
  ⟨.vml_max, [.obj (.viewTDense .vec) .d true, .obj (.viewTDense .vec) .d true, .obj (.viewTDense .vec) .d false], .vmlten_ttmax, [0, 1, 2]⟩,
  ⟨.vml_max, [.obj (.viewTDense .vec) .d true, .obj (.viewTDense .vec) .d true, .obj (.viewTDense .mat) .d false], .vmlten_ttmax, [0, 1, 2]⟩,
  ⟨.vml_max, [.obj (.viewTDense .vec) .d true, .obj (.viewTDense .vec) .d true, .obj (.viewTDense .ten) .d false], .vmlten_ttmax, [0, 1, 2]⟩,
  ⟨.vml_max, [.obj (.viewTDense .vec) .d true, .obj (.viewTDense .mat) .d true, .obj .tdense .d false], .vmlten_ttmax, [0, 1, 2]⟩,
  ⟨.vml_max, [.obj (.viewTDense .vec) .d true, .obj (.viewTDense .mat) .d true, .obj (.viewTDense .vec) .d false], .vmlten_ttmax, [0, 1, 2]⟩,
  ⟨.vml_max, [.obj (.viewTDense .vec) .d true, .obj (.viewTDense .mat) .d true, .obj (.viewTDense .mat) .d false], .vmlten_ttmax, [0, 1, 2]⟩,
  ⟨.vml_max, [.obj (.viewTDense .vec) .d true, .obj (.viewTDense .mat) .d true, .obj (.viewTDense .ten) .d false], .vmlten_ttmax, [0, 1, 2]⟩,
  ⟨.vml_max, [.obj (.viewTDense .vec) .d true, .obj (.viewTDense .ten) .d true, .obj .tdense .d false], .vmlten_ttmax, [0, 1, 2]⟩]

/-- src/vml/tensor/tensor_vml.cpp:6149-6544 -/
def tVmlTen_17 : List Overload := [
  ⟨.vml_max, [.obj (.viewTDense .vec) .d true, .obj (.viewTDense .ten) .d true, .obj (.viewTDense .vec) .d false], .vmlten_ttmax, [0, 1, 2]⟩,
  ⟨.vml_max, [.obj (.viewTDense .vec) .d true, .obj (.viewTDense .ten) .d true, .obj (.viewTDense .mat) .d false], .vmlten_ttmax, [0, 1, 2]⟩,
  ⟨.vml_max, [.obj (.viewTDense .vec) .d true, .obj (.viewTDense .ten) .d true, .obj (.viewTDense .ten) .d false], .vmlten_ttmax, [0, 1, 2]⟩,
  ⟨.vml_max, [.obj (.viewTDense .mat) .d true, .obj .tdense .d true, .obj .tdense .d false], .vmlten_ttmax, [0, 1, 2]⟩,
  ⟨.vml_max, [.obj (.viewTDense .mat) .d true, .obj .tdense .d true, .obj (.viewTDense .vec) .d false], .vmlten_ttmax, [0, 1, 2]⟩,
  ⟨.vml_max, [.obj (.viewTDense .mat) .d true, .obj .tdense .d true, .obj (.viewTDense .mat) .d false], .vmlten_ttmax, [0, 1, 2]⟩,
  ⟨.vml_max, [.obj (.viewTDense .mat) .d true, .obj .tdense .d true, .obj (.viewTDense .ten) .d false], .vmlten_ttmax, [0, 1, 2]⟩,
  ⟨.vml_max, [.obj (.viewTDense .mat) .d true, .obj (.viewTDense .vec) .d true, .obj .tdense .d false], .vmlten_ttmax, [0, 1, 2]⟩,
  ⟨.vml_max, [.obj (.viewTDense .mat) .d true, .obj (.viewTDense .vec) .d true, .obj (.viewTDense .vec) .d false], .vmlten_ttmax, [0, 1, 2]⟩,
  ⟨.vml_max, [.obj (.viewTDense .mat) .d true, .obj (.viewTDense .vec) .d true, .obj (.viewTDense .mat) .d false], .vmlten_ttmax, [0, 1, 2]⟩,
  ⟨.vml_max, [.obj (.viewTDense .mat) .d true, .obj (.viewTDense .vec) .d true, .obj (.viewTDense .ten) .d false], .vmlten_ttmax, [0, 1, 2]⟩,
  ⟨.vml_max, [.obj (.viewTDense .mat) .d true, .obj (.viewTDense .mat) .d true, .obj .tdense .d false], .vmlten_ttmax, [0, 1, 2]⟩,
  ⟨.vml_max, [.obj (.viewTDense .mat) .d true, .obj (.viewTDense .mat) .d true, .obj (.viewTDense .vec) .d false], .vmlten_ttmax, [0, 1, 2]⟩,
  ⟨.vml_max, [.obj (.viewTDense .mat) .d true, .obj (.viewTDense .mat) .d true, .obj (.viewTDense .mat) .d false], .vmlten_ttmax, [0, 1, 2]⟩,
  ⟨.vml_max, [.obj (.viewTDense .mat) .d true, .obj (.viewTDense .mat) .d true, .obj (.viewTDense .ten) .d false], .vmlten_ttmax, [0, 1, 2]⟩,
  ⟨.vml_max, [.obj (.viewTDense .mat) .d true, .obj (.viewTDense .ten) .d true, .obj .tdense .d false], .vmlten_ttmax, [0, 1, 2]⟩,
  ⟨.vml_max, [.obj (.viewTDense .mat) .d true, .obj (.viewTDense .ten) .d true, .obj (.viewTDense .vec) .d false], .vmlten_ttmax, [0, 1, 2]⟩,
  ⟨.vml_max, [.obj (.viewTDense .mat) .d true, .obj (.viewTDense .ten) .d true, .obj (.viewTDense .mat) .d false], .vmlten_ttmax, [0, 1, 2]⟩,
  ⟨.vml_max, [.obj (.viewTDense .mat) .d true, .obj (.viewTDense .ten) .d true, .obj (.viewTDense .ten) .d false], .vmlten_ttmax, [0, 1, 2]⟩,
  ⟨.vml_max, [.obj (.viewTDense .ten) .d true, .obj .tdense .d true, .obj .tdense .d false], .vmlten_ttmax, [0, 1, 2]⟩,
  ⟨.vml_max, [.obj (.viewTDense .ten) .d true, .obj .tdense .d true, .obj (.viewTDense .vec) .d false], .vmlten_ttmax, [0, 1, 2]⟩,
  ⟨.vml_max, [.obj (.viewTDense .ten) .d true, .obj .tdense .d true, .obj (.viewTDense .mat) .d false], .vmlten_ttmax, [0, 1, 2]⟩,
  ⟨.vml_max, [.obj (.viewTDense .ten) .d true, .obj .tdense .d true, .obj (.viewTDense .ten) .d false], .vmlten_ttmax, [0, 1, 2]⟩,
  ⟨.vml_max, [.obj (.viewTDense .ten) .d true, .obj (.viewTDense .vec) .d true, .obj .tdense .d false], .vmlten_ttmax, [0, 1, 2]⟩,
  ⟨.vml_max, [.obj (.viewTDense .ten) .d true, .obj (.viewTDense .vec) .d true, .obj (.viewTDense .vec) .d false], .vmlten_ttmax, [0, 1, 2]⟩,
  ⟨.vml_max, [.obj (.viewTDense .ten) .d true, .obj (.viewTDense .vec) .d true, .obj (.viewTDense .mat) .d false], .vmlten_ttmax, [0, 1, 2]⟩,
  ⟨.vml_max, [.obj (.viewTDense .ten) .d true, .obj (.viewTDense .vec) .d true, .obj (.viewTDense .ten) .d false], .vmlten_ttmax, [0, 1, 2]⟩,
  ⟨.vml_max, [.obj (.viewTDense .ten) .d true, .obj (.viewTDense .mat) .d true, .obj .tdense .d false], .vmlten_ttmax, [0, 1, 2]⟩,
  ⟨.vml_max, [.obj (.viewTDense .ten) .d true, .obj (.viewTDense .mat) .d true, .obj (.viewTDense .vec) .d false], .vmlten_ttmax, [0, 1, 2]⟩,
  ⟨.vml_max, [.obj (.viewTDense .ten) .d true, .obj (.viewTDense .mat) .d true, .obj (.viewTDense .mat) .d false], .vmlten_ttmax, [0, 1, 2]⟩,
  ⟨.vml_max, [.obj (.viewTDense .ten) .d true, .obj (.viewTDense .mat) .d true, .obj (.viewTDense .ten) .d false], .vmlten_ttmax, [0, 1, 2]⟩,
  ⟨.vml_max, [.obj (.viewTDense .ten) .d true, .obj (.viewTDense .ten) .d true, .obj .tdense .d false], .vmlten_ttmax, [0, 1, 2]⟩,
  ⟨.vml_max, [.obj (.viewTDense .ten) .d true, .obj (.viewTDense .ten) .d true, .obj (.viewTDense .vec) .d false], .vmlten_ttmax, [0, 1, 2]⟩,
  ⟨.vml_max, [.obj (.viewTDense .ten) .d true, .obj (.viewTDense .ten) .d true, .obj (.viewTDense .mat) .d false], .vmlten_ttmax, [0, 1, 2]⟩,
  ⟨.vml_max, [.obj (.viewTDense .ten) .d true, .obj (.viewTDense .ten) .d true, .obj (.viewTDense .ten) .d false], .vmlten_ttmax, [0, 1, 2]⟩,
  ⟨.vml_max, [.obj .tcrs .s true, .obj .tcrs .s true, .obj .tcrs .s false], .vmlten_ttmax, [0, 1, 2]⟩,
  ⟨.vml_max, [.obj .tdense .s true, .obj .tdense .s true, .obj .tdense .s false], .vmlten_ttmax, [0, 1, 2]⟩,
  ⟨.vml_max, [.obj .tdense .s true, .obj .tdense .s true, .obj (.viewTDense .vec) .s false], .vmlten_ttmax, [0, 1, 2]⟩,
  ⟨.vml_max, [.obj .tdense .s true, .obj .tdense .s true, .obj (.viewTDense .mat) .s false], .vmlten_ttmax, [0, 1, 2]⟩,
  ⟨.vml_max, [.obj .tdense .s true, .obj .tdense .s true, .obj (.viewTDense .ten) .s false], .vmlten_ttmax, [0, 1, 2]⟩,
  ⟨.vml_max, [.obj .tdense .s true, .obj (.viewTDense .vec) .s true, .obj .tdense .s false], .vmlten_ttmax, [0, 1, 2]⟩,
  ⟨.vml_max, [.obj .tdense .s true, .obj (.viewTDense .vec) .s true, .obj (.viewTDense .vec) .s false], .vmlten_ttmax, [0, 1, 2]⟩,
  ⟨.vml_max, [.obj .tdense .s true, .obj (.viewTDense .vec) .s true, .obj (.viewTDense .mat) .s false], .vmlten_ttmax, [0, 1, 2]⟩,
  ⟨.vml_max, [.obj .tdense .s true, .obj (.viewTDense .vec) .s true, .obj (.viewTDense .ten) .s false], .vmlten_ttmax, [0, 1, 2]⟩,
  ⟨.vml_max, [.obj .tdense .s true, .obj (.viewTDense .mat) .s true, .obj .tdense .s false], .vmlten_ttmax, [0, 1, 2]⟩,
  ⟨.vml_max, [.obj .tdense .s true, .obj (.viewTDense .mat) .s true, .obj (.viewTDense .vec) .s false], .vmlten_ttmax, [0, 1, 2]⟩,
  ⟨.vml_max, [.obj .tdense .s true, .obj (.viewTDense .mat) .s true, .obj (.viewTDense .mat) .s false], .vmlten_ttmax, [0, 1, 2]⟩,
  ⟨.vml_max, [.obj .tdense .s true, .obj (.viewTDense .mat) .s true, .obj (.viewTDense .ten) .s false], .vmlten_ttmax, [0, 1, 2]⟩,
  ⟨.vml_max, [.obj .tdense .s true, .obj (.viewTDense .ten) .s true, .obj .tdense .s false], .vmlten_ttmax, [0, 1, 2]⟩,
  ⟨.vml_max, [.obj .tdense .s true, .obj (.viewTDense .ten) .s true, .obj (.viewTDense .vec) .s false], .vmlten_ttmax, [0, 1, 2]⟩,
  ⟨.vml_max, [.obj .tdense .s true, .obj (.viewTDense .ten) .s true, .obj (.viewTDense .mat) .s false], .vmlten_ttmax, [0, 1, 2]⟩,
  ⟨.vml_max, [.obj .tdense .s true, .obj (.viewTDense .ten) .s true, .obj (.viewTDense .ten) .s false], .vmlten_ttmax, [0, 1, 2]⟩,
  ⟨.vml_max, [.obj (.viewTDense .vec) .s true, .obj .tdense .s true, .obj .tdense .s false], .vmlten_ttmax, [0, 1, 2]⟩,
  ⟨.vml_max, [.obj (.viewTDense .vec) .s true, .obj .tdense .s true, .obj (.viewTDense .vec) .s false], .vmlten_ttmax, [0, 1, 2]⟩,
  ⟨.vml_max, [.obj (.viewTDense .vec) .s true, .obj .tdense .s true, .obj (.viewTDense .mat) .s false], .vmlten_ttmax, [0, 1, 2]⟩,
  ⟨.vml_max, [.obj (.viewTDense .vec) .s true, .obj .tdense .s true, .obj (.viewTDense .ten) .s false], .vmlten_ttmax, [0, 1, 2]⟩,
  ⟨.vml_max, [.obj (.viewTDense .vec) .s true, .obj (.viewTDense .vec) .s true, .obj .tdense .s false], .vmlten_ttmax, [0, 1, 2]⟩,
  ⟨.vml_max, [.obj (.viewTDense .vec) .s true, .obj (.viewTDense .vec) .s true, .obj (.viewTDense .vec) .s false], .vmlten_ttmax, [0, 1, 2]⟩,
  ⟨.vml_max, [.obj (.viewTDense .vec) .s true, .obj (.viewTDense .vec) .s true, .obj (.viewTDense .mat) .s false], .vmlten_ttmax, [0, 1, 2]⟩,
  ⟨.vml_max, [.obj (.viewTDense .vec) .s true, .obj (.viewTDense .vec) .s true, .obj (.viewTDense .ten) .s false], .vmlten_ttmax, [0, 1, 2]⟩,
  ⟨.vml_max, [.obj (.viewTDense .vec) .s true, .obj (.viewTDense .mat) .s true, .obj .tdense .s false], .vmlten_ttmax, [0, 1, 2]⟩,
  ⟨.vml_max, [.obj (.viewTDense .vec) .s true, .obj (.viewTDense .mat) .s true, .obj (.viewTDense .vec) .s false], .vmlten_ttmax, [0, 1, 2]⟩,
  ⟨.vml_max, [.obj (.viewTDense .vec) .s true, .obj (.viewTDense .mat) .s true, .obj (.viewTDense .mat) .s false], .vmlten_ttmax, [0, 1, 2]⟩,
  ⟨.vml_max, [.obj (.viewTDense .vec) .s true, .obj (.viewTDense .mat) .s true, .obj (.viewTDense .ten) .s false], .vmlten_ttmax, [0, 1, 2]⟩,
  ⟨.vml_max, [.obj (.viewTDense .vec) .s true, .obj (.viewTDense .ten) .s true, .obj .tdense .s false], .vmlten_ttmax, [0, 1, 2]⟩,
  ⟨.vml_max, [.obj (.viewTDense .vec) .s true, .obj (.viewTDense .ten) .s true, .obj (.viewTDense .vec) .s false], .vmlten_ttmax, [0, 1, 2]⟩,
  ⟨.vml_max, [.obj (.viewTDense .vec) .s true, .obj (.viewTDense .ten) .s true, .obj (.viewTDense .mat) .s false], .vmlten_ttmax, [0, 1, 2]⟩,
  ⟨.vml_max, [.obj (.viewTDense .vec) .s true, .obj (.viewTDense .ten) .s true, .obj (.viewTDense .ten) .s false], .vmlten_ttmax, [0, 1, 2]⟩,
  ⟨.vml_max, [.obj (.viewTDense .mat) .s true, .obj .tdense .s true, .obj .tdense .s false], .vmlten_ttmax, [0, 1, 2]⟩,
  ⟨.vml_max, [.obj (.viewTDense .mat) .s true, .obj .tdense .s true, .obj (.viewTDense .vec) .s false], .vmlten_ttmax, [0, 1, 2]⟩,
  ⟨.vml_max, [.obj (.viewTDense .mat) .s true, .obj .tdense .s true, .obj (.viewTDense .mat) .s false], .vmlten_ttmax, [0, 1, 2]⟩,
  ⟨.vml_max, [.obj (.viewTDense .mat) .s true, .obj .tdense .s true, .obj (.viewTDense .ten) .s false], .vmlten_ttmax, [0, 1, 2]⟩,
  ⟨.vml_max, [.obj (.viewTDense .mat) .s true, .obj (.viewTDense .vec) .s true, .obj .tdense .s false], .vmlten_ttmax, [0, 1, 2]⟩,
  ⟨.vml_max, [.obj (.viewTDense .mat) .s true, .obj (.viewTDense .vec) .s true, .obj (.viewTDense .vec) .s false], .vmlten_ttmax, [0, 1, 2]⟩,
  ⟨.vml_max, [.obj (.viewTDense .mat) .s true, .obj (.viewTDense .vec) .s true, .obj (.viewTDense .mat) .s false], .vmlten_ttmax, [0, 1, 2]⟩,
  ⟨.vml_max, [.obj (.viewTDense .mat) .s true, .obj (.viewTDense .vec) .s true, .obj (.viewTDense .ten) .s false], .vmlten_ttmax, [0, 1, 2]⟩,
  ⟨.vml_max, [.obj (.viewTDense .mat) .s true, .obj (.viewTDense .mat) .s true, .obj .tdense .s false], .vmlten_ttmax, [0, 1, 2]⟩,
  ⟨.vml_max, [.obj (.viewTDense .mat) .s true, .obj (.viewTDense .mat) .s true, .obj (.viewTDense .vec) .s false], .vmlten_ttmax, [0, 1, 2]⟩,
  ⟨.vml_max, [.obj (.viewTDense .mat) .s true, .obj (.viewTDense .mat) .s true, .obj (.viewTDense .mat) .s false], .vmlten_ttmax, [0, 1, 2]⟩,
  ⟨.vml_max, [.obj (.viewTDense .mat) .s true, .obj (.viewTDense .mat) .s true, .obj (.viewTDense .ten) .s false], .vmlten_ttmax, [0, 1, 2]⟩]

/-- src/vml/tensor/tensor_vml.cpp:6545-6942 -/
def tVmlTen_18 : List Overload := [
  ⟨.vml_max, [.obj (.viewTDense .mat) .s true, .obj (.viewTDense .ten) .s true, .obj .tdense .s false], .vmlten_ttmax, [0, 1, 2]⟩,
  ⟨.vml_max, [.obj (.viewTDense .mat) .s true, .obj (.viewTDense .ten) .s true, .obj (.viewTDense .vec) .s false], .vmlten_ttmax, [0, 1, 2]⟩,
  ⟨.vml_max, [.obj (.viewTDense .mat) .s true, .obj (.viewTDense .ten) .s true, .obj (.viewTDense .mat) .s false], .vmlten_ttmax, [0, 1, 2]⟩,
  ⟨.vml_max, [.obj (.viewTDense .mat) .s true, .obj (.viewTDense .ten) .s true, .obj (.viewTDense .ten) .s false], .vmlten_ttmax, [0, 1, 2]⟩,
  ⟨.vml_max, [.obj (.viewTDense .ten) .s true, .obj .tdense .s true, .obj .tdense .s false], .vmlten_ttmax, [0, 1, 2]⟩,
  ⟨.vml_max, [.obj (.viewTDense .ten) .s true, .obj .tdense .s true, .obj (.viewTDense .vec) .s false], .vmlten_ttmax, [0, 1, 2]⟩,
  ⟨.vml_max, [.obj (.viewTDense .ten) .s true, .obj .tdense .s true, .obj (.viewTDense .mat) .s false], .vmlten_ttmax, [0, 1, 2]⟩,
  ⟨.vml_max, [.obj (.viewTDense .ten) .s true, .obj .tdense .s true, .obj (.viewTDense .ten) .s false], .vmlten_ttmax, [0, 1, 2]⟩,
  ⟨.vml_max, [.obj (.viewTDense .ten) .s true, .obj (.viewTDense .vec) .s true, .obj .tdense .s false], .vmlten_ttmax, [0, 1, 2]⟩,
  ⟨.vml_max, [.obj (.viewTDense .ten) .s true, .obj (.viewTDense .vec) .s true, .obj (.viewTDense .vec) .s false], .vmlten_ttmax, [0, 1, 2]⟩,
  ⟨.vml_max, [.obj (.viewTDense .ten) .s true, .obj (.viewTDense .vec) .s true, .obj (.viewTDense .mat) .s false], .vmlten_ttmax, [0, 1, 2]⟩,
  ⟨.vml_max, [.obj (.viewTDense .ten) .s true, .obj (.viewTDense .vec) .s true, .obj (.viewTDense .ten) .s false], .vmlten_ttmax, [0, 1, 2]⟩,
  ⟨.vml_max, [.obj (.viewTDense .ten) .s true, .obj (.viewTDense .mat) .s true, .obj .tdense .s false], .vmlten_ttmax, [0, 1, 2]⟩,
  ⟨.vml_max, [.obj (.viewTDense .ten) .s true, .obj (.viewTDense .mat) .s true, .obj (.viewTDense .vec) .s false], .vmlten_ttmax, [0, 1, 2]⟩,
  ⟨.vml_max, [.obj (.viewTDense .ten) .s true, .obj (.viewTDense .mat) .s true, .obj (.viewTDense .mat) .s false], .vmlten_ttmax, [0, 1, 2]⟩,
  ⟨.vml_max, [.obj (.viewTDense .ten) .s true, .obj (.viewTDense .mat) .s true, .obj (.viewTDense .ten) .s false], .vmlten_ttmax, [0, 1, 2]⟩,
  ⟨.vml_max, [.obj (.viewTDense .ten) .s true, .obj (.viewTDense .ten) .s true, .obj .tdense .s false], .vmlten_ttmax, [0, 1, 2]⟩,
  ⟨.vml_max, [.obj (.viewTDense .ten) .s true, .obj (.viewTDense .ten) .s true, .obj (.viewTDense .vec) .s false], .vmlten_ttmax, [0, 1, 2]⟩,
  ⟨.vml_max, [.obj (.viewTDense .ten) .s true, .obj (.viewTDense .ten) .s true, .obj (.viewTDense .mat) .s false], .vmlten_ttmax, [0, 1, 2]⟩,
  ⟨.vml_max, [.obj (.viewTDense .ten) .s true, .obj (.viewTDense .ten) .s true, .obj (.viewTDense .ten) .s false], .vmlten_ttmax, [0, 1, 2]⟩,
  ⟨.vml_min, [.obj .tcrs .d true, .obj .tcrs .d true, .obj .tcrs .d false], .vmlten_ttmin, [0, 1, 2]⟩,
  ⟨.vml_min, [.obj .tdense .d true, .obj .tdense .d true, .obj .tdense .d false], .vmlten_ttmin, [0, 1, 2]⟩,
  ⟨.vml_min, [.obj .tdense .d true, .obj .tdense .d true, .obj (.viewTDense .vec) .d false], .vmlten_ttmin, [0, 1, 2]⟩,
  ⟨.vml_min, [.obj .tdense .d true, .obj .tdense .d true, .obj (.viewTDense .mat) .d false], .vmlten_ttmin, [0, 1, 2]⟩,
  ⟨.vml_min, [.obj .tdense .d true, .obj .tdense .d true, .obj (.viewTDense .ten) .d false], .vmlten_ttmin, [0, 1, 2]⟩,
  ⟨.vml_min, [.obj .tdense .d true, .obj (.viewTDense .vec) .d true, .obj .tdense .d false], .vmlten_ttmin, [0, 1, 2]⟩,
  ⟨.vml_min, [.obj .tdense .d true, .obj (.viewTDense .vec) .d true, .obj (.viewTDense .vec) .d false], .vmlten_ttmin, [0, 1, 2]⟩,
  ⟨.vml_min, [.obj .tdense .d true, .obj (.viewTDense .vec) .d true, .obj (.viewTDense .mat) .d false], .vmlten_ttmin, [0, 1, 2]⟩,
  ⟨.vml_min, [.obj .tdense .d true, .obj (.viewTDense .vec) .d true, .obj (.viewTDense .ten) .d false], .vmlten_ttmin, [0, 1, 2]⟩,
  ⟨.vml_min, [.obj .tdense .d true, .obj (.viewTDense .mat) .d true, .obj .tdense .d false], .vmlten_ttmin, [0, 1, 2]⟩,
  ⟨.vml_min, [.obj .tdense .d true, .obj (.viewTDense .mat) .d true, .obj (.viewTDense .vec) .d false], .vmlten_ttmin, [0, 1, 2]⟩,
  ⟨.vml_min, [.obj .tdense .d true, .obj (.viewTDense .mat) .d true, .obj (.viewTDense .mat) .d false], .vmlten_ttmin, [0, 1, 2]⟩,
  ⟨.vml_min, [.obj .tdense .d true, .obj (.viewTDense .mat) .d true, .obj (.viewTDense .ten) .d false], .vmlten_ttmin, [0, 1, 2]⟩,
  ⟨.vml_min, [.obj .tdense .d true, .obj (.viewTDense .ten) .d true, .obj .tdense .d false], .vmlten_ttmin, [0, 1, 2]⟩,
  ⟨.vml_min, [.obj .tdense .d true, .obj (.viewTDense .ten) .d true, .obj (.viewTDense .vec) .d false], .vmlten_ttmin, [0, 1, 2]⟩,
  ⟨.vml_min, [.obj .tdense .d true, .obj (.viewTDense .ten) .d true, .obj (.viewTDense .mat) .d false], .vmlten_ttmin, [0, 1, 2]⟩,
  ⟨.vml_min, [.obj .tdense .d true, .obj (.viewTDense .ten) .d true, .obj (.viewTDense .ten) .d false], .vmlten_ttmin, [0, 1, 2]⟩,
  ⟨.vml_min, [.obj (.viewTDense .vec) .d true, .obj .tdense .d true, .obj .tdense .d false], .vmlten_ttmin, [0, 1, 2]⟩,
  ⟨.vml_min, [.obj (.viewTDense .vec) .d true, .obj .tdense .d true, .obj (.viewTDense .vec) .d false], .vmlten_ttmin, [0, 1, 2]⟩,
  ⟨.vml_min, [.obj (.viewTDense .vec) .d true, .obj .tdense .d true, .obj (.viewTDense .mat) .d false], .vmlten_ttmin, [0, 1, 2]⟩,
  ⟨.vml_min, [.obj (.viewTDense .vec) .d true, .obj .tdense .d true, .obj (.viewTDense .ten) .d false], .vmlten_ttmin, [0, 1, 2]⟩,
  ⟨.vml_min, [.obj (.viewTDense .vec) .d true, .obj (.viewTDense .vec) .d true, .obj .tdense .d false], .vmlten_ttmin, [0, 1, 2]⟩,
  ⟨.vml_min, [.obj (.viewTDense .vec) .d true, .obj (.viewTDense .vec) .d true, .obj (.viewTDense .vec) .d false], .vmlten_ttmin, [0, 1, 2]⟩,
  ⟨.vml_min, [.obj (.viewTDense .vec) .d true, .obj (.viewTDense .vec) .d true, .obj (.viewTDense .mat) .d false], .vmlten_ttmin, [0, 1, 2]⟩,
  ⟨.vml_min, [.obj (.viewTDense .vec) .d true, .obj (.viewTDense .vec) .d true, .obj (.viewTDense .ten) .d false], .vmlten_ttmin, [0, 1, 2]⟩,
  ⟨.vml_min, [.obj (.viewTDense .vec) .d true, .obj (.viewTDense .mat) .d true, .obj .tdense .d false], .vmlten_ttmin, [0, 1, 2]⟩,
  ⟨.vml_min, [.obj (.viewTDense .vec) .d true, .obj (.viewTDense .mat) .d true, .obj (.viewTDense .vec) .d false], .vmlten_ttmin, [0, 1, 2]⟩,
  ⟨.vml_min, [.obj (.viewTDense .vec) .d true, .obj (.viewTDense .mat) .d true, .obj (.viewTDense .mat) .d false], .vmlten_ttmin, [0, 1, 2]⟩,
  ⟨.vml_min, [.obj (.viewTDense .vec) .d true, .obj (.viewTDense .mat) .d true, .obj (.viewTDense .ten) .d false], .vmlten_ttmin, [0, 1, 2]⟩,
  ⟨.vml_min, [.obj (.viewTDense .vec) .d true, .obj (.viewTDense .ten) .d true, .obj .tdense .d false], .vmlten_ttmin, [0, 1, 2]⟩,
  ⟨.vml_min, [.obj (.viewTDense .vec) .d true, .obj (.viewTDense .ten) .d true, .obj (.viewTDense .vec) .d false], .vmlten_ttmin, [0, 1, 2]⟩,
  ⟨.vml_min, [.obj (.viewTDense .vec) .d true, .obj (.viewTDense .ten) .d true, .obj (.viewTDense .mat) .d false], .vmlten_ttmin, [0, 1, 2]⟩,
  ⟨.vml_min, [.obj (.viewTDense .vec) .d true, .obj (.viewTDense .ten) .d true, .obj (.viewTDense .ten) .d false], .vmlten_ttmin, [0, 1, 2]⟩,
  ⟨.vml_min, [.obj (.viewTDense .mat) .d true, .obj .tdense .d true, .obj .tdense .d false], .vmlten_ttmin, [0, 1, 2]⟩,
  ⟨.vml_min, [.obj (.viewTDense .mat) .d true, .obj .tdense .d true, .obj (.viewTDense .vec) .d false], .vmlten_ttmin, [0, 1, 2]⟩,
  ⟨.vml_min, [.obj (.viewTDense .mat) .d true, .obj .tdense .d true, .obj (.viewTDense .mat) .d false], .vmlten_ttmin, [0, 1, 2]⟩,
  ⟨.vml_min, [.obj (.viewTDense .mat) .d true, .obj .tdense .d true, .obj (.viewTDense .ten) .d false], .vmlten_ttmin, [0, 1, 2]⟩,
  ⟨.vml_min, [.obj (.viewTDense .mat) .d true, .obj (.viewTDense .vec) .d true, .obj .tdense .d false], .vmlten_ttmin, [0, 1, 2]⟩,
  ⟨.vml_min, [.obj (.viewTDense .mat) .d true, .obj (.viewTDense .vec) .d true, .obj (.viewTDense .vec) .d false], .vmlten_ttmin, [0, 1, 2]⟩,
  ⟨.vml_min, [.obj (.viewTDense .mat) .d true, .obj (.viewTDense .vec) .d true, .obj (.viewTDense .mat) .d false], .vmlten_ttmin, [0, 1, 2]⟩,
  ⟨.vml_min, [.obj (.viewTDense .mat) .d true, .obj (.viewTDense .vec) .d true, .obj (.viewTDense .ten) .d false], .vmlten_ttmin, [0, 1, 2]⟩,
  ⟨.vml_min, [.obj (.viewTDense .mat) .d true, .obj (.viewTDense .mat) .d true, .obj .tdense .d false], .vmlten_ttmin, [0, 1, 2]⟩,
  ⟨.vml_min, [.obj (.viewTDense .mat) .d true, .obj (.viewTDense .mat) .d true, .obj (.viewTDense .vec) .d false], .vmlten_ttmin, [0, 1, 2]⟩,
  ⟨.vml_min, [.obj (.viewTDense .mat) .d true, .obj (.viewTDense .mat) .d true, .obj (.viewTDense .mat) .d false], .vmlten_ttmin, [0, 1, 2]⟩,
  ⟨.vml_min, [.obj (.viewTDense .mat) .d true, .obj (.viewTDense .mat) .d true, .obj (.viewTDense .ten) .d false], .vmlten_ttmin, [0, 1, 2]⟩,
  ⟨.vml_min, [.obj (.viewTDense .mat) .d true, .obj (.viewTDense .ten) .d true, .obj .tdense .d false], .vmlten_ttmin, [0, 1, 2]⟩,
  ⟨.vml_min, [.obj (.viewTDense .mat) .d true, .obj (.viewTDense .ten) .d true, .obj (.viewTDense .vec) .d false], .vmlten_ttmin, [0, 1, 2]⟩,
  ⟨.vml_min, [.obj (.viewTDense .mat) .d true, .obj (.viewTDense .ten) .d true, .obj (.viewTDense .mat) .d false], .vmlten_ttmin, [0, 1, 2]⟩,
  ⟨.vml_min, [.obj (.viewTDense .mat) .d true, .obj (.viewTDense .ten) .d true, .obj (.viewTDense .ten) .d false], .vmlten_ttmin, [0, 1, 2]⟩,
  ⟨.vml_min, [.obj (.viewTDense .ten) .d true, .obj .tdense .d true, .obj .tdense .d false], .vmlten_ttmin, [0, 1, 2]⟩,
  ⟨.vml_min, [.obj (.viewTDense .ten) .d true, .obj .tdense .d true, .obj (.viewTDense .vec) .d false], .vmlten_ttmin, [0, 1, 2]⟩,
  ⟨.vml_min, [.obj (.viewTDense .ten) .d true, .obj .tdense .d true, .obj (.viewTDense .mat) .d false], .vmlten_ttmin, [0, 1, 2]⟩,
  ⟨.vml_min, [.obj (.viewTDense .ten) .d true, .obj .tdense .d true, .obj (.viewTDense .ten) .d false], .vmlten_ttmin, [0, 1, 2]⟩,
  ⟨.vml_min, [.obj (.viewTDense .ten) .d true, .obj (.viewTDense .vec) .d true, .obj .tdense .d false], .vmlten_ttmin, [0, 1, 2]⟩,
  ⟨.vml_min, [.obj (.viewTDense .ten) .d true, .obj (.viewTDense .vec) .d true, .obj (.viewTDense .vec) .d false], .vmlten_ttmin, [0, 1, 2]⟩,
  ⟨.vml_min, [.obj (.viewTDense .ten) .d true, .obj (.viewTDense .vec) .d true, .obj (.viewTDense .mat) .d false], .vmlten_ttmin, [0, 1, 2]⟩,
  ⟨.vml_min, [.obj (.viewTDense .ten) .d true, .obj (.viewTDense .vec) .d true, .obj (.viewTDense .ten) .d false], .vmlten_ttmin, [0, 1, 2]⟩,
  ⟨.vml_min, [.obj (.viewTDense .ten) .d true, .obj (.viewTDense .mat) .d true, .obj .tdense .d false], .vmlten_ttmin, [0, 1, 2]⟩,
  ⟨.vml_min, [.obj (.viewTDense .ten) .d true, .obj (.viewTDense .mat) .d true, .obj (.viewTDense .vec) .d false], .vmlten_ttmin, [0, 1, 2]⟩,
  ⟨.vml_min, [.obj (.viewTDense .ten) .d true, .obj (.viewTDense .mat) .d true, .obj (.viewTDense .mat) .d false], .vmlten_ttmin, [0, 1, 2]⟩]

/-- src/vml/tensor/tensor_vml.cpp:6943-7328 -/
def tVmlTen_19 : List Overload := [
  ⟨.vml_min, [.obj (.viewTDense .ten) .d true, .obj (.viewTDense .mat) .d true, .obj (.viewTDense .ten) .d false], .vmlten_ttmin, [0, 1, 2]⟩,
  ⟨.vml_min, [.obj (.viewTDense .ten) .d true, .obj (.viewTDense .ten) .d true, .obj .tdense .d false], .vmlten_ttmin, [0, 1, 2]⟩,
  ⟨.vml_min, [.obj (.viewTDense .ten) .d true, .obj (.viewTDense .ten) .d true, .obj (.viewTDense .vec) .d false], .vmlten_ttmin, [0, 1, 2]⟩,
  ⟨.vml_min, [.obj (.viewTDense .ten) .d true, .obj (.viewTDense .ten) .d true, .obj (.viewTDense .mat) .d false], .vmlten_ttmin, [0, 1, 2]⟩,
  ⟨.vml_min, [.obj (.viewTDense .ten) .d true, .obj (.viewTDense .ten) .d true, .obj (.viewTDense .ten) .d false], .vmlten_ttmin, [0, 1, 2]⟩,
  ⟨.vml_min, [.obj .tcrs .s true, .obj .tcrs .s true, .obj .tcrs .s false], .vmlten_ttmin, [0, 1, 2]⟩,
  ⟨.vml_min, [.obj .tdense .s true, .obj .tdense .s true, .obj .tdense .s false], .vmlten_ttmin, [0, 1, 2]⟩,
  ⟨.vml_min, [.obj .tdense .s true, .obj .tdense .s true, .obj (.viewTDense .vec) .s false], .vmlten_ttmin, [0, 1, 2]⟩,
  ⟨.vml_min, [.obj .tdense .s true, .obj .tdense .s true, .obj (.viewTDense .mat) .s false], .vmlten_ttmin, [0, 1, 2]⟩,
  ⟨.vml_min, [.obj .tdense .s true, .obj .tdense .s true, .obj (.viewTDense .ten) .s false], .vmlten_ttmin, [0, 1, 2]⟩,
  ⟨.vml_min, [.obj .tdense .s true, .obj (.viewTDense .vec) .s true, .obj .tdense .s false], .vmlten_ttmin, [0, 1, 2]⟩,
  ⟨.vml_min, [.obj .tdense .s true, .obj (.viewTDense .vec) .s true, .obj (.viewTDense .vec) .s false], .vmlten_ttmin, [0, 1, 2]⟩,
  ⟨.vml_min, [.obj .tdense .s true, .obj (.viewTDense .vec) .s true, .obj (.viewTDense .mat) .s false], .vmlten_ttmin, [0, 1, 2]⟩,
  ⟨.vml_min, [.obj .tdense .s true, .obj (.viewTDense .vec) .s true, .obj (.viewTDense .ten) .s false], .vmlten_ttmin, [0, 1, 2]⟩,
  ⟨.vml_min, [.obj .tdense .s true, .obj (.viewTDense .mat) .s true, .obj .tdense .s false], .vmlten_ttmin, [0, 1, 2]⟩,
  ⟨.vml_min, [.obj .tdense .s true, .obj (.viewTDense .mat) .s true, .obj (.viewTDense .vec) .s false], .vmlten_ttmin, [0, 1, 2]⟩,
  ⟨.vml_min, [.obj .tdense .s true, .obj (.viewTDense .mat) .s true, .obj (.viewTDense .mat) .s false], .vmlten_ttmin, [0, 1, 2]⟩,
  ⟨.vml_min, [.obj .tdense .s true, .obj (.viewTDense .mat) .s true, .obj (.viewTDense .ten) .s false], .vmlten_ttmin, [0, 1, 2]⟩,
  ⟨.vml_min, [.obj .tdense .s true, .obj (.viewTDense .ten) .s true, .obj .tdense .s false], .vmlten_ttmin, [0, 1, 2]⟩,
  ⟨.vml_min, [.obj .tdense .s true, .obj (.viewTDense .ten) .s true, .obj (.viewTDense .vec) .s false], .vmlten_ttmin, [0, 1, 2]⟩,
  ⟨.vml_min, [.obj .tdense .s true, .obj (.viewTDense .ten) .s true, .obj (.viewTDense .mat) .s false], .vmlten_ttmin, [0, 1, 2]⟩,
  ⟨.vml_min, [.obj .tdense .s true, .obj (.viewTDense .ten) .s true, .obj (.viewTDense .ten) .s false], .vmlten_ttmin, [0, 1, 2]⟩,
  ⟨.vml_min, [.obj (.viewTDense .vec) .s true, .obj .tdense .s true, .obj .tdense .s false], .vmlten_ttmin, [0, 1, 2]⟩,
  ⟨.vml_min, [.obj (.viewTDense .vec) .s true, .obj .tdense .s true, .obj (.viewTDense .vec) .s false], .vmlten_ttmin, [0, 1, 2]⟩,
  ⟨.vml_min, [.obj (.viewTDense .vec) .s true, .obj .tdense .s true, .obj (.viewTDense .mat) .s false], .vmlten_ttmin, [0, 1, 2]⟩,
  ⟨.vml_min, [.obj (.viewTDense .vec) .s true, .obj .tdense .s true, .obj (.viewTDense .ten) .s false], .vmlten_ttmin, [0, 1, 2]⟩,
  ⟨.vml_min, [.obj (.viewTDense .vec) .s true, .obj (.viewTDense .vec) .s true, .obj .tdense .s false], .vmlten_ttmin, [0, 1, 2]⟩,
  ⟨.vml_min, [.obj (.viewTDense .vec) .s true, .obj (.viewTDense .vec) .s true, .obj (.viewTDense .vec) .s false], .vmlten_ttmin, [0, 1, 2]⟩,
  ⟨.vml_min, [.obj (.viewTDense .vec) .s true, .obj (.viewTDense .vec) .s true, .obj (.viewTDense .mat) .s false], .vmlten_ttmin, [0, 1, 2]⟩,
  ⟨.vml_min, [.obj (.viewTDense .vec) .s true, .obj (.viewTDense .vec) .s true, .obj (.viewTDense .ten) .s false], .vmlten_ttmin, [0, 1, 2]⟩,
  ⟨.vml_min, [.obj (.viewTDense .vec) .s true, .obj (.viewTDense .mat) .s true, .obj .tdense .s false], .vmlten_ttmin, [0, 1, 2]⟩,
  ⟨.vml_min, [.obj (.viewTDense .vec) .s true, .obj (.viewTDense .mat) .s true, .obj (.viewTDense .vec) .s false], .vmlten_ttmin, [0, 1, 2]⟩,
  ⟨.vml_min, [.obj (.viewTDense .vec) .s true, .obj (.viewTDense .mat) .s true, .obj (.viewTDense .mat) .s false], .vmlten_ttmin, [0, 1, 2]⟩,
  ⟨.vml_min, [.obj (.viewTDense .vec) .s true, .obj (.viewTDense .mat) .s true, .obj (.viewTDense .ten) .s false], .vmlten_ttmin, [0, 1, 2]⟩,
  ⟨.vml_min, [.obj (.viewTDense .vec) .s true, .obj (.viewTDense .ten) .s true, .obj .tdense .s false], .vmlten_ttmin, [0, 1, 2]⟩,
  ⟨.vml_min, [.obj (.viewTDense .vec) .s true, .obj (.viewTDense .ten) .s true, .obj (.viewTDense .vec) .s false], .vmlten_ttmin, [0, 1, 2]⟩,
  ⟨.vml_min, [.obj (.viewTDense .vec) .s true, .obj (.viewTDense .ten) .s true, .obj (.viewTDense .mat) .s false], .vmlten_ttmin, [0, 1, 2]⟩,
  ⟨.vml_min, [.obj (.viewTDense .vec) .s true, .obj (.viewTDense .ten) .s true, .obj (.viewTDense .ten) .s false], .vmlten_ttmin, [0, 1, 2]⟩,
  ⟨.vml_min, [.obj (.viewTDense .mat) .s true, .obj .tdense .s true, .obj .tdense .s false], .vmlten_ttmin, [0, 1, 2]⟩,
  ⟨.vml_min, [.obj (.viewTDense .mat) .s true, .obj .tdense .s true, .obj (.viewTDense .vec) .s false], .vmlten_ttmin, [0, 1, 2]⟩,
  ⟨.vml_min, [.obj (.viewTDense .mat) .s true, .obj .tdense .s true, .obj (.viewTDense .mat) .s false], .vmlten_ttmin, [0, 1, 2]⟩,
  ⟨.vml_min, [.obj (.viewTDense .mat) .s true, .obj .tdense .s true, .obj (.viewTDense .ten) .s false], .vmlten_ttmin, [0, 1, 2]⟩,
  ⟨.vml_min, [.obj (.viewTDense .mat) .s true, .obj (.viewTDense .vec) .s true, .obj .tdense .s false], .vmlten_ttmin, [0, 1, 2]⟩,
  ⟨.vml_min, [.obj (.viewTDense .mat) .s true, .obj (.viewTDense .vec) .s true, .obj (.viewTDense .vec) .s false], .vmlten_ttmin, [0, 1, 2]⟩,
  ⟨.vml_min, [.obj (.viewTDense .mat) .s true, .obj (.viewTDense .vec) .s true, .obj (.viewTDense .mat) .s false], .vmlten_ttmin, [0, 1, 2]⟩,
  ⟨.vml_min, [.obj (.viewTDense .mat) .s true, .obj (.viewTDense .vec) .s true, .obj (.viewTDense .ten) .s false], .vmlten_ttmin, [0, 1, 2]⟩,
  ⟨.vml_min, [.obj (.viewTDense .mat) .s true, .obj (.viewTDense .mat) .s true, .obj .tdense .s false], .vmlten_ttmin, [0, 1, 2]⟩,
  ⟨.vml_min, [.obj (.viewTDense .mat) .s true, .obj (.viewTDense .mat) .s true, .obj (.viewTDense .vec) .s false], .vmlten_ttmin, [0, 1, 2]⟩,
  ⟨.vml_min, [.obj (.viewTDense .mat) .s true, .obj (.viewTDense .mat) .s true, .obj (.viewTDense .mat) .s false], .vmlten_ttmin, [0, 1, 2]⟩,
  ⟨.vml_min, [.obj (.viewTDense .mat) .s true, .obj (.viewTDense .mat) .s true, .obj (.viewTDense .ten) .s false], .vmlten_ttmin, [0, 1, 2]⟩,
  ⟨.vml_min, [.obj (.viewTDense .mat) .s true, .obj (.viewTDense .ten) .s true, .obj .tdense .s false], .vmlten_ttmin, [0, 1, 2]⟩,
  ⟨.vml_min, [.obj (.viewTDense .mat) .s true, .obj (.viewTDense .ten) .s true, .obj (.viewTDense .vec) .s false], .vmlten_ttmin, [0, 1, 2]⟩,
  ⟨.vml_min, [.obj (.viewTDense .mat) .s true, .obj (.viewTDense .ten) .s true, .obj (.viewTDense .mat) .s false], .vmlten_ttmin, [0, 1, 2]⟩,
  ⟨.vml_min, [.obj (.viewTDense .mat) .s true, .obj (.viewTDense .ten) .s true, .obj (.viewTDense .ten) .s false], .vmlten_ttmin, [0, 1, 2]⟩,
  ⟨.vml_min, [.obj (.viewTDense .ten) .s true, .obj .tdense .s true, .obj .tdense .s false], .vmlten_ttmin, [0, 1, 2]⟩,
  ⟨.vml_min, [.obj (.viewTDense .ten) .s true, .obj .tdense .s true, .obj (.viewTDense .vec) .s false], .vmlten_ttmin, [0, 1, 2]⟩,
  ⟨.vml_min, [.obj (.viewTDense .ten) .s true, .obj .tdense .s true, .obj (.viewTDense .mat) .s false], .vmlten_ttmin, [0, 1, 2]⟩,
  ⟨.vml_min, [.obj (.viewTDense .ten) .s true, .obj .tdense .s true, .obj (.viewTDense .ten) .s false], .vmlten_ttmin, [0, 1, 2]⟩,
  ⟨.vml_min, [.obj (.viewTDense .ten) .s true, .obj (.viewTDense .vec) .s true, .obj .tdense .s false], .vmlten_ttmin, [0, 1, 2]⟩,
  ⟨.vml_min, [.obj (.viewTDense .ten) .s true, .obj (.viewTDense .vec) .s true, .obj (.viewTDense .vec) .s false], .vmlten_ttmin, [0, 1, 2]⟩,
  ⟨.vml_min, [.obj (.viewTDense .ten) .s true, .obj (.viewTDense .vec) .s true, .obj (.viewTDense .mat) .s false], .vmlten_ttmin, [0, 1, 2]⟩,
  ⟨.vml_min, [.obj (.viewTDense .ten) .s true, .obj (.viewTDense .vec) .s true, .obj (.viewTDense .ten) .s false], .vmlten_ttmin, [0, 1, 2]⟩,
  ⟨.vml_min, [.obj (.viewTDense .ten) .s true, .obj (.viewTDense .mat) .s true, .obj .tdense .s false], .vmlten_ttmin, [0, 1, 2]⟩,
  ⟨.vml_min, [.obj (.viewTDense .ten) .s true, .obj (.viewTDense .mat) .s true, .obj (.viewTDense .vec) .s false], .vmlten_ttmin, [0, 1, 2]⟩,
  ⟨.vml_min, [.obj (.viewTDense .ten) .s true, .obj (.viewTDense .mat) .s true, .obj (.viewTDense .mat) .s false], .vmlten_ttmin, [0, 1, 2]⟩,
  ⟨.vml_min, [.obj (.viewTDense .ten) .s true, .obj (.viewTDense .mat) .s true, .obj (.viewTDense .ten) .s false], .vmlten_ttmin, [0, 1, 2]⟩,
  ⟨.vml_min, [.obj (.viewTDense .ten) .s true, .obj (.viewTDense .ten) .s true, .obj .tdense .s false], .vmlten_ttmin, [0, 1, 2]⟩,
  ⟨.vml_min, [.obj (.viewTDense .ten) .s true, .obj (.viewTDense .ten) .s true, .obj (.viewTDense .vec) .s false], .vmlten_ttmin, [0, 1, 2]⟩,
  ⟨.vml_min, [.obj (.viewTDense .ten) .s true, .obj (.viewTDense .ten) .s true, .obj (.viewTDense .mat) .s false], .vmlten_ttmin, [0, 1, 2]⟩,
  ⟨.vml_min, [.obj (.viewTDense .ten) .s true, .obj (.viewTDense .ten) .s true, .obj (.viewTDense .ten) .s false], .vmlten_ttmin, [0, 1, 2]⟩,
  ⟨.vml_max, [.obj .tcrs .d true, .scal .d, .obj .tcrs .d false], .vmlten_stmax, [0, 1, 2]⟩,
  ⟨.vml_max, [.obj .tdense .d true, .scal .d, .obj .tdense .d false], .vmlten_stmax, [0, 1, 2]⟩,
  ⟨.vml_max, [.obj .tdense .d true, .scal .d, .obj (.viewTDense .vec) .d false], .vmlten_stmax, [0, 1, 2]⟩,
  ⟨.vml_max, [.obj .tdense .d true, .scal .d, .obj (.viewTDense .mat) .d false], .vmlten_stmax, [0, 1, 2]⟩,
  ⟨.vml_max, [.obj .tdense .d true, .scal .d, .obj (.viewTDense .ten) .d false], .vmlten_stmax, [0, 1, 2]⟩,
  ⟨.vml_max, [.obj (.viewTDense .vec) .d true, .scal .d, .obj .tdense .d false], .vmlten_stmax, [0, 1, 2]⟩,
  ⟨.vml_max, [.obj (.viewTDense .vec) .d true, .scal .d, .obj (.viewTDense .vec) .d false], .vmlten_stmax, [0, 1, 2]⟩,
  ⟨.vml_max, [.obj (.viewTDense .vec) .d true, .scal .d, .obj (.viewTDense .mat) .d false], .vmlten_stmax, [0, 1, 2]⟩,
  ⟨.vml_max, [.obj (.viewTDense .vec) .d true, .scal .d, .obj (.viewTDense .ten) .d false], .vmlten_stmax, [0, 1, 2]⟩,
  ⟨.vml_max, [.obj (.viewTDense .mat) .d true, .scal .d, .obj .tdense .d false], .vmlten_stmax, [0, 1, 2]⟩]

/-- src/vml/tensor/tensor_vml.cpp:7329-7572 -/
def tVmlTen_20 : List Overload := [
  ⟨.vml_max, [.obj (.viewTDense .mat) .d true, .scal .d, .obj (.viewTDense .vec) .d false], .vmlten_stmax, [0, 1, 2]⟩,
  ⟨.vml_max, [.obj (.viewTDense .mat) .d true, .scal .d, .obj (.viewTDense .mat) .d false], .vmlten_stmax, [0, 1, 2]⟩,
  ⟨.vml_max, [.obj (.viewTDense .mat) .d true, .scal .d, .obj (.viewTDense .ten) .d false], .vmlten_stmax, [0, 1, 2]⟩,
  ⟨.vml_max, [.obj (.viewTDense .ten) .d true, .scal .d, .obj .tdense .d false], .vmlten_stmax, [0, 1, 2]⟩,
  ⟨.vml_max, [.obj (.viewTDense .ten) .d true, .scal .d, .obj (.viewTDense .vec) .d false], .vmlten_stmax, [0, 1, 2]⟩,
  ⟨.vml_max, [.obj (.viewTDense .ten) .d true, .scal .d, .obj (.viewTDense .mat) .d false], .vmlten_stmax, [0, 1, 2]⟩,
  ⟨.vml_max, [.obj (.viewTDense .ten) .d true, .scal .d, .obj (.viewTDense .ten) .d false], .vmlten_stmax, [0, 1, 2]⟩,
  ⟨.vml_max, [.obj .tcrs .s true, .scal .s, .obj .tcrs .s false], .vmlten_stmax, [0, 1, 2]⟩,
  ⟨.vml_max, [.obj .tdense .s true, .scal .s, .obj .tdense .s false], .vmlten_stmax, [0, 1, 2]⟩,
  ⟨.vml_max, [.obj .tdense .s true, .scal .s, .obj (.viewTDense .vec) .s false], .vmlten_stmax, [0, 1, 2]⟩,
  ⟨.vml_max, [.obj .tdense .s true, .scal .s, .obj (.viewTDense .mat) .s false], .vmlten_stmax, [0, 1, 2]⟩,
  ⟨.vml_max, [.obj .tdense .s true, .scal .s, .obj (.viewTDense .ten) .s false], .vmlten_stmax, [0, 1, 2]⟩,
  ⟨.vml_max, [.obj (.viewTDense .vec) .s true, .scal .s, .obj .tdense .s false], .vmlten_stmax, [0, 1, 2]⟩,
  ⟨.vml_max, [.obj (.viewTDense .vec) .s true, .scal .s, .obj (.viewTDense .vec) .s false], .vmlten_stmax, [0, 1, 2]⟩,
  ⟨.vml_max, [.obj (.viewTDense .vec) .s true, .scal .s, .obj (.viewTDense .mat) .s false], .vmlten_stmax, [0, 1, 2]⟩,
  ⟨.vml_max, [.obj (.viewTDense .vec) .s true, .scal .s, .obj (.viewTDense .ten) .s false], .vmlten_stmax, [0, 1, 2]⟩,
  ⟨.vml_max, [.obj (.viewTDense .mat) .s true, .scal .s, .obj .tdense .s false], .vmlten_stmax, [0, 1, 2]⟩,
  ⟨.vml_max, [.obj (.viewTDense .mat) .s true, .scal .s, .obj (.viewTDense .vec) .s false], .vmlten_stmax, [0, 1, 2]⟩,
  ⟨.vml_max, [.obj (.viewTDense .mat) .s true, .scal .s, .obj (.viewTDense .mat) .s false], .vmlten_stmax, [0, 1, 2]⟩,
  ⟨.vml_max, [.obj (.viewTDense .mat) .s true, .scal .s, .obj (.viewTDense .ten) .s false], .vmlten_stmax, [0, 1, 2]⟩,
  ⟨.vml_max, [.obj (.viewTDense .ten) .s true, .scal .s, .obj .tdense .s false], .vmlten_stmax, [0, 1, 2]⟩,
  ⟨.vml_max, [.obj (.viewTDense .ten) .s true, .scal .s, .obj (.viewTDense .vec) .s false], .vmlten_stmax, [0, 1, 2]⟩,
  ⟨.vml_max, [.obj (.viewTDense .ten) .s true, .scal .s, .obj (.viewTDense .mat) .s false], .vmlten_stmax, [0, 1, 2]⟩,
  ⟨.vml_max, [.obj (.viewTDense .ten) .s true, .scal .s, .obj (.viewTDense .ten) .s false], .vmlten_stmax, [0, 1, 2]⟩,
  ⟨.vml_min, [.obj .tcrs .d true, .scal .d, .obj .tcrs .d false], .vmlten_stmin, [0, 1, 2]⟩,
  ⟨.vml_min, [.obj .tdense .d true, .scal .d, .obj .tdense .d false], .vmlten_stmin, [0, 1, 2]⟩,
  ⟨.vml_min, [.obj .tdense .d true, .scal .d, .obj (.viewTDense .vec) .d false], .vmlten_stmin, [0, 1, 2]⟩,
  ⟨.vml_min, [.obj .tdense .d true, .scal .d, .obj (.viewTDense .mat) .d false], .vmlten_stmin, [0, 1, 2]⟩,
  ⟨.vml_min, [.obj .tdense .d true, .scal .d, .obj (.viewTDense .ten) .d false], .vmlten_stmin, [0, 1, 2]⟩,
  ⟨.vml_min, [.obj (.viewTDense .vec) .d true, .scal .d, .obj .tdense .d false], .vmlten_stmin, [0, 1, 2]⟩,
  ⟨.vml_min, [.obj (.viewTDense .vec) .d true, .scal .d, .obj (.viewTDense .vec) .d false], .vmlten_stmin, [0, 1, 2]⟩,
  ⟨.vml_min, [.obj (.viewTDense .vec) .d true, .scal .d, .obj (.viewTDense .mat) .d false], .vmlten_stmin, [0, 1, 2]⟩,
  ⟨.vml_min, [.obj (.viewTDense .vec) .d true, .scal .d, .obj (.viewTDense .ten) .d false], .vmlten_stmin, [0, 1, 2]⟩,
  ⟨.vml_min, [.obj (.viewTDense .mat) .d true, .scal .d, .obj .tdense .d false], .vmlten_stmin, [0, 1, 2]⟩,
  ⟨.vml_min, [.obj (.viewTDense .mat) .d true, .scal .d, .obj (.viewTDense .vec) .d false], .vmlten_stmin, [0, 1, 2]⟩,
  ⟨.vml_min, [.obj (.viewTDense .mat) .d true, .scal .d, .obj (.viewTDense .mat) .d false], .vmlten_stmin, [0, 1, 2]⟩,
  ⟨.vml_min, [.obj (.viewTDense .mat) .d true, .scal .d, .obj (.viewTDense .ten) .d false], .vmlten_stmin, [0, 1, 2]⟩,
  ⟨.vml_min, [.obj (.viewTDense .ten) .d true, .scal .d, .obj .tdense .d false], .vmlten_stmin, [0, 1, 2]⟩,
  ⟨.vml_min, [.obj (.viewTDense .ten) .d true, .scal .d, .obj (.viewTDense .vec) .d false], .vmlten_stmin, [0, 1, 2]⟩,
  ⟨.vml_min, [.obj (.viewTDense .ten) .d true, .scal .d, .obj (.viewTDense .mat) .d false], .vmlten_stmin, [0, 1, 2]⟩,
  ⟨.vml_min, [.obj (.viewTDense .ten) .d true, .scal .d, .obj (.viewTDense .ten) .d false], .vmlten_stmin, [0, 1, 2]⟩,
  ⟨.vml_min, [.obj .tcrs .s true, .scal .s, .obj .tcrs .s false], .vmlten_stmin, [0, 1, 2]⟩,
  ⟨.vml_min, [.obj .tdense .s true, .scal .s, .obj .tdense .s false], .vmlten_stmin, [0, 1, 2]⟩,
  ⟨.vml_min, [.obj .tdense .s true, .scal .s, .obj (.viewTDense .vec) .s false], .vmlten_stmin, [0, 1, 2]⟩,
  ⟨.vml_min, [.obj .tdense .s true, .scal .s, .obj (.viewTDense .mat) .s false], .vmlten_stmin, [0, 1, 2]⟩,
  ⟨.vml_min, [.obj .tdense .s true, .scal .s, .obj (.viewTDense .ten) .s false], .vmlten_stmin, [0, 1, 2]⟩,
  ⟨.vml_min, [.obj (.viewTDense .vec) .s true, .scal .s, .obj .tdense .s false], .vmlten_stmin, [0, 1, 2]⟩,
  ⟨.vml_min, [.obj (.viewTDense .vec) .s true, .scal .s, .obj (.viewTDense .vec) .s false], .vmlten_stmin, [0, 1, 2]⟩,
  ⟨.vml_min, [.obj (.viewTDense .vec) .s true, .scal .s, .obj (.viewTDense .mat) .s false], .vmlten_stmin, [0, 1, 2]⟩,
  ⟨.vml_min, [.obj (.viewTDense .vec) .s true, .scal .s, .obj (.viewTDense .ten) .s false], .vmlten_stmin, [0, 1, 2]⟩,
  ⟨.vml_min, [.obj (.viewTDense .mat) .s true, .scal .s, .obj .tdense .s false], .vmlten_stmin, [0, 1, 2]⟩,
  ⟨.vml_min, [.obj (.viewTDense .mat) .s true, .scal .s, .obj (.viewTDense .vec) .s false], .vmlten_stmin, [0, 1, 2]⟩,
  ⟨.vml_min, [.obj (.viewTDense .mat) .s true, .scal .s, .obj (.viewTDense .mat) .s false], .vmlten_stmin, [0, 1, 2]⟩,
  ⟨.vml_min, [.obj (.viewTDense .mat) .s true, .scal .s, .obj (.viewTDense .ten) .s false], .vmlten_stmin, [0, 1, 2]⟩,
  ⟨.vml_min, [.obj (.viewTDense .ten) .s true, .scal .s, .obj .tdense .s false], .vmlten_stmin, [0, 1, 2]⟩,
  ⟨.vml_min, [.obj (.viewTDense .ten) .s true, .scal .s, .obj (.viewTDense .vec) .s false], .vmlten_stmin, [0, 1, 2]⟩,
  ⟨.vml_min, [.obj (.viewTDense .ten) .s true, .scal .s, .obj (.viewTDense .mat) .s false], .vmlten_stmin, [0, 1, 2]⟩,
  ⟨.vml_min, [.obj (.viewTDense .ten) .s true, .scal .s, .obj (.viewTDense .ten) .s false], .vmlten_stmin, [0, 1, 2]⟩]

/-- the element-wise overloads of src/vml/tensor/tensor_vml.cpp (1658 of them) -/
def tVmlTen : List (List Overload) :=
  [tVmlTen_0, tVmlTen_1, tVmlTen_2, tVmlTen_3, tVmlTen_4, tVmlTen_5, tVmlTen_6, tVmlTen_7, tVmlTen_8, tVmlTen_9, tVmlTen_10, tVmlTen_11, tVmlTen_12, tVmlTen_13, tVmlTen_14, tVmlTen_15, tVmlTen_16, tVmlTen_17, tVmlTen_18, tVmlTen_19, tVmlTen_20]

end Verif.Dispatch
