import Verif.Model.DispatchApi

/-!
Generated by tools/dispatch_gen.py from /repo: public overloads of the element-wise functions. Do not edit.
-/

namespace Verif.Dispatch

/-- src/vml/vector/vector_vml.cpp:30-390 -/
def tVmlVec_0 : List Overload := [
  ⟨.vml_add, [.obj .vector .d true, .obj .vector .d true, .obj .vector .d false], .vmlvec_vvadd, [0, 1, 2]⟩,
  ⟨.vml_add, [.obj .vector .d true, .obj .vector .d true, .obj (.view1D .vec) .d false], .vmlvec_vvadd, [0, 1, 2]⟩,
  ⟨.vml_add, [.obj .vector .d true, .obj .vector .d true, .obj (.view1D .mat) .d false], .vmlvec_vvadd, [0, 1, 2]⟩,
  ⟨.vml_add, [.obj .vector .d true, .obj .vector .d true, .obj (.view1D .ten) .d false], .vmlvec_vvadd, [0, 1, 2]⟩,
  ⟨.vml_add, [.obj .vector .d true, .obj (.view1D .vec) .d true, .obj .vector .d false], .vmlvec_vvadd, [0, 1, 2]⟩,
  ⟨.vml_add, [.obj .vector .d true, .obj (.view1D .vec) .d true, .obj (.view1D .vec) .d false], .vmlvec_vvadd, [0, 1, 2]⟩,
  ⟨.vml_add, [.obj .vector .d true, .obj (.view1D .vec) .d true, .obj (.view1D .mat) .d false], .vmlvec_vvadd, [0, 1, 2]⟩,
  ⟨.vml_add, [.obj .vector .d true, .obj (.view1D .vec) .d true, .obj (.view1D .ten) .d false], .vmlvec_vvadd, [0, 1, 2]⟩,
  ⟨.vml_add, [.obj .vector .d true, .obj (.view1D .mat) .d true, .obj .vector .d false], .vmlvec_vvadd, [0, 1, 2]⟩,
  ⟨.vml_add, [.obj .vector .d true, .obj (.view1D .mat) .d true, .obj (.view1D .vec) .d false], .vmlvec_vvadd, [0, 1, 2]⟩,
  ⟨.vml_add, [.obj .vector .d true, .obj (.view1D .mat) .d true, .obj (.view1D .mat) .d false], .vmlvec_vvadd, [0, 1, 2]⟩,
  ⟨.vml_add, [.obj .vector .d true, .obj (.view1D .mat) .d true, .obj (.view1D .ten) .d false], .vmlvec_vvadd, [0, 1, 2]⟩,
  ⟨.vml_add, [.obj .vector .d true, .obj (.view1D .ten) .d true, .obj .vector .d false], .vmlvec_vvadd, [0, 1, 2]⟩,
  ⟨.vml_add, [.obj .vector .d true, .obj (.view1D .ten) .d true, .obj (.view1D .vec) .d false], .vmlvec_vvadd, [0, 1, 2]⟩,
  ⟨.vml_add, [.obj .vector .d true, .obj (.view1D .ten) .d true, .obj (.view1D .mat) .d false], .vmlvec_vvadd, [0, 1, 2]⟩,
  ⟨.vml_add, [.obj .vector .d true, .obj (.view1D .ten) .d true, .obj (.view1D .ten) .d false], .vmlvec_vvadd, [0, 1, 2]⟩,
  ⟨.vml_add, [.obj (.view1D .vec) .d true, .obj .vector .d true, .obj .vector .d false], .vmlvec_vvadd, [0, 1, 2]⟩,
  ⟨.vml_add, [.obj (.view1D .vec) .d true, .obj .vector .d true, .obj (.view1D .vec) .d false], .vmlvec_vvadd, [0, 1, 2]⟩,
  ⟨.vml_add, [.obj (.view1D .vec) .d true, .obj .vector .d true, .obj (.view1D .mat) .d false], .vmlvec_vvadd, [0, 1, 2]⟩,
  ⟨.vml_add, [.obj (.view1D .vec) .d true, .obj .vector .d true, .obj (.view1D .ten) .d false], .vmlvec_vvadd, [0, 1, 2]⟩,
  ⟨.vml_add, [.obj (.view1D .vec) .d true, .obj (.view1D .vec) .d true, .obj .vector .d false], .vmlvec_vvadd, [0, 1, 2]⟩,
  ⟨.vml_add, [.obj (.view1D .vec) .d true, .obj (.view1D .vec) .d true, .obj (.view1D .vec) .d false], .vmlvec_vvadd, [0, 1, 2]⟩,
  ⟨.vml_add, [.obj (.view1D .vec) .d true, .obj (.view1D .vec) .d true, .obj (.view1D .mat) .d false], .vmlvec_vvadd, [0, 1, 2]⟩,
  ⟨.vml_add, [.obj (.view1D .vec) .d true, .obj (.view1D .vec) .d true, .obj (.view1D .ten) .d false], .vmlvec_vvadd, [0, 1, 2]⟩,
  ⟨.vml_add, [.obj (.view1D .vec) .d true, .obj (.view1D .mat) .d true, .obj .vector .d false], .vmlvec_vvadd, [0, 1, 2]⟩,
  ⟨.vml_add, [.obj (.view1D .vec) .d true, .obj (.view1D .mat) .d true, .obj (.view1D .vec) .d false], .vmlvec_vvadd, [0, 1, 2]⟩,
  ⟨.vml_add, [.obj (.view1D .vec) .d true, .obj (.view1D .mat) .d true, .obj (.view1D .mat) .d false], .vmlvec_vvadd, [0, 1, 2]⟩,
  ⟨.vml_add, [.obj (.view1D .vec) .d true, .obj (.view1D .mat) .d true, .obj (.view1D .ten) .d false], .vmlvec_vvadd, [0, 1, 2]⟩,
  ⟨.vml_add, [.obj (.view1D .vec) .d true, .obj (.view1D .ten) .d true, .obj .vector .d false], .vmlvec_vvadd, [0, 1, 2]⟩,
  ⟨.vml_add, [.obj (.view1D .vec) .d true, .obj (.view1D .ten) .d true, .obj (.view1D .vec) .d false], .vmlvec_vvadd, [0, 1, 2]⟩,
  ⟨.vml_add, [.obj (.view1D .vec) .d true, .obj (.view1D .ten) .d true, .obj (.view1D .mat) .d false], .vmlvec_vvadd, [0, 1, 2]⟩,
  ⟨.vml_add, [.obj (.view1D .vec) .d true, .obj (.view1D .ten) .d true, .obj (.view1D .ten) .d false], .vmlvec_vvadd, [0, 1, 2]⟩,
  ⟨.vml_add, [.obj (.view1D .mat) .d true, .obj .vector .d true, .obj .vector .d false], .vmlvec_vvadd, [0, 1, 2]⟩,
  ⟨.vml_add, [.obj (.view1D .mat) .d true, .obj .vector .d true, .obj (.view1D .vec) .d false], .vmlvec_vvadd, [0, 1, 2]⟩,
  ⟨.vml_add, [.obj (.view1D .mat) .d true, .obj .vector .d true, .obj (.view1D .mat) .d false], .vmlvec_vvadd, [0, 1, 2]⟩,
  ⟨.vml_add, [.obj (.view1D .mat) .d true, .obj .vector .d true, .obj (.view1D .ten) .d false], .vmlvec_vvadd, [0, 1, 2]⟩,
  ⟨.vml_add, [.obj (.view1D .mat) .d true, .obj (.view1D .vec) .d true, .obj .vector .d false], .vmlvec_vvadd, [0, 1, 2]⟩,
  ⟨.vml_add, [.obj (.view1D .mat) .d true, .obj (.view1D .vec) .d true, .obj (.view1D .vec) .d false], .vmlvec_vvadd, [0, 1, 2]⟩,
  ⟨.vml_add, [.obj (.view1D .mat) .d true, .obj (.view1D .vec) .d true, .obj (.view1D .mat) .d false], .vmlvec_vvadd, [0, 1, 2]⟩,
  ⟨.vml_add, [.obj (.view1D .mat) .d true, .obj (.view1D .vec) .d true, .obj (.view1D .ten) .d false], .vmlvec_vvadd, [0, 1, 2]⟩,
  ⟨.vml_add, [.obj (.view1D .mat) .d true, .obj (.view1D .mat) .d true, .obj .vector .d false], .vmlvec_vvadd, [0, 1, 2]⟩,
  ⟨.vml_add, [.obj (.view1D .mat) .d true, .obj (.view1D .mat) .d true, .obj (.view1D .vec) .d false], .vmlvec_vvadd, [0, 1, 2]⟩,
  ⟨.vml_add, [.obj (.view1D .mat) .d true, .obj (.view1D .mat) .d true, .obj (.view1D .mat) .d false], .vmlvec_vvadd, [0, 1, 2]⟩,
  ⟨.vml_add, [.obj (.view1D .mat) .d true, .obj (.view1D .mat) .d true, .obj (.view1D .ten) .d false], .vmlvec_vvadd, [0, 1, 2]⟩,
  ⟨.vml_add, [.obj (.view1D .mat) .d true, .obj (.view1D .ten) .d true, .obj .vector .d false], .vmlvec_vvadd, [0, 1, 2]⟩,
  ⟨.vml_add, [.obj (.view1D .mat) .d true, .obj (.view1D .ten) .d true, .obj (.view1D .vec) .d false], .vmlvec_vvadd, [0, 1, 2]⟩,
  ⟨.vml_add, [.obj (.view1D .mat) .d true, .obj (.view1D .ten) .d true, .obj (.view1D .mat) .d false], .vmlvec_vvadd, [0, 1, 2]⟩,
  ⟨.vml_add, [.obj (.view1D .mat) .d true, .obj (.view1D .ten) .d true, .obj (.view1D .ten) .d false], .vmlvec_vvadd, [0, 1, 2]⟩,
  ⟨.vml_add, [.obj (.view1D .ten) .d true, .obj .vector .d true, .obj .vector .d false], .vmlvec_vvadd, [0, 1, 2]⟩,
  ⟨.vml_add, [.obj (.view1D .ten) .d true, .obj .vector .d true, .obj (.view1D .vec) .d false], .vmlvec_vvadd, [0, 1, 2]⟩,
  ⟨.vml_add, [.obj (.view1D .ten) .d true, .obj .vector .d true, .obj (.view1D .mat) .d false], .vmlvec_vvadd, [0, 1, 2]⟩,
  ⟨.vml_add, [.obj (.view1D .ten) .d true, .obj .vector .d true, .obj (.view1D .ten) .d false], .vmlvec_vvadd, [0, 1, 2]⟩,
  ⟨.vml_add, [.obj (.view1D .ten) .d true, .obj (.view1D .vec) .d true, .obj .vector .d false], .vmlvec_vvadd, [0, 1, 2]⟩,
  ⟨.vml_add, [.obj (.view1D .ten) .d true, .obj (.view1D .vec) .d true, .obj (.view1D .vec) .d false], .vmlvec_vvadd, [0, 1, 2]⟩,
  ⟨.vml_add, [.obj (.view1D .ten) .d true, .obj (.view1D .vec) .d true, .obj (.view1D .mat) .d false], .vmlvec_vvadd, [0, 1, 2]⟩,
  ⟨.vml_add, [.obj (.view1D .ten) .d true, .obj (.view1D .vec) .d true, .obj (.view1D .ten) .d false], .vmlvec_vvadd, [0, 1, 2]⟩,
  ⟨.vml_add, [.obj (.view1D .ten) .d true, .obj (.view1D .mat) .d true, .obj .vector .d false], .vmlvec_vvadd, [0, 1, 2]⟩,
  ⟨.vml_add, [.obj (.view1D .ten) .d true, .obj (.view1D .mat) .d true, .obj (.view1D .vec) .d false], .vmlvec_vvadd, [0, 1, 2]⟩,
  ⟨.vml_add, [.obj (.view1D .ten) .d true, .obj (.view1D .mat) .d true, .obj (.view1D .mat) .d false], .vmlvec_vvadd, [0, 1, 2]⟩,
  ⟨.vml_add, [.obj (.view1D .ten) .d true, .obj (.view1D .mat) .d true, .obj (.view1D .ten) .d false], .vmlvec_vvadd, [0, 1, 2]⟩,
  ⟨.vml_add, [.obj (.view1D .ten) .d true, .obj (.view1D .ten) .d true, .obj .vector .d false], .vmlvec_vvadd, [0, 1, 2]⟩,
  ⟨.vml_add, [.obj (.view1D .ten) .d true, .obj (.view1D .ten) .d true, .obj (.view1D .vec) .d false], .vmlvec_vvadd, [0, 1, 2]⟩,
  ⟨.vml_add, [.obj (.view1D .ten) .d true, .obj (.view1D .ten) .d true, .obj (.view1D .mat) .d false], .vmlvec_vvadd, [0, 1, 2]⟩,
  ⟨.vml_add, [.obj (.view1D .ten) .d true, .obj (.view1D .ten) .d true, .obj (.view1D .ten) .d false], .vmlvec_vvadd, [0, 1, 2]⟩,
  ⟨.vml_add, [.obj .vector .s true, .obj .vector .s true, .obj .vector .s false], .vmlvec_vvadd, [0, 1, 2]⟩,
  ⟨.vml_add, [.obj .vector .s true, .obj .vector .s true, .obj (.view1D .vec) .s false], .vmlvec_vvadd, [0, 1, 2]⟩,
  ⟨.vml_add, [.obj .vector .s true, .obj .vector .s true, .obj (.view1D .mat) .s false], .vmlvec_vvadd, [0, 1, 2]⟩,
  ⟨.vml_add, [.obj .vector .s true, .obj .vector .s true, .obj (.view1D .ten) .s false], .vmlvec_vvadd, [0, 1, 2]⟩,
  ⟨.vml_add, [.obj .vector .s true, .obj (.view1D .vec) .s true, .obj .vector .s false], .vmlvec_vvadd, [0, 1, 2]⟩,
  ⟨.vml_add, [.obj .vector .s true, .obj (.view1D .vec) .s true, .obj (.view1D .vec) .s false], .vmlvec_vvadd, [0, 1, 2]⟩,
  ⟨.vml_add, [.obj .vector .s true, .obj (.view1D .vec) .s true, .obj (.view1D .mat) .s false], .vmlvec_vvadd, [0, 1, 2]⟩,
  ⟨.vml_add, [.obj .vector .s true, .obj (.view1D .vec) .s true, .obj (.view1D .ten) .s false], .vmlvec_vvadd, [0, 1, 2]⟩,
  ⟨.vml_add, [.obj .vector .s true, .obj (.view1D .mat) .s true, .obj .vector .s false], .vmlvec_vvadd, [0, 1, 2]⟩,
  ⟨.vml_add, [.obj .vector .s true, .obj (.view1D .mat) .s true, .obj (.view1D .vec) .s false], .vmlvec_vvadd, [0, 1, 2]⟩,
  ⟨.vml_add, [.obj .vector .s true, .obj (.view1D .mat) .s true, .obj (.view1D .mat) .s false], .vmlvec_vvadd, [0, 1, 2]⟩,
  ⟨.vml_add, [.obj .vector .s true, .obj (.view1D .mat) .s true, .obj (.view1D .ten) .s false], .vmlvec_vvadd, [0, 1, 2]⟩,
  ⟨.vml_add, [.obj .vector .s true, .obj (.view1D .ten) .s true, .obj .vector .s false], .vmlvec_vvadd, [0, 1, 2]⟩,
  ⟨.vml_add, [.obj .vector .s true, .obj (.view1D .ten) .s true, .obj (.view1D .vec) .s false], .vmlvec_vvadd, [0, 1, 2]⟩,
  ⟨.vml_add, [.obj .vector .s true, .obj (.view1D .ten) .s true, .obj (.view1D .mat) .s false], .vmlvec_vvadd, [0, 1, 2]⟩,
  ⟨.vml_add, [.obj .vector .s true, .obj (.view1D .ten) .s true, .obj (.view1D .ten) .s false], .vmlvec_vvadd, [0, 1, 2]⟩]

/-- src/vml/vector/vector_vml.cpp:391-757 -/
def tVmlVec_1 : List Overload := [
  ⟨.vml_add, [.obj (.view1D .vec) .s true, .obj .vector .s true, .obj .vector .s false], .vmlvec_vvadd, [0, 1, 2]⟩,
  ⟨.vml_add, [.obj (.view1D .vec) .s true, .obj .vector .s true, .obj (.view1D .vec) .s false], .vmlvec_vvadd, [0, 1, 2]⟩,
  ⟨.vml_add, [.obj (.view1D .vec) .s true, .obj .vector .s true, .obj (.view1D .mat) .s false], .vmlvec_vvadd, [0, 1, 2]⟩,
  ⟨.vml_add, [.obj (.view1D .vec) .s true, .obj .vector .s true, .obj (.view1D .ten) .s false], .vmlvec_vvadd, [0, 1, 2]⟩,
  ⟨.vml_add, [.obj (.view1D .vec) .s true, .obj (.view1D .vec) .s true, .obj .vector .s false], .vmlvec_vvadd, [0, 1, 2]⟩,
  ⟨.vml_add, [.obj (.view1D .vec) .s true, .obj (.view1D .vec) .s true, .obj (.view1D .vec) .s false], .vmlvec_vvadd, [0, 1, 2]⟩,
  ⟨.vml_add, [.obj (.view1D .vec) .s true, .obj (.view1D .vec) .s true, .obj (.view1D .mat) .s false], .vmlvec_vvadd, [0, 1, 2]⟩,
  ⟨.vml_add, [.obj (.view1D .vec) .s true, .obj (.view1D .vec) .s true, .obj (.view1D .ten) .s false], .vmlvec_vvadd, [0, 1, 2]⟩,
  ⟨.vml_add, [.obj (.view1D .vec) .s true, .obj (.view1D .mat) .s true, .obj .vector .s false], .vmlvec_vvadd, [0, 1, 2]⟩,
  ⟨.vml_add, [.obj (.view1D .vec) .s true, .obj (.view1D .mat) .s true, .obj (.view1D .vec) .s false], .vmlvec_vvadd, [0, 1, 2]⟩,
  ⟨.vml_add, [.obj (.view1D .vec) .s true, .obj (.view1D .mat) .s true, .obj (.view1D .mat) .s false], .vmlvec_vvadd, [0, 1, 2]⟩,
  ⟨.vml_add, [.obj (.view1D .vec) .s true, .obj (.view1D .mat) .s true, .obj (.view1D .ten) .s false], .vmlvec_vvadd, [0, 1, 2]⟩,
  ⟨.vml_add, [.obj (.view1D .vec) .s true, .obj (.view1D .ten) .s true, .obj .vector .s false], .vmlvec_vvadd, [0, 1, 2]⟩,
  ⟨.vml_add, [.obj (.view1D .vec) .s true, .obj (.view1D .ten) .s true, .obj (.view1D .vec) .s false], .vmlvec_vvadd, [0, 1, 2]⟩,
  ⟨.vml_add, [.obj (.view1D .vec) .s true, .obj (.view1D .ten) .s true, .obj (.view1D .mat) .s false], .vmlvec_vvadd, [0, 1, 2]⟩,
  ⟨.vml_add, [.obj (.view1D .vec) .s true, .obj (.view1D .ten) .s true, .obj (.view1D .ten) .s false], .vmlvec_vvadd, [0, 1, 2]⟩,
  ⟨.vml_add, [.obj (.view1D .mat) .s true, .obj .vector .s true, .obj .vector .s false], .vmlvec_vvadd, [0, 1, 2]⟩,
  ⟨.vml_add, [.obj (.view1D .mat) .s true, .obj .vector .s true, .obj (.view1D .vec) .s false], .vmlvec_vvadd, [0, 1, 2]⟩,
  ⟨.vml_add, [.obj (.view1D .mat) .s true, .obj .vector .s true, .obj (.view1D .mat) .s false], .vmlvec_vvadd, [0, 1, 2]⟩,
  ⟨.vml_add, [.obj (.view1D .mat) .s true, .obj .vector .s true, .obj (.view1D .ten) .s false], .vmlvec_vvadd, [0, 1, 2]⟩,
  ⟨.vml_add, [.obj (.view1D .mat) .s true, .obj (.view1D .vec) .s true, .obj .vector .s false], .vmlvec_vvadd, [0, 1, 2]⟩,
  ⟨.vml_add, [.obj (.view1D .mat) .s true, .obj (.view1D .vec) .s true, .obj (.view1D .vec) .s false], .vmlvec_vvadd, [0, 1, 2]⟩,
  ⟨.vml_add, [.obj (.view1D .mat) .s true, .obj (.view1D .vec) .s true, .obj (.view1D .mat) .s false], .vmlvec_vvadd, [0, 1, 2]⟩,
  ⟨.vml_add, [.obj (.view1D .mat) .s true, .obj (.view1D .vec) .s true, .obj (.view1D .ten) .s false], .vmlvec_vvadd, [0, 1, 2]⟩,
  ⟨.vml_add, [.obj (.view1D .mat) .s true, .obj (.view1D .mat) .s true, .obj .vector .s false], .vmlvec_vvadd, [0, 1, 2]⟩,
  ⟨.vml_add, [.obj (.view1D .mat) .s true, .obj (.view1D .mat) .s true, .obj (.view1D .vec) .s false], .vmlvec_vvadd, [0, 1, 2]⟩,
  ⟨.vml_add, [.obj (.view1D .mat) .s true, .obj (.view1D .mat) .s true, .obj (.view1D .mat) .s false], .vmlvec_vvadd, [0, 1, 2]⟩,
  ⟨.vml_add, [.obj (.view1D .mat) .s true, .obj (.view1D .mat) .s true, .obj (.view1D .ten) .s false], .vmlvec_vvadd, [0, 1, 2]⟩,
  ⟨.vml_add, [.obj (.view1D .mat) .s true, .obj (.view1D .ten) .s true, .obj .vector .s false], .vmlvec_vvadd, [0, 1, 2]⟩,
  ⟨.vml_add, [.obj (.view1D .mat) .s true, .obj (.view1D .ten) .s true, .obj (.view1D .vec) .s false], .vmlvec_vvadd, [0, 1, 2]⟩,
  ⟨.vml_add, [.obj (.view1D .mat) .s true, .obj (.view1D .ten) .s true, .obj (.view1D .mat) .s false], .vmlvec_vvadd, [0, 1, 2]⟩,
  ⟨.vml_add, [.obj (.view1D .mat) .s true, .obj (.view1D .ten) .s true, .obj (.view1D .ten) .s false], .vmlvec_vvadd, [0, 1, 2]⟩,
  ⟨.vml_add, [.obj (.view1D .ten) .s true, .obj .vector .s true, .obj .vector .s false], .vmlvec_vvadd, [0, 1, 2]⟩,
  ⟨.vml_add, [.obj (.view1D .ten) .s true, .obj .vector .s true, .obj (.view1D .vec) .s false], .vmlvec_vvadd, [0, 1, 2]⟩,
  ⟨.vml_add, [.obj (.view1D .ten) .s true, .obj .vector .s true, .obj (.view1D .mat) .s false], .vmlvec_vvadd, [0, 1, 2]⟩,
  ⟨.vml_add, [.obj (.view1D .ten) .s true, .obj .vector .s true, .obj (.view1D .ten) .s false], .vmlvec_vvadd, [0, 1, 2]⟩,
  ⟨.vml_add, [.obj (.view1D .ten) .s true, .obj (.view1D .vec) .s true, .obj .vector .s false], .vmlvec_vvadd, [0, 1, 2]⟩,
  ⟨.vml_add, [.obj (.view1D .ten) .s true, .obj (.view1D .vec) .s true, .obj (.view1D .vec) .s false], .vmlvec_vvadd, [0, 1, 2]⟩,
  ⟨.vml_add, [.obj (.view1D .ten) .s true, .obj (.view1D .vec) .s true, .obj (.view1D .mat) .s false], .vmlvec_vvadd, [0, 1, 2]⟩,
  ⟨.vml_add, [.obj (.view1D .ten) .s true, .obj (.view1D .vec) .s true, .obj (.view1D .ten) .s false], .vmlvec_vvadd, [0, 1, 2]⟩,
  ⟨.vml_add, [.obj (.view1D .ten) .s true, .obj (.view1D .mat) .s true, .obj .vector .s false], .vmlvec_vvadd, [0, 1, 2]⟩,
  ⟨.vml_add, [.obj (.view1D .ten) .s true, .obj (.view1D .mat) .s true, .obj (.view1D .vec) .s false], .vmlvec_vvadd, [0, 1, 2]⟩,
  ⟨.vml_add, [.obj (.view1D .ten) .s true, .obj (.view1D .mat) .s true, .obj (.view1D .mat) .s false], .vmlvec_vvadd, [0, 1, 2]⟩,
  ⟨.vml_add, [.obj (.view1D .ten) .s true, .obj (.view1D .mat) .s true, .obj (.view1D .ten) .s false], .vmlvec_vvadd, [0, 1, 2]⟩,
  ⟨.vml_add, [.obj (.view1D .ten) .s true, .obj (.view1D .ten) .s true, .obj .vector .s false], .vmlvec_vvadd, [0, 1, 2]⟩,
  ⟨.vml_add, [.obj (.view1D .ten) .s true, .obj (.view1D .ten) .s true, .obj (.view1D .vec) .s false], .vmlvec_vvadd, [0, 1, 2]⟩,
  ⟨.vml_add, [.obj (.view1D .ten) .s true, .obj (.view1D .ten) .s true, .obj (.view1D .mat) .s false], .vmlvec_vvadd, [0, 1, 2]⟩,
  ⟨.vml_add, [.obj (.view1D .ten) .s true, .obj (.view1D .ten) .s true, .obj (.view1D .ten) .s false], .vmlvec_vvadd, [0, 1, 2]⟩,
  ⟨.vml_sub, [.obj .vector .d true, .obj .vector .d true, .obj .vector .d false], .vmlvec_vvsub, [0, 1, 2]⟩,
  ⟨.vml_sub, [.obj .vector .d true, .obj .vector .d true, .obj (.view1D .vec) .d false], .vmlvec_vvsub, [0, 1, 2]⟩,
  ⟨.vml_sub, [.obj .vector .d true, .obj .vector .d true, .obj (.view1D .mat) .d false], .vmlvec_vvsub, [0, 1, 2]⟩,
  ⟨.vml_sub, [.obj .vector .d true, .obj .vector .d true, .obj (.view1D .ten) .d false], .vmlvec_vvsub, [0, 1, 2]⟩,
  ⟨.vml_sub, [.obj .vector .d true, .obj (.view1D .vec) .d true, .obj .vector .d false], .vmlvec_vvsub, [0, 1, 2]⟩,
  ⟨.vml_sub, [.obj .vector .d true, .obj (.view1D .vec) .d true, .obj (.view1D .vec) .d false], .vmlvec_vvsub, [0, 1, 2]⟩,
  ⟨.vml_sub, [.obj .vector .d true, .obj (.view1D .vec) .d true, .obj (.view1D .mat) .d false], .vmlvec_vvsub, [0, 1, 2]⟩,
  ⟨.vml_sub, [.obj .vector .d true, .obj (.view1D .vec) .d true, .obj (.view1D .ten) .d false], .vmlvec_vvsub, [0, 1, 2]⟩,
  ⟨.vml_sub, [.obj .vector .d true, .obj (.view1D .mat) .d true, .obj .vector .d false], .vmlvec_vvsub, [0, 1, 2]⟩,
  ⟨.vml_sub, [.obj .vector .d true, .obj (.view1D .mat) .d true, .obj (.view1D .vec) .d false], .vmlvec_vvsub, [0, 1, 2]⟩,
  ⟨.vml_sub, [.obj .vector .d true, .obj (.view1D .mat) .d true, .obj (.view1D .mat) .d false], .vmlvec_vvsub, [0, 1, 2]⟩,
  ⟨.vml_sub, [.obj .vector .d true, .obj (.view1D .mat) .d true, .obj (.view1D .ten) .d false], .vmlvec_vvsub, [0, 1, 2]⟩,
  ⟨.vml_sub, [.obj .vector .d true, .obj (.view1D .ten) .d true, .obj .vector .d false], .vmlvec_vvsub, [0, 1, 2]⟩,
  ⟨.vml_sub, [.obj .vector .d true, .obj (.view1D .ten) .d true, .obj (.view1D .vec) .d false], .vmlvec_vvsub, [0, 1, 2]⟩,
  ⟨.vml_sub, [.obj .vector .d true, .obj (.view1D .ten) .d true, .obj (.view1D .mat) .d false], .vmlvec_vvsub, [0, 1, 2]⟩,
  ⟨.vml_sub, [.obj .vector .d true, .obj (.view1D .ten) .d true, .obj (.view1D .ten) .d false], .vmlvec_vvsub, [0, 1, 2]⟩,
  ⟨.vml_sub, [.obj (.view1D .vec) .d true, .obj .vector .d true, .obj .vector .d false], .vmlvec_vvsub, [0, 1, 2]⟩,
  ⟨.vml_sub, [.obj (.view1D .vec) .d true, .obj .vector .d true, .obj (.view1D .vec) .d false], .vmlvec_vvsub, [0, 1, 2]⟩,
  ⟨.vml_sub, [.obj (.view1D .vec) .d true, .obj .vector .d true, .obj (.view1D .mat) .d false], .vmlvec_vvsub, [0, 1, 2]⟩,
  ⟨.vml_sub, [.obj (.view1D .vec) .d true, .obj .vector .d true, .obj (.view1D .ten) .d false], .vmlvec_vvsub, [0, 1, 2]⟩,
  ⟨.vml_sub, [.obj (.view1D .vec) .d true, .obj (.view1D .vec) .d true, .obj .vector .d false], .vmlvec_vvsub, [0, 1, 2]⟩,
  ⟨.vml_sub, [.obj (.view1D .vec) .d true, .obj (.view1D .vec) .d true, .obj (.view1D .vec) .d false], .vmlvec_vvsub, [0, 1, 2]⟩,
  ⟨.vml_sub, [.obj (.view1D .vec) .d true, .obj (.view1D .vec) .d true, .obj (.view1D .mat) .d false], .vmlvec_vvsub, [0, 1, 2]⟩,
  ⟨.vml_sub, [.obj (.view1D .vec) .d true, .obj (.view1D .vec) .d true, .obj (.view1D .ten) .d false], .vmlvec_vvsub, [0, 1, 2]⟩,
  ⟨.vml_sub, [.obj (.view1D .vec) .d true, .obj (.view1D .mat) .d true, .obj .vector .d false], .vmlvec_vvsub, [0, 1, 2]⟩,
  ⟨.vml_sub, [.obj (.view1D .vec) .d true, .obj (.view1D .mat) .d true, .obj (.view1D .vec) .d false], .vmlvec_vvsub, [0, 1, 2]⟩,
  ⟨.vml_sub, [.obj (.view1D .vec) .d true, .obj (.view1D .mat) .d true, .obj (.view1D .mat) .d false], .vmlvec_vvsub, [0, 1, 2]⟩,
  ⟨.vml_sub, [.obj (.view1D .vec) .d true, .obj (.view1D .mat) .d true, .obj (.view1D .ten) .d false], .vmlvec_vvsub, [0, 1, 2]⟩,
  ⟨.vml_sub, [.obj (.view1D .vec) .d true, .obj (.view1D .ten) .d true, .obj .vector .d false], .vmlvec_vvsub, [0, 1, 2]⟩,
  ⟨.vml_sub, [.obj (.view1D .vec) .d true, .obj (.view1D .ten) .d true, .obj (.view1D .vec) .d false], .vmlvec_vvsub, [0, 1, 2]⟩,
  ⟨.vml_sub, [.obj (.view1D .vec) .d true, .obj (.view1D .ten) .d true, .obj (.view1D .mat) .d false], .vmlvec_vvsub, [0, 1, 2]⟩,
  ⟨.vml_sub, [.obj (.view1D .vec) .d true, .obj (.view1D .ten) .d true, .obj (.view1D .ten) .d false], .vmlvec_vvsub, [0, 1, 2]⟩]

/-- src/vml/vector/vector_vml.cpp:758-1122 -/
def tVmlVec_2 : List Overload := [
  ⟨.vml_sub, [.obj (.view1D .mat) .d true, .obj .vector .d true, .obj .vector .d false], .vmlvec_vvsub, [0, 1, 2]⟩,
  ⟨.vml_sub, [.obj (.view1D .mat) .d true, .obj .vector .d true, .obj (.view1D .vec) .d false], .vmlvec_vvsub, [0, 1, 2]⟩,
  ⟨.vml_sub, [.obj (.view1D .mat) .d true, .obj .vector .d true, .obj (.view1D .mat) .d false], .vmlvec_vvsub, [0, 1, 2]⟩,
  ⟨.vml_sub, [.obj (.view1D .mat) .d true, .obj .vector .d true, .obj (.view1D .ten) .d false], .vmlvec_vvsub, [0, 1, 2]⟩,
  ⟨.vml_sub, [.obj (.view1D .mat) .d true, .obj (.view1D .vec) .d true, .obj .vector .d false], .vmlvec_vvsub, [0, 1, 2]⟩,
  ⟨.vml_sub, [.obj (.view1D .mat) .d true, .obj (.view1D .vec) .d true, .obj (.view1D .vec) .d false], .vmlvec_vvsub, [0, 1, 2]⟩,
  ⟨.vml_sub, [.obj (.view1D .mat) .d true, .obj (.view1D .vec) .d true, .obj (.view1D .mat) .d false], .vmlvec_vvsub, [0, 1, 2]⟩,
  ⟨.vml_sub, [.obj (.view1D .mat) .d true, .obj (.view1D .vec) .d true, .obj (.view1D .ten) .d false], .vmlvec_vvsub, [0, 1, 2]⟩,
  ⟨.vml_sub, [.obj (.view1D .mat) .d true, .obj (.view1D .mat) .d true, .obj .vector .d false], .vmlvec_vvsub, [0, 1, 2]⟩,
  ⟨.vml_sub, [.obj (.view1D .mat) .d true, .obj (.view1D .mat) .d true, .obj (.view1D .vec) .d false], .vmlvec_vvsub, [0, 1, 2]⟩,
  ⟨.vml_sub, [.obj (.view1D .mat) .d true, .obj (.view1D .mat) .d true, .obj (.view1D .mat) .d false], .vmlvec_vvsub, [0, 1, 2]⟩,
  ⟨.vml_sub, [.obj (.view1D .mat) .d true, .obj (.view1D .mat) .d true, .obj (.view1D .ten) .d false], .vmlvec_vvsub, [0, 1, 2]⟩,
  ⟨.vml_sub, [.obj (.view1D .mat) .d true, .obj (.view1D .ten) .d true, .obj .vector .d false], .vmlvec_vvsub, [0, 1, 2]⟩,
  ⟨.vml_sub, [.obj (.view1D .mat) .d true, .obj (.view1D .ten) .d true, .obj (.view1D .vec) .d false], .vmlvec_vvsub, [0, 1, 2]⟩,
  ⟨.vml_sub, [.obj (.view1D .mat) .d true, .obj (.view1D .ten) .d true, .obj (.view1D .mat) .d false], .vmlvec_vvsub, [0, 1, 2]⟩,
  ⟨.vml_sub, [.obj (.view1D .mat) .d true, .obj (.view1D .ten) .d true, .obj (.view1D .ten) .d false], .vmlvec_vvsub, [0, 1, 2]⟩,
  ⟨.vml_sub, [.obj (.view1D .ten) .d true, .obj .vector .d true, .obj .vector .d false], .vmlvec_vvsub, [0, 1, 2]⟩,
  ⟨.vml_sub, [.obj (.view1D .ten) .d true, .obj .vector .d true, .obj (.view1D .vec) .d false], .vmlvec_vvsub, [0, 1, 2]⟩,
  ⟨.vml_sub, [.obj (.view1D .ten) .d true, .obj .vector .d true, .obj (.view1D .mat) .d false], .vmlvec_vvsub, [0, 1, 2]⟩,
  ⟨.vml_sub, [.obj (.view1D .ten) .d true, .obj .vector .d true, .obj (.view1D .ten) .d false], .vmlvec_vvsub, [0, 1, 2]⟩,
  ⟨.vml_sub, [.obj (.view1D .ten) .d true, .obj (.view1D .vec) .d true, .obj .vector .d false], .vmlvec_vvsub, [0, 1, 2]⟩,
  ⟨.vml_sub, [.obj (.view1D .ten) .d true, .obj (.view1D .vec) .d true, .obj (.view1D .vec) .d false], .vmlvec_vvsub, [0, 1, 2]⟩,
  ⟨.vml_sub, [.obj (.view1D .ten) .d true, .obj (.view1D .vec) .d true, .obj (.view1D .mat) .d false], .vmlvec_vvsub, [0, 1, 2]⟩,
  ⟨.vml_sub, [.obj (.view1D .ten) .d true, .obj (.view1D .vec) .d true, .obj (.view1D .ten) .d false], .vmlvec_vvsub, [0, 1, 2]⟩,
  ⟨.vml_sub, [.obj (.view1D .ten) .d true, .obj (.view1D .mat) .d true, .obj .vector .d false], .vmlvec_vvsub, [0, 1, 2]⟩,
  ⟨.vml_sub, [.obj (.view1D .ten) .d true, .obj (.view1D .mat) .d true, .obj (.view1D .vec) .d false], .vmlvec_vvsub, [0, 1, 2]⟩,
  ⟨.vml_sub, [.obj (.view1D .ten) .d true, .obj (.view1D .mat) .d true, .obj (.view1D .mat) .d false], .vmlvec_vvsub, [0, 1, 2]⟩,
  ⟨.vml_sub, [.obj (.view1D .ten) .d true, .obj (.view1D .mat) .d true, .obj (.view1D .ten) .d false], .vmlvec_vvsub, [0, 1, 2]⟩,
  ⟨.vml_sub, [.obj (.view1D .ten) .d true, .obj (.view1D .ten) .d true, .obj .vector .d false], .vmlvec_vvsub, [0, 1, 2]⟩,
  ⟨.vml_sub, [.obj (.view1D .ten) .d true, .obj (.view1D .ten) .d true, .obj (.view1D .vec) .d false], .vmlvec_vvsub, [0, 1, 2]⟩,
  ⟨.vml_sub, [.obj (.view1D .ten) .d true, .obj (.view1D .ten) .d true, .obj (.view1D .mat) .d false], .vmlvec_vvsub, [0, 1, 2]⟩,
  ⟨.vml_sub, [.obj (.view1D .ten) .d true, .obj (.view1D .ten) .d true, .obj (.view1D .ten) .d false], .vmlvec_vvsub, [0, 1, 2]⟩,
  ⟨.vml_sub, [.obj .vector .s true, .obj .vector .s true, .obj .vector .s false], .vmlvec_vvsub, [0, 1, 2]⟩,
  ⟨.vml_sub, [.obj .vector .s true, .obj .vector .s true, .obj (.view1D .vec) .s false], .vmlvec_vvsub, [0, 1, 2]⟩,
  ⟨.vml_sub, [.obj .vector .s true, .obj .vector .s true, .obj (.view1D .mat) .s false], .vmlvec_vvsub, [0, 1, 2]⟩,
  ⟨.vml_sub, [.obj .vector .s true, .obj .vector .s true, .obj (.view1D .ten) .s false], .vmlvec_vvsub, [0, 1, 2]⟩,
  ⟨.vml_sub, [.obj .vector .s true, .obj (.view1D .vec) .s true, .obj .vector .s false], .vmlvec_vvsub, [0, 1, 2]⟩,
  ⟨.vml_sub, [.obj .vector .s true, .obj (.view1D .vec) .s true, .obj (.view1D .vec) .s false], .vmlvec_vvsub, [0, 1, 2]⟩,
  ⟨.vml_sub, [.obj .vector .s true, .obj (.view1D .vec) .s true, .obj (.view1D .mat) .s false], .vmlvec_vvsub, [0, 1, 2]⟩,
  ⟨.vml_sub, [.obj .vector .s true, .obj (.view1D .vec) .s true, .obj (.view1D .ten) .s false], .vmlvec_vvsub, [0, 1, 2]⟩,
  ⟨.vml_sub, [.obj .vector .s true, .obj (.view1D .mat) .s true, .obj .vector .s false], .vmlvec_vvsub, [0, 1, 2]⟩,
  ⟨.vml_sub, [.obj .vector .s true, .obj (.view1D .mat) .s true, .obj (.view1D .vec) .s false], .vmlvec_vvsub, [0, 1, 2]⟩,
  ⟨.vml_sub, [.obj .vector .s true, .obj (.view1D .mat) .s true, .obj (.view1D .mat) .s false], .vmlvec_vvsub, [0, 1, 2]⟩,
  ⟨.vml_sub, [.obj .vector .s true, .obj (.view1D .mat) .s true, .obj (.view1D .ten) .s false], .vmlvec_vvsub, [0, 1, 2]⟩,
  ⟨.vml_sub, [.obj .vector .s true, .obj (.view1D .ten) .s true, .obj .vector .s false], .vmlvec_vvsub, [0, 1, 2]⟩,
  ⟨.vml_sub, [.obj .vector .s true, .obj (.view1D .ten) .s true, .obj (.view1D .vec) .s false], .vmlvec_vvsub, [0, 1, 2]⟩,
  ⟨.vml_sub, [.obj .vector .s true, .obj (.view1D .ten) .s true, .obj (.view1D .mat) .s false], .vmlvec_vvsub, [0, 1, 2]⟩,
  ⟨.vml_sub, [.obj .vector .s true, .obj (.view1D .ten) .s true, .obj (.view1D .ten) .s false], .vmlvec_vvsub, [0, 1, 2]⟩,
  ⟨.vml_sub, [.obj (.view1D .vec) .s true, .obj .vector .s true, .obj .vector .s false], .vmlvec_vvsub, [0, 1, 2]⟩,
  ⟨.vml_sub, [.obj (.view1D .vec) .s true, .obj .vector .s true, .obj (.view1D .vec) .s false], .vmlvec_vvsub, [0, 1, 2]⟩,
  ⟨.vml_sub, [.obj (.view1D .vec) .s true, .obj .vector .s true, .obj (.view1D .mat) .s false], .vmlvec_vvsub, [0, 1, 2]⟩,
  ⟨.vml_sub, [.obj (.view1D .vec) .s true, .obj .vector .s true, .obj (.view1D .ten) .s false], .vmlvec_vvsub, [0, 1, 2]⟩,
  ⟨.vml_sub, [.obj (.view1D .vec) .s true, .obj (.view1D .vec) .s true, .obj .vector .s false], .vmlvec_vvsub, [0, 1, 2]⟩,
  ⟨.vml_sub, [.obj (.view1D .vec) .s true, .obj (.view1D .vec) .s true, .obj (.view1D .vec) .s false], .vmlvec_vvsub, [0, 1, 2]⟩,
  ⟨.vml_sub, [.obj (.view1D .vec) .s true, .obj (.view1D .vec) .s true, .obj (.view1D .mat) .s false], .vmlvec_vvsub, [0, 1, 2]⟩,
  ⟨.vml_sub, [.obj (.view1D .vec) .s true, .obj (.view1D .vec) .s true, .obj (.view1D .ten) .s false], .vmlvec_vvsub, [0, 1, 2]⟩,
  ⟨.vml_sub, [.obj (.view1D .vec) .s true, .obj (.view1D .mat) .s true, .obj .vector .s false], .vmlvec_vvsub, [0, 1, 2]⟩,
  ⟨.vml_sub, [.obj (.view1D .vec) .s true, .obj (.view1D .mat) .s true, .obj (.view1D .vec) .s false], .vmlvec_vvsub, [0, 1, 2]⟩,
  ⟨.vml_sub, [.obj (.view1D .vec) .s true, .obj (.view1D .mat) .s true, .obj (.view1D .mat) .s false], .vmlvec_vvsub, [0, 1, 2]⟩,
  ⟨.vml_sub, [.obj (.view1D .vec) .s true, .obj (.view1D .mat) .s true, .obj (.view1D .ten) .s false], .vmlvec_vvsub, [0, 1, 2]⟩,
  ⟨.vml_sub, [.obj (.view1D .vec) .s true, .obj (.view1D .ten) .s true, .obj .vector .s false], .vmlvec_vvsub, [0, 1, 2]⟩,
  ⟨.vml_sub, [.obj (.view1D .vec) .s true, .obj (.view1D .ten) .s true, .obj (.view1D .vec) .s false], .vmlvec_vvsub, [0, 1, 2]⟩,
  ⟨.vml_sub, [.obj (.view1D .vec) .s true, .obj (.view1D .ten) .s true, .obj (.view1D .mat) .s false], .vmlvec_vvsub, [0, 1, 2]⟩,
  ⟨.vml_sub, [.obj (.view1D .vec) .s true, .obj (.view1D .ten) .s true, .obj (.view1D .ten) .s false], .vmlvec_vvsub, [0, 1, 2]⟩,
  ⟨.vml_sub, [.obj (.view1D .mat) .s true, .obj .vector .s true, .obj .vector .s false], .vmlvec_vvsub, [0, 1, 2]⟩,
  ⟨.vml_sub, [.obj (.view1D .mat) .s true, .obj .vector .s true, .obj (.view1D .vec) .s false], .vmlvec_vvsub, [0, 1, 2]⟩,
  ⟨.vml_sub, [.obj (.view1D .mat) .s true, .obj .vector .s true, .obj (.view1D .mat) .s false], .vmlvec_vvsub, [0, 1, 2]⟩,
  ⟨.vml_sub, [.obj (.view1D .mat) .s true, .obj .vector .s true, .obj (.view1D .ten) .s false], .vmlvec_vvsub, [0, 1, 2]⟩,
  ⟨.vml_sub, [.obj (.view1D .mat) .s true, .obj (.view1D .vec) .s true, .obj .vector .s false], .vmlvec_vvsub, [0, 1, 2]⟩,
  ⟨.vml_sub, [.obj (.view1D .mat) .s true, .obj (.view1D .vec) .s true, .obj (.view1D .vec) .s false], .vmlvec_vvsub, [0, 1, 2]⟩,
  ⟨.vml_sub, [.obj (.view1D .mat) .s true, .obj (.view1D .vec) .s true, .obj (.view1D .mat) .s false], .vmlvec_vvsub, [0, 1, 2]⟩,
  ⟨.vml_sub, [.obj (.view1D .mat) .s true, .obj (.view1D .vec) .s true, .obj (.view1D .ten) .s false], .vmlvec_vvsub, [0, 1, 2]⟩,
  ⟨.vml_sub, [.obj (.view1D .mat) .s true, .obj (.view1D .mat) .s true, .obj .vector .s false], .vmlvec_vvsub, [0, 1, 2]⟩,
  ⟨.vml_sub, [.obj (.view1D .mat) .s true, .obj (.view1D .mat) .s true, .obj (.view1D .vec) .s false], .vmlvec_vvsub, [0, 1, 2]⟩,
  ⟨.vml_sub, [.obj (.view1D .mat) .s true, .obj (.view1D .mat) .s true, .obj (.view1D .mat) .s false], .vmlvec_vvsub, [0, 1, 2]⟩,
  ⟨.vml_sub, [.obj (.view1D .mat) .s true, .obj (.view1D .mat) .s true, .obj (.view1D .ten) .s false], .vmlvec_vvsub, [0, 1, 2]⟩,
  ⟨.vml_sub, [.obj (.view1D .mat) .s true, .obj (.view1D .ten) .s true, .obj .vector .s false], .vmlvec_vvsub, [0, 1, 2]⟩,
  ⟨.vml_sub, [.obj (.view1D .mat) .s true, .obj (.view1D .ten) .s true, .obj (.view1D .vec) .s false], .vmlvec_vvsub, [0, 1, 2]⟩,
  ⟨.vml_sub, [.obj (.view1D .mat) .s true, .obj (.view1D .ten) .s true, .obj (.view1D .mat) .s false], .vmlvec_vvsub, [0, 1, 2]⟩,
  ⟨.vml_sub, [.obj (.view1D .mat) .s true, .obj (.view1D .ten) .s true, .obj (.view1D .ten) .s false], .vmlvec_vvsub, [0, 1, 2]⟩]

/-- src/vml/vector/vector_vml.cpp:1123-1491 -/
def tVmlVec_3 : List Overload := [
  ⟨.vml_sub, [.obj (.view1D .ten) .s true, .obj .vector .s true, .obj .vector .s false], .vmlvec_vvsub, [0, 1, 2]⟩,
  ⟨.vml_sub, [.obj (.view1D .ten) .s true, .obj .vector .s true, .obj (.view1D .vec) .s false], .vmlvec_vvsub, [0, 1, 2]⟩,
  ⟨.vml_sub, [.obj (.view1D .ten) .s true, .obj .vector .s true, .obj (.view1D .mat) .s false], .vmlvec_vvsub, [0, 1, 2]⟩,
  ⟨.vml_sub, [.obj (.view1D .ten) .s true, .obj .vector .s true, .obj (.view1D .ten) .s false], .vmlvec_vvsub, [0, 1, 2]⟩,
  ⟨.vml_sub, [.obj (.view1D .ten) .s true, .obj (.view1D .vec) .s true, .obj .vector .s false], .vmlvec_vvsub, [0, 1, 2]⟩,
  ⟨.vml_sub, [.obj (.view1D .ten) .s true, .obj (.view1D .vec) .s true, .obj (.view1D .vec) .s false], .vmlvec_vvsub, [0, 1, 2]⟩,
  ⟨.vml_sub, [.obj (.view1D .ten) .s true, .obj (.view1D .vec) .s true, .obj (.view1D .mat) .s false], .vmlvec_vvsub, [0, 1, 2]⟩,
  ⟨.vml_sub, [.obj (.view1D .ten) .s true, .obj (.view1D .vec) .s true, .obj (.view1D .ten) .s false], .vmlvec_vvsub, [0, 1, 2]⟩,
  ⟨.vml_sub, [.obj (.view1D .ten) .s true, .obj (.view1D .mat) .s true, .obj .vector .s false], .vmlvec_vvsub, [0, 1, 2]⟩,
  ⟨.vml_sub, [.obj (.view1D .ten) .s true, .obj (.view1D .mat) .s true, .obj (.view1D .vec) .s false], .vmlvec_vvsub, [0, 1, 2]⟩,
  ⟨.vml_sub, [.obj (.view1D .ten) .s true, .obj (.view1D .mat) .s true, .obj (.view1D .mat) .s false], .vmlvec_vvsub, [0, 1, 2]⟩,
  ⟨.vml_sub, [.obj (.view1D .ten) .s true, .obj (.view1D .mat) .s true, .obj (.view1D .ten) .s false], .vmlvec_vvsub, [0, 1, 2]⟩,
  ⟨.vml_sub, [.obj (.view1D .ten) .s true, .obj (.view1D .ten) .s true, .obj .vector .s false], .vmlvec_vvsub, [0, 1, 2]⟩,
  ⟨.vml_sub, [.obj (.view1D .ten) .s true, .obj (.view1D .ten) .s true, .obj (.view1D .vec) .s false], .vmlvec_vvsub, [0, 1, 2]⟩,
  ⟨.vml_sub, [.obj (.view1D .ten) .s true, .obj (.view1D .ten) .s true, .obj (.view1D .mat) .s false], .vmlvec_vvsub, [0, 1, 2]⟩,
  ⟨.vml_sub, [.obj (.view1D .ten) .s true, .obj (.view1D .ten) .s true, .obj (.view1D .ten) .s false], .vmlvec_vvsub, [0, 1, 2]⟩,
  ⟨.vml_mul, [.obj .vector .d true, .obj .vector .d true, .obj .vector .d false], .vmlvec_vvmul, [0, 1, 2]⟩,
  ⟨.vml_mul, [.obj .vector .d true, .obj .vector .d true, .obj (.view1D .vec) .d false], .vmlvec_vvmul, [0, 1, 2]⟩,
  ⟨.vml_mul, [.obj .vector .d true, .obj .vector .d true, .obj (.view1D .mat) .d false], .vmlvec_vvmul, [0, 1, 2]⟩,
  ⟨.vml_mul, [.obj .vector .d true, .obj .vector .d true, .obj (.view1D .ten) .d false], .vmlvec_vvmul, [0, 1, 2]⟩,
  ⟨.vml_mul, [.obj .vector .d true, .obj (.view1D .vec) .d true, .obj .vector .d false], .vmlvec_vvmul, [0, 1, 2]⟩,
  ⟨.vml_mul, [.obj .vector .d true, .obj (.view1D .vec) .d true, .obj (.view1D .vec) .d false], .vmlvec_vvmul, [0, 1, 2]⟩,
  ⟨.vml_mul, [.obj .vector .d true, .obj (.view1D .vec) .d true, .obj (.view1D .mat) .d false], .vmlvec_vvmul, [0, 1, 2]⟩,
  ⟨.vml_mul, [.obj .vector .d true, .obj (.view1D .vec) .d true, .obj (.view1D .ten) .d false], .vmlvec_vvmul, [0, 1, 2]⟩,
  ⟨.vml_mul, [.obj .vector .d true, .obj (.view1D .mat) .d true, .obj .vector .d false], .vmlvec_vvmul, [0, 1, 2]⟩,
  ⟨.vml_mul, [.obj .vector .d true, .obj (.view1D .mat) .d true, .obj (.view1D .vec) .d false], .vmlvec_vvmul, [0, 1, 2]⟩,
  ⟨.vml_mul, [.obj .vector .d true, .obj (.view1D .mat) .d true, .obj (.view1D .mat) .d false], .vmlvec_vvmul, [0, 1, 2]⟩,
  ⟨.vml_mul, [.obj .vector .d true, .obj (.view1D .mat) .d true, .obj (.view1D .ten) .d false], .vmlvec_vvmul, [0, 1, 2]⟩,
  ⟨.vml_mul, [.obj .vector .d true, .obj (.view1D .ten) .d true, .obj .vector .d false], .vmlvec_vvmul, [0, 1, 2]⟩,
  ⟨.vml_mul, [.obj .vector .d true, .obj (.view1D .ten) .d true, .obj (.view1D .vec) .d false], .vmlvec_vvmul, [0, 1, 2]⟩,
  ⟨.vml_mul, [.obj .vector .d true, .obj (.view1D .ten) .d true, .obj (.view1D .mat) .d false], .vmlvec_vvmul, [0, 1, 2]⟩,
  ⟨.vml_mul, [.obj .vector .d true, .obj (.view1D .ten) .d true, .obj (.view1D .ten) .d false], .vmlvec_vvmul, [0, 1, 2]⟩,
  ⟨.vml_mul, [.obj (.view1D .vec) .d true, .obj .vector .d true, .obj .vector .d false], .vmlvec_vvmul, [0, 1, 2]⟩,
  ⟨.vml_mul, [.obj (.view1D .vec) .d true, .obj .vector .d true, .obj (.view1D .vec) .d false], .vmlvec_vvmul, [0, 1, 2]⟩,
  ⟨.vml_mul, [.obj (.view1D .vec) .d true, .obj .vector .d true, .obj (.view1D .mat) .d false], .vmlvec_vvmul, [0, 1, 2]⟩,
  ⟨.vml_mul, [.obj (.view1D .vec) .d true, .obj .vector .d true, .obj (.view1D .ten) .d false], .vmlvec_vvmul, [0, 1, 2]⟩,
  ⟨.vml_mul, [.obj (.view1D .vec) .d true, .obj (.view1D .vec) .d true, .obj .vector .d false], .vmlvec_vvmul, [0, 1, 2]⟩,
  ⟨.vml_mul, [.obj (.view1D .vec) .d true, .obj (.view1D .vec) .d true, .obj (.view1D .vec) .d false], .vmlvec_vvmul, [0, 1, 2]⟩,
  ⟨.vml_mul, [.obj (.view1D .vec) .d true, .obj (.view1D .vec) .d true, .obj (.view1D .mat) .d false], .vmlvec_vvmul, [0, 1, 2]⟩,
  ⟨.vml_mul, [.obj (.view1D .vec) .d true, .obj (.view1D .vec) .d true, .obj (.view1D .ten) .d false], .vmlvec_vvmul, [0, 1, 2]⟩,
  ⟨.vml_mul, [.obj (.view1D .vec) .d true, .obj (.view1D .mat) .d true, .obj .vector .d false], .vmlvec_vvmul, [0, 1, 2]⟩,
  ⟨.vml_mul, [.obj (.view1D .vec) .d true, .obj (.view1D .mat) .d true, .obj (.view1D .vec) .d false], .vmlvec_vvmul, [0, 1, 2]⟩,
  ⟨.vml_mul, [.obj (.view1D .vec) .d true, .obj (.view1D .mat) .d true, .obj (.view1D .mat) .d false], .vmlvec_vvmul, [0, 1, 2]⟩,
  ⟨.vml_mul, [.obj (.view1D .vec) .d true, .obj (.view1D .mat) .d true, .obj (.view1D .ten) .d false], .vmlvec_vvmul, [0, 1, 2]⟩,
  ⟨.vml_mul, [.obj (.view1D .vec) .d true, .obj (.view1D .ten) .d true, .obj .vector .d false], .vmlvec_vvmul, [0, 1, 2]⟩,
  ⟨.vml_mul, [.obj (.view1D .vec) .d true, .obj (.view1D .ten) .d true, .obj (.view1D .vec) .d false], .vmlvec_vvmul, [0, 1, 2]⟩,
  ⟨.vml_mul, [.obj (.view1D .vec) .d true, .obj (.view1D .ten) .d true, .obj (.view1D .mat) .d false], .vmlvec_vvmul, [0, 1, 2]⟩,
  ⟨.vml_mul, [.obj (.view1D .vec) .d true, .obj (.view1D .ten) .d true, .obj (.view1D .ten) .d false], .vmlvec_vvmul, [0, 1, 2]⟩,
  ⟨.vml_mul, [.obj (.view1D .mat) .d true, .obj .vector .d true, .obj .vector .d false], .vmlvec_vvmul, [0, 1, 2]⟩,
  ⟨.vml_mul, [.obj (.view1D .mat) .d true, .obj .vector .d true, .obj (.view1D .vec) .d false], .vmlvec_vvmul, [0, 1, 2]⟩,
  ⟨.vml_mul, [.obj (.view1D .mat) .d true, .obj .vector .d true, .obj (.view1D .mat) .d false], .vmlvec_vvmul, [0, 1, 2]⟩,
  ⟨.vml_mul, [.obj (.view1D .mat) .d true, .obj .vector .d true, .obj (.view1D .ten) .d false], .vmlvec_vvmul, [0, 1, 2]⟩,
  ⟨.vml_mul, [.obj (.view1D .mat) .d true, .obj (.view1D .vec) .d true, .obj .vector .d false], .vmlvec_vvmul, [0, 1, 2]⟩,
  ⟨.vml_mul, [.obj (.view1D .mat) .d true, .obj (.view1D .vec) .d true, .obj (.view1D .vec) .d false], .vmlvec_vvmul, [0, 1, 2]⟩,
  ⟨.vml_mul, [.obj (.view1D .mat) .d true, .obj (.view1D .vec) .d true, .obj (.view1D .mat) .d false], .vmlvec_vvmul, [0, 1, 2]⟩,
  ⟨.vml_mul, [.obj (.view1D .mat) .d true, .obj (.view1D .vec) .d true, .obj (.view1D .ten) .d false], .vmlvec_vvmul, [0, 1, 2]⟩,
  ⟨.vml_mul, [.obj (.view1D .mat) .d true, .obj (.view1D .mat) .d true, .obj .vector .d false], .vmlvec_vvmul, [0, 1, 2]⟩,
  ⟨.vml_mul, [.obj (.view1D .mat) .d true, .obj (.view1D .mat) .d true, .obj (.view1D .vec) .d false], .vmlvec_vvmul, [0, 1, 2]⟩,
  ⟨.vml_mul, [.obj (.view1D .mat) .d true, .obj (.view1D .mat) .d true, .obj (.view1D .mat) .d false], .vmlvec_vvmul, [0, 1, 2]⟩,
  ⟨.vml_mul, [.obj (.view1D .mat) .d true, .obj (.view1D .mat) .d true, .obj (.view1D .ten) .d false], .vmlvec_vvmul, [0, 1, 2]⟩,
  ⟨.vml_mul, [.obj (.view1D .mat) .d true, .obj (.view1D .ten) .d true, .obj .vector .d false], .vmlvec_vvmul, [0, 1, 2]⟩,
  ⟨.vml_mul, [.obj (.view1D .mat) .d true, .obj (.view1D .ten) .d true, .obj (.view1D .vec) .d false], .vmlvec_vvmul, [0, 1, 2]⟩,
  ⟨.vml_mul, [.obj (.view1D .mat) .d true, .obj (.view1D .ten) .d true, .obj (.view1D .mat) .d false], .vmlvec_vvmul, [0, 1, 2]⟩,
  ⟨.vml_mul, [.obj (.view1D .mat) .d true, .obj (.view1D .ten) .d true, .obj (.view1D .ten) .d false], .vmlvec_vvmul, [0, 1, 2]⟩,
  ⟨.vml_mul, [.obj (.view1D .ten) .d true, .obj .vector .d true, .obj .vector .d false], .vmlvec_vvmul, [0, 1, 2]⟩,
  ⟨.vml_mul, [.obj (.view1D .ten) .d true, .obj .vector .d true, .obj (.view1D .vec) .d false], .vmlvec_vvmul, [0, 1, 2]⟩,
  ⟨.vml_mul, [.obj (.view1D .ten) .d true, .obj .vector .d true, .obj (.view1D .mat) .d false], .vmlvec_vvmul, [0, 1, 2]⟩,
  ⟨.vml_mul, [.obj (.view1D .ten) .d true, .obj .vector .d true, .obj (.view1D .ten) .d false], .vmlvec_vvmul, [0, 1, 2]⟩,
  ⟨.vml_mul, [.obj (.view1D .ten) .d true, .obj (.view1D .vec) .d true, .obj .vector .d false], .vmlvec_vvmul, [0, 1, 2]⟩,
  ⟨.vml_mul, [.obj (.view1D .ten) .d true, .obj (.view1D .vec) .d true, .obj (.view1D .vec) .d false], .vmlvec_vvmul, [0, 1, 2]⟩,
  ⟨.vml_mul, [.obj (.view1D .ten) .d true, .obj (.view1D .vec) .d true, .obj (.view1D .mat) .d false], .vmlvec_vvmul, [0, 1, 2]⟩,
  ⟨.vml_mul, [.obj (.view1D .ten) .d true, .obj (.view1D .vec) .d true, .obj (.view1D .ten) .d false], .vmlvec_vvmul, [0, 1, 2]⟩,
  ⟨.vml_mul, [.obj (.view1D .ten) .d true, .obj (.view1D .mat) .d true, .obj .vector .d false], .vmlvec_vvmul, [0, 1, 2]⟩,
  ⟨.vml_mul, [.obj (.view1D .ten) .d true, .obj (.view1D .mat) .d true, .obj (.view1D .vec) .d false], .vmlvec_vvmul, [0, 1, 2]⟩,
  ⟨.vml_mul, [.obj (.view1D .ten) .d true, .obj (.view1D .mat) .d true, .obj (.view1D .mat) .d false], .vmlvec_vvmul, [0, 1, 2]⟩,
  ⟨.vml_mul, [.obj (.view1D .ten) .d true, .obj (.view1D .mat) .d true, .obj (.view1D .ten) .d false], .vmlvec_vvmul, [0, 1, 2]⟩,
  ⟨.vml_mul, [.obj (.view1D .ten) .d true, .obj (.view1D .ten) .d true, .obj .vector .d false], .vmlvec_vvmul, [0, 1, 2]⟩,
  ⟨.vml_mul, [.obj (.view1D .ten) .d true, .obj (.view1D .ten) .d true, .obj (.view1D .vec) .d false], .vmlvec_vvmul, [0, 1, 2]⟩,
  ⟨.vml_mul, [.obj (.view1D .ten) .d true, .obj (.view1D .ten) .d true, .obj (.view1D .mat) .d false], .vmlvec_vvmul, [0, 1, 2]⟩,
  ⟨.vml_mul, [.obj (.view1D .ten) .d true, .obj (.view1D .ten) .d true, .obj (.view1D .ten) .d false], .vmlvec_vvmul, [0, 1, 2]⟩]

/-- src/vml/vector/vector_vml.cpp:1492-1851 -/
def tVmlVec_4 : List Overload := [
  ⟨.vml_mul, [.obj .vector .s true, .obj .vector .s true, .obj .vector .s false], .vmlvec_vvmul, [0, 1, 2]⟩,
  ⟨.vml_mul, [.obj .vector .s true, .obj .vector .s true, .obj (.view1D .vec) .s false], .vmlvec_vvmul, [0, 1, 2]⟩,
  ⟨.vml_mul, [.obj .vector .s true, .obj .vector .s true, .obj (.view1D .mat) .s false], .vmlvec_vvmul, [0, 1, 2]⟩,
  ⟨.vml_mul, [.obj .vector .s true, .obj .vector .s true, .obj (.view1D .ten) .s false], .vmlvec_vvmul, [0, 1, 2]⟩,
  ⟨.vml_mul, [.obj .vector .s true, .obj (.view1D .vec) .s true, .obj .vector .s false], .vmlvec_vvmul, [0, 1, 2]⟩,
  ⟨.vml_mul, [.obj .vector .s true, .obj (.view1D .vec) .s true, .obj (.view1D .vec) .s false], .vmlvec_vvmul, [0, 1, 2]⟩,
  ⟨.vml_mul, [.obj .vector .s true, .obj (.view1D .vec) .s true, .obj (.view1D .mat) .s false], .vmlvec_vvmul, [0, 1, 2]⟩,
  ⟨.vml_mul, [.obj .vector .s true, .obj (.view1D .vec) .s true, .obj (.view1D .ten) .s false], .vmlvec_vvmul, [0, 1, 2]⟩,
  ⟨.vml_mul, [.obj .vector .s true, .obj (.view1D .mat) .s true, .obj .vector .s false], .vmlvec_vvmul, [0, 1, 2]⟩,
  ⟨.vml_mul, [.obj .vector .s true, .obj (.view1D .mat) .s true, .obj (.view1D .vec) .s false], .vmlvec_vvmul, [0, 1, 2]⟩,
  ⟨.vml_mul, [.obj .vector .s true, .obj (.view1D .mat) .s true, .obj (.view1D .mat) .s false], .vmlvec_vvmul, [0, 1, 2]⟩,
  ⟨.vml_mul, [.obj .vector .s true, .obj (.view1D .mat) .s true, .obj (.view1D .ten) .s false], .vmlvec_vvmul, [0, 1, 2]⟩,
  ⟨.vml_mul, [.obj .vector .s true, .obj (.view1D .ten) .s true, .obj .vector .s false], .vmlvec_vvmul, [0, 1, 2]⟩,
  ⟨.vml_mul, [.obj .vector .s true, .obj (.view1D .ten) .s true, .obj (.view1D .vec) .s false], .vmlvec_vvmul, [0, 1, 2]⟩,
  ⟨.vml_mul, [.obj .vector .s true, .obj (.view1D .ten) .s true, .obj (.view1D .mat) .s false], .vmlvec_vvmul, [0, 1, 2]⟩,
  ⟨.vml_mul, [.obj .vector .s true, .obj (.view1D .ten) .s true, .obj (.view1D .ten) .s false], .vmlvec_vvmul, [0, 1, 2]⟩,
  ⟨.vml_mul, [.obj (.view1D .vec) .s true, .obj .vector .s true, .obj .vector .s false], .vmlvec_vvmul, [0, 1, 2]⟩,
  ⟨.vml_mul, [.obj (.view1D .vec) .s true, .obj .vector .s true, .obj (.view1D .vec) .s false], .vmlvec_vvmul, [0, 1, 2]⟩,
  ⟨.vml_mul, [.obj (.view1D .vec) .s true, .obj .vector .s true, .obj (.view1D .mat) .s false], .vmlvec_vvmul, [0, 1, 2]⟩,
  ⟨.vml_mul, [.obj (.view1D .vec) .s true, .obj .vector .s true, .obj (.view1D .ten) .s false], .vmlvec_vvmul, [0, 1, 2]⟩,
  ⟨.vml_mul, [.obj (.view1D .vec) .s true, .obj (.view1D .vec) .s true, .obj .vector .s false], .vmlvec_vvmul, [0, 1, 2]⟩,
  ⟨.vml_mul, [.obj (.view1D .vec) .s true, .obj (.view1D .vec) .s true, .obj (.view1D .vec) .s false], .vmlvec_vvmul, [0, 1, 2]⟩,
  ⟨.vml_mul, [.obj (.view1D .vec) .s true, .obj (.view1D .vec) .s true, .obj (.view1D .mat) .s false], .vmlvec_vvmul, [0, 1, 2]⟩,
  ⟨.vml_mul, [.obj (.view1D .vec) .s true, .obj (.view1D .vec) .s true, .obj (.view1D .ten) .s false], .vmlvec_vvmul, [0, 1, 2]⟩,
  ⟨.vml_mul, [.obj (.view1D .vec) .s true, .obj (.view1D .mat) .s true, .obj .vector .s false], .vmlvec_vvmul, [0, 1, 2]⟩,
  ⟨.vml_mul, [.obj (.view1D .vec) .s true, .obj (.view1D .mat) .s true, .obj (.view1D .vec) .s false], .vmlvec_vvmul, [0, 1, 2]⟩,
  ⟨.vml_mul, [.obj (.view1D .vec) .s true, .obj (.view1D .mat) .s true, .obj (.view1D .mat) .s false], .vmlvec_vvmul, [0, 1, 2]⟩,
  ⟨.vml_mul, [.obj (.view1D .vec) .s true, .obj (.view1D .mat) .s true, .obj (.view1D .ten) .s false], .vmlvec_vvmul, [0, 1, 2]⟩,
  ⟨.vml_mul, [.obj (.view1D .vec) .s true, .obj (.view1D .ten) .s true, .obj .vector .s false], .vmlvec_vvmul, [0, 1, 2]⟩,
  ⟨.vml_mul, [.obj (.view1D .vec) .s true, .obj (.view1D .ten) .s true, .obj (.view1D .vec) .s false], .vmlvec_vvmul, [0, 1, 2]⟩,
  ⟨.vml_mul, [.obj (.view1D .vec) .s true, .obj (.view1D .ten) .s true, .obj (.view1D .mat) .s false], .vmlvec_vvmul, [0, 1, 2]⟩,
  ⟨.vml_mul, [.obj (.view1D .vec) .s true, .obj (.view1D .ten) .s true, .obj (.view1D .ten) .s false], .vmlvec_vvmul, [0, 1, 2]⟩,
  ⟨.vml_mul, [.obj (.view1D .mat) .s true, .obj .vector .s true, .obj .vector .s false], .vmlvec_vvmul, [0, 1, 2]⟩,
  ⟨.vml_mul, [.obj (.view1D .mat) .s true, .obj .vector .s true, .obj (.view1D .vec) .s false], .vmlvec_vvmul, [0, 1, 2]⟩,
  ⟨.vml_mul, [.obj (.view1D .mat) .s true, .obj .vector .s true, .obj (.view1D .mat) .s false], .vmlvec_vvmul, [0, 1, 2]⟩,
  ⟨.vml_mul, [.obj (.view1D .mat) .s true, .obj .vector .s true, .obj (.view1D .ten) .s false], .vmlvec_vvmul, [0, 1, 2]⟩,
  ⟨.vml_mul, [.obj (.view1D .mat) .s true, .obj (.view1D .vec) .s true, .obj .vector .s false], .vmlvec_vvmul, [0, 1, 2]⟩,
  ⟨.vml_mul, [.obj (.view1D .mat) .s true, .obj (.view1D .vec) .s true, .obj (.view1D .vec) .s false], .vmlvec_vvmul, [0, 1, 2]⟩,
  ⟨.vml_mul, [.obj (.view1D .mat) .s true, .obj (.view1D .vec) .s true, .obj (.view1D .mat) .s false], .vmlvec_vvmul, [0, 1, 2]⟩,
  ⟨.vml_mul, [.obj (.view1D .mat) .s true, .obj (.view1D .vec) .s true, .obj (.view1D .ten) .s false], .vmlvec_vvmul, [0, 1, 2]⟩,
  ⟨.vml_mul, [.obj (.view1D .mat) .s true, .obj (.view1D .mat) .s true, .obj .vector .s false], .vmlvec_vvmul, [0, 1, 2]⟩,
  ⟨.vml_mul, [.obj (.view1D .mat) .s true, .obj (.view1D .mat) .s true, .obj (.view1D .vec) .s false], .vmlvec_vvmul, [0, 1, 2]⟩,
  ⟨.vml_mul, [.obj (.view1D .mat) .s true, .obj (.view1D .mat) .s true, .obj (.view1D .mat) .s false], .vmlvec_vvmul, [0, 1, 2]⟩,
  ⟨.vml_mul, [.obj (.view1D .mat) .s true, .obj (.view1D .mat) .s true, .obj (.view1D .ten) .s false], .vmlvec_vvmul, [0, 1, 2]⟩,
  ⟨.vml_mul, [.obj (.view1D .mat) .s true, .obj (.view1D .ten) .s true, .obj .vector .s false], .vmlvec_vvmul, [0, 1, 2]⟩,
  ⟨.vml_mul, [.obj (.view1D .mat) .s true, .obj (.view1D .ten) .s true, .obj (.view1D .vec) .s false], .vmlvec_vvmul, [0, 1, 2]⟩,
  ⟨.vml_mul, [.obj (.view1D .mat) .s true, .obj (.view1D .ten) .s true, .obj (.view1D .mat) .s false], .vmlvec_vvmul, [0, 1, 2]⟩,
  ⟨.vml_mul, [.obj (.view1D .mat) .s true, .obj (.view1D .ten) .s true, .obj (.view1D .ten) .s false], .vmlvec_vvmul, [0, 1, 2]⟩,
  ⟨.vml_mul, [.obj (.view1D .ten) .s true, .obj .vector .s true, .obj .vector .s false], .vmlvec_vvmul, [0, 1, 2]⟩,
  ⟨.vml_mul, [.obj (.view1D .ten) .s true, .obj .vector .s true, .obj (.view1D .vec) .s false], .vmlvec_vvmul, [0, 1, 2]⟩,
  ⟨.vml_mul, [.obj (.view1D .ten) .s true, .obj .vector .s true, .obj (.view1D .mat) .s false], .vmlvec_vvmul, [0, 1, 2]⟩,
  ⟨.vml_mul, [.obj (.view1D .ten) .s true, .obj .vector .s true, .obj (.view1D .ten) .s false], .vmlvec_vvmul, [0, 1, 2]⟩,
  ⟨.vml_mul, [.obj (.view1D .ten) .s true, .obj (.view1D .vec) .s true, .obj .vector .s false], .vmlvec_vvmul, [0, 1, 2]⟩,
  ⟨.vml_mul, [.obj (.view1D .ten) .s true, .obj (.view1D .vec) .s true, .obj (.view1D .vec) .s false], .vmlvec_vvmul, [0, 1, 2]⟩,
  ⟨.vml_mul, [.obj (.view1D .ten) .s true, .obj (.view1D .vec) .s true, .obj (.view1D .mat) .s false], .vmlvec_vvmul, [0, 1, 2]⟩,
  ⟨.vml_mul, [.obj (.view1D .ten) .s true, .obj (.view1D .vec) .s true, .obj (.view1D .ten) .s false], .vmlvec_vvmul, [0, 1, 2]⟩,
  ⟨.vml_mul, [.obj (.view1D .ten) .s true, .obj (.view1D .mat) .s true, .obj .vector .s false], .vmlvec_vvmul, [0, 1, 2]⟩,
  ⟨.vml_mul, [.obj (.view1D .ten) .s true, .obj (.view1D .mat) .s true, .obj (.view1D .vec) .s false], .vmlvec_vvmul, [0, 1, 2]⟩,
  ⟨.vml_mul, [.obj (.view1D .ten) .s true, .obj (.view1D .mat) .s true, .obj (.view1D .mat) .s false], .vmlvec_vvmul, [0, 1, 2]⟩,
  ⟨.vml_mul, [.obj (.view1D .ten) .s true, .obj (.view1D .mat) .s true, .obj (.view1D .ten) .s false], .vmlvec_vvmul, [0, 1, 2]⟩,
  ⟨.vml_mul, [.obj (.view1D .ten) .s true, .obj (.view1D .ten) .s true, .obj .vector .s false], .vmlvec_vvmul, [0, 1, 2]⟩,
  ⟨.vml_mul, [.obj (.view1D .ten) .s true, .obj (.view1D .ten) .s true, .obj (.view1D .vec) .s false], .vmlvec_vvmul, [0, 1, 2]⟩,
  ⟨.vml_mul, [.obj (.view1D .ten) .s true, .obj (.view1D .ten) .s true, .obj (.view1D .mat) .s false], .vmlvec_vvmul, [0, 1, 2]⟩,
  ⟨.vml_mul, [.obj (.view1D .ten) .s true, .obj (.view1D .ten) .s true, .obj (.view1D .ten) .s false], .vmlvec_vvmul, [0, 1, 2]⟩,
  ⟨.vml_div, [.obj .vector .d true, .obj .vector .d true, .obj .vector .d false], .vmlvec_vvdiv, [0, 1, 2]⟩,
  ⟨.vml_div, [.obj .vector .d true, .obj .vector .d true, .obj (.view1D .vec) .d false], .vmlvec_vvdiv, [0, 1, 2]⟩,
  ⟨.vml_div, [.obj .vector .d true, .obj .vector .d true, .obj (.view1D .mat) .d false], .vmlvec_vvdiv, [0, 1, 2]⟩,
  ⟨.vml_div, [.obj .vector .d true, .obj .vector .d true, .obj (.view1D .ten) .d false], .vmlvec_vvdiv, [0, 1, 2]⟩,
  ⟨.vml_div, [.obj .vector .d true, .obj (.view1D .vec) .d true, .obj .vector .d false], .vmlvec_vvdiv, [0, 1, 2]⟩,
  ⟨.vml_div, [.obj .vector .d true, .obj (.view1D .vec) .d true, .obj (.view1D .vec) .d false], .vmlvec_vvdiv, [0, 1, 2]⟩,
  ⟨.vml_div, [.obj .vector .d true, .obj (.view1D .vec) .d true, .obj (.view1D .mat) .d false], .vmlvec_vvdiv, [0, 1, 2]⟩,
  ⟨.vml_div, [.obj .vector .d true, .obj (.view1D .vec) .d true, .obj (.view1D .ten) .d false], .vmlvec_vvdiv, [0, 1, 2]⟩,
  ⟨.vml_div, [.obj .vector .d true, .obj (.view1D .mat) .d true, .obj .vector .d false], .vmlvec_vvdiv, [0, 1, 2]⟩,
  ⟨.vml_div, [.obj .vector .d true, .obj (.view1D .mat) .d true, .obj (.view1D .vec) .d false], .vmlvec_vvdiv, [0, 1, 2]⟩,
  ⟨.vml_div, [.obj .vector .d true, .obj (.view1D .mat) .d true, .obj (.view1D .mat) .d false], .vmlvec_vvdiv, [0, 1, 2]⟩,
  ⟨.vml_div, [.obj .vector .d true, .obj (.view1D .mat) .d true, .obj (.view1D .ten) .d false], .vmlvec_vvdiv, [0, 1, 2]⟩,
  ⟨.vml_div, [.obj .vector .d true, .obj (.view1D .ten) .d true, .obj .vector .d false], .vmlvec_vvdiv, [0, 1, 2]⟩,
  ⟨.vml_div, [.obj .vector .d true, .obj (.view1D .ten) .d true, .obj (.view1D .vec) .d false], .vmlvec_vvdiv, [0, 1, 2]⟩,
  ⟨.vml_div, [.obj .vector .d true, .obj (.view1D .ten) .d true, .obj (.view1D .mat) .d false], .vmlvec_vvdiv, [0, 1, 2]⟩,
  ⟨.vml_div, [.obj .vector .d true, .obj (.view1D .ten) .d true, .obj (.view1D .ten) .d false], .vmlvec_vvdiv, [0, 1, 2]⟩]

/-- src/vml/vector/vector_vml.cpp:1852-2216 -/
def tVmlVec_5 : List Overload := [
  ⟨.vml_div, [.obj (.view1D .vec) .d true, .obj .vector .d true, .obj .vector .d false], .vmlvec_vvdiv, [0, 1, 2]⟩,
  ⟨.vml_div, [.obj (.view1D .vec) .d true, .obj .vector .d true, .obj (.view1D .vec) .d false], .vmlvec_vvdiv, [0, 1, 2]⟩,
  ⟨.vml_div, [.obj (.view1D .vec) .d true, .obj .vector .d true, .obj (.view1D .mat) .d false], .vmlvec_vvdiv, [0, 1, 2]⟩,
  ⟨.vml_div, [.obj (.view1D .vec) .d true, .obj .vector .d true, .obj (.view1D .ten) .d false], .vmlvec_vvdiv, [0, 1, 2]⟩,
  ⟨.vml_div, [.obj (.view1D .vec) .d true, .obj (.view1D .vec) .d true, .obj .vector .d false], .vmlvec_vvdiv, [0, 1, 2]⟩,
  ⟨.vml_div, [.obj (.view1D .vec) .d true, .obj (.view1D .vec) .d true, .obj (.view1D .vec) .d false], .vmlvec_vvdiv, [0, 1, 2]⟩,
  ⟨.vml_div, [.obj (.view1D .vec) .d true, .obj (.view1D .vec) .d true, .obj (.view1D .mat) .d false], .vmlvec_vvdiv, [0, 1, 2]⟩,
  ⟨.vml_div, [.obj (.view1D .vec) .d true, .obj (.view1D .vec) .d true, .obj (.view1D .ten) .d false], .vmlvec_vvdiv, [0, 1, 2]⟩,
  ⟨.vml_div, [.obj (.view1D .vec) .d true, .obj (.view1D .mat) .d true, .obj .vector .d false], .vmlvec_vvdiv, [0, 1, 2]⟩,
  ⟨.vml_div, [.obj (.view1D .vec) .d true, .obj (.view1D .mat) .d true, .obj (.view1D .vec) .d false], .vmlvec_vvdiv, [0, 1, 2]⟩,
  ⟨.vml_div, [.obj (.view1D .vec) .d true, .obj (.view1D .mat) .d true, .obj (.view1D .mat) .d false], .vmlvec_vvdiv, [0, 1, 2]⟩,
  ⟨.vml_div, [.obj (.view1D .vec) .d true, .obj (.view1D .mat) .d true, .obj (.view1D .ten) .d false], .vmlvec_vvdiv, [0, 1, 2]⟩,
  ⟨.vml_div, [.obj (.view1D .vec) .d true, .obj (.view1D .ten) .d true, .obj .vector .d false], .vmlvec_vvdiv, [0, 1, 2]⟩,
  ⟨.vml_div, [.obj (.view1D .vec) .d true, .obj (.view1D .ten) .d true, .obj (.view1D .vec) .d false], .vmlvec_vvdiv, [0, 1, 2]⟩,
  ⟨.vml_div, [.obj (.view1D .vec) .d true, .obj (.view1D .ten) .d true, .obj (.view1D .mat) .d false], .vmlvec_vvdiv, [0, 1, 2]⟩,
  ⟨.vml_div, [.obj (.view1D .vec) .d true, .obj (.view1D .ten) .d true, .obj (.view1D .ten) .d false], .vmlvec_vvdiv, [0, 1, 2]⟩,
  ⟨.vml_div, [.obj (.view1D .mat) .d true, .obj .vector .d true, .obj .vector .d false], .vmlvec_vvdiv, [0, 1, 2]⟩,
  ⟨.vml_div, [.obj (.view1D .mat) .d true, .obj .vector .d true, .obj (.view1D .vec) .d false], .vmlvec_vvdiv, [0, 1, 2]⟩,
  ⟨.vml_div, [.obj (.view1D .mat) .d true, .obj .vector .d true, .obj (.view1D .mat) .d false], .vmlvec_vvdiv, [0, 1, 2]⟩,
  ⟨.vml_div, [.obj (.view1D .mat) .d true, .obj .vector .d true, .obj (.view1D .ten) .d false], .vmlvec_vvdiv, [0, 1, 2]⟩,
  ⟨.vml_div, [.obj (.view1D .mat) .d true, .obj (.view1D .vec) .d true, .obj .vector .d false], .vmlvec_vvdiv, [0, 1, 2]⟩,
  ⟨.vml_div, [.obj (.view1D .mat) .d true, .obj (.view1D .vec) .d true, .obj (.view1D .vec) .d false], .vmlvec_vvdiv, [0, 1, 2]⟩,
  ⟨.vml_div, [.obj (.view1D .mat) .d true, .obj (.view1D .vec) .d true, .obj (.view1D .mat) .d false], .vmlvec_vvdiv, [0, 1, 2]⟩,
  ⟨.vml_div, [.obj (.view1D .mat) .d true, .obj (.view1D .vec) .d true, .obj (.view1D .ten) .d false], .vmlvec_vvdiv, [0, 1, 2]⟩,
  ⟨.vml_div, [.obj (.view1D .mat) .d true, .obj (.view1D .mat) .d true, .obj .vector .d false], .vmlvec_vvdiv, [0, 1, 2]⟩,
  ⟨.vml_div, [.obj (.view1D .mat) .d true, .obj (.view1D .mat) .d true, .obj (.view1D .vec) .d false], .vmlvec_vvdiv, [0, 1, 2]⟩,
  ⟨.vml_div, [.obj (.view1D .mat) .d true, .obj (.view1D .mat) .d true, .obj (.view1D .mat) .d false], .vmlvec_vvdiv, [0, 1, 2]⟩,
  ⟨.vml_div, [.obj (.view1D .mat) .d true, .obj (.view1D .mat) .d true, .obj (.view1D .ten) .d false], .vmlvec_vvdiv, [0, 1, 2]⟩,
  ⟨.vml_div, [.obj (.view1D .mat) .d true, .obj (.view1D .ten) .d true, .obj .vector .d false], .vmlvec_vvdiv, [0, 1, 2]⟩,
  ⟨.vml_div, [.obj (.view1D .mat) .d true, .obj (.view1D .ten) .d true, .obj (.view1D .vec) .d false], .vmlvec_vvdiv, [0, 1, 2]⟩,
  ⟨.vml_div, [.obj (.view1D .mat) .d true, .obj (.view1D .ten) .d true, .obj (.view1D .mat) .d false], .vmlvec_vvdiv, [0, 1, 2]⟩,
  ⟨.vml_div, [.obj (.view1D .mat) .d true, .obj (.view1D .ten) .d true, .obj (.view1D .ten) .d false], .vmlvec_vvdiv, [0, 1, 2]⟩,
  ⟨.vml_div, [.obj (.view1D .ten) .d true, .obj .vector .d true, .obj .vector .d false], .vmlvec_vvdiv, [0, 1, 2]⟩,
  ⟨.vml_div, [.obj (.view1D .ten) .d true, .obj .vector .d true, .obj (.view1D .vec) .d false], .vmlvec_vvdiv, [0, 1, 2]⟩,
  ⟨.vml_div, [.obj (.view1D .ten) .d true, .obj .vector .d true, .obj (.view1D .mat) .d false], .vmlvec_vvdiv, [0, 1, 2]⟩,
  ⟨.vml_div, [.obj (.view1D .ten) .d true, .obj .vector .d true, .obj (.view1D .ten) .d false], .vmlvec_vvdiv, [0, 1, 2]⟩,
  ⟨.vml_div, [.obj (.view1D .ten) .d true, .obj (.view1D .vec) .d true, .obj .vector .d false], .vmlvec_vvdiv, [0, 1, 2]⟩,
  ⟨.vml_div, [.obj (.view1D .ten) .d true, .obj (.view1D .vec) .d true, .obj (.view1D .vec) .d false], .vmlvec_vvdiv, [0, 1, 2]⟩,
  ⟨.vml_div, [.obj (.view1D .ten) .d true, .obj (.view1D .vec) .d true, .obj (.view1D .mat) .d false], .vmlvec_vvdiv, [0, 1, 2]⟩,
  ⟨.vml_div, [.obj (.view1D .ten) .d true, .obj (.view1D .vec) .d true, .obj (.view1D .ten) .d false], .vmlvec_vvdiv, [0, 1, 2]⟩,
  ⟨.vml_div, [.obj (.view1D .ten) .d true, .obj (.view1D .mat) .d true, .obj .vector .d false], .vmlvec_vvdiv, [0, 1, 2]⟩,
  ⟨.vml_div, [.obj (.view1D .ten) .d true, .obj (.view1D .mat) .d true, .obj (.view1D .vec) .d false], .vmlvec_vvdiv, [0, 1, 2]⟩,
  ⟨.vml_div, [.obj (.view1D .ten) .d true, .obj (.view1D .mat) .d true, .obj (.view1D .mat) .d false], .vmlvec_vvdiv, [0, 1, 2]⟩,
  ⟨.vml_div, [.obj (.view1D .ten) .d true, .obj (.view1D .mat) .d true, .obj (.view1D .ten) .d false], .vmlvec_vvdiv, [0, 1, 2]⟩,
  ⟨.vml_div, [.obj (.view1D .ten) .d true, .obj (.view1D .ten) .d true, .obj .vector .d false], .vmlvec_vvdiv, [0, 1, 2]⟩,
  ⟨.vml_div, [.obj (.view1D .ten) .d true, .obj (.view1D .ten) .d true, .obj (.view1D .vec) .d false], .vmlvec_vvdiv, [0, 1, 2]⟩,
  ⟨.vml_div, [.obj (.view1D .ten) .d true, .obj (.view1D .ten) .d true, .obj (.view1D .mat) .d false], .vmlvec_vvdiv, [0, 1, 2]⟩,
  ⟨.vml_div, [.obj (.view1D .ten) .d true, .obj (.view1D .ten) .d true, .obj (.view1D .ten) .d false], .vmlvec_vvdiv, [0, 1, 2]⟩,
  ⟨.vml_div, [.obj .vector .s true, .obj .vector .s true, .obj .vector .s false], .vmlvec_vvdiv, [0, 1, 2]⟩,
  ⟨.vml_div, [.obj .vector .s true, .obj .vector .s true, .obj (.view1D .vec) .s false], .vmlvec_vvdiv, [0, 1, 2]⟩,
  ⟨.vml_div, [.obj .vector .s true, .obj .vector .s true, .obj (.view1D .mat) .s false], .vmlvec_vvdiv, [0, 1, 2]⟩,
  ⟨.vml_div, [.obj .vector .s true, .obj .vector .s true, .obj (.view1D .ten) .s false], .vmlvec_vvdiv, [0, 1, 2]⟩,
  ⟨.vml_div, [.obj .vector .s true, .obj (.view1D .vec) .s true, .obj .vector .s false], .vmlvec_vvdiv, [0, 1, 2]⟩,
  ⟨.vml_div, [.obj .vector .s true, .obj (.view1D .vec) .s true, .obj (.view1D .vec) .s false], .vmlvec_vvdiv, [0, 1, 2]⟩,
  ⟨.vml_div, [.obj .vector .s true, .obj (.view1D .vec) .s true, .obj (.view1D .mat) .s false], .vmlvec_vvdiv, [0, 1, 2]⟩,
  ⟨.vml_div, [.obj .vector .s true, .obj (.view1D .vec) .s true, .obj (.view1D .ten) .s false], .vmlvec_vvdiv, [0, 1, 2]⟩,
  ⟨.vml_div, [.obj .vector .s true, .obj (.view1D .mat) .s true, .obj .vector .s false], .vmlvec_vvdiv, [0, 1, 2]⟩,
  ⟨.vml_div, [.obj .vector .s true, .obj (.view1D .mat) .s true, .obj (.view1D .vec) .s false], .vmlvec_vvdiv, [0, 1, 2]⟩,
  ⟨.vml_div, [.obj .vector .s true, .obj (.view1D .mat) .s true, .obj (.view1D .mat) .s false], .vmlvec_vvdiv, [0, 1, 2]⟩,
  ⟨.vml_div, [.obj .vector .s true, .obj (.view1D .mat) .s true, .obj (.view1D .ten) .s false], .vmlvec_vvdiv, [0, 1, 2]⟩,
  ⟨.vml_div, [.obj .vector .s true, .obj (.view1D .ten) .s true, .obj .vector .s false], .vmlvec_vvdiv, [0, 1, 2]⟩,
  ⟨.vml_div, [.obj .vector .s true, .obj (.view1D .ten) .s true, .obj (.view1D .vec) .s false], .vmlvec_vvdiv, [0, 1, 2]⟩,
  ⟨.vml_div, [.obj .vector .s true, .obj (.view1D .ten) .s true, .obj (.view1D .mat) .s false], .vmlvec_vvdiv, [0, 1, 2]⟩,
  ⟨.vml_div, [.obj .vector .s true, .obj (.view1D .ten) .s true, .obj (.view1D .ten) .s false], .vmlvec_vvdiv, [0, 1, 2]⟩,
  ⟨.vml_div, [.obj (.view1D .vec) .s true, .obj .vector .s true, .obj .vector .s false], .vmlvec_vvdiv, [0, 1, 2]⟩,
  ⟨.vml_div, [.obj (.view1D .vec) .s true, .obj .vector .s true, .obj (.view1D .vec) .s false], .vmlvec_vvdiv, [0, 1, 2]⟩,
  ⟨.vml_div, [.obj (.view1D .vec) .s true, .obj .vector .s true, .obj (.view1D .mat) .s false], .vmlvec_vvdiv, [0, 1, 2]⟩,
  ⟨.vml_div, [.obj (.view1D .vec) .s true, .obj .vector .s true, .obj (.view1D .ten) .s false], .vmlvec_vvdiv, [0, 1, 2]⟩,
  ⟨.vml_div, [.obj (.view1D .vec) .s true, .obj (.view1D .vec) .s true, .obj .vector .s false], .vmlvec_vvdiv, [0, 1, 2]⟩,
  ⟨.vml_div, [.obj (.view1D .vec) .s true, .obj (.view1D .vec) .s true, .obj (.view1D .vec) .s false], .vmlvec_vvdiv, [0, 1, 2]⟩,
  ⟨.vml_div, [.obj (.view1D .vec) .s true, .obj (.view1D .vec) .s true, .obj (.view1D .mat) .s false], .vmlvec_vvdiv, [0, 1, 2]⟩,
  ⟨.vml_div, [.obj (.view1D .vec) .s true, .obj (.view1D .vec) .s true, .obj (.view1D .ten) .s false], .vmlvec_vvdiv, [0, 1, 2]⟩,
  ⟨.vml_div, [.obj (.view1D .vec) .s true, .obj (.view1D .mat) .s true, .obj .vector .s false], .vmlvec_vvdiv, [0, 1, 2]⟩,
  ⟨.vml_div, [.obj (.view1D .vec) .s true, .obj (.view1D .mat) .s true, .obj (.view1D .vec) .s false], .vmlvec_vvdiv, [0, 1, 2]⟩,
  ⟨.vml_div, [.obj (.view1D .vec) .s true, .obj (.view1D .mat) .s true, .obj (.view1D .mat) .s false], .vmlvec_vvdiv, [0, 1, 2]⟩,
  ⟨.vml_div, [.obj (.view1D .vec) .s true, .obj (.view1D .mat) .s true, .obj (.view1D .ten) .s false], .vmlvec_vvdiv, [0, 1, 2]⟩,
  ⟨.vml_div, [.obj (.view1D .vec) .s true, .obj (.view1D .ten) .s true, .obj .vector .s false], .vmlvec_vvdiv, [0, 1, 2]⟩,
  ⟨.vml_div, [.obj (.view1D .vec) .s true, .obj (.view1D .ten) .s true, .obj (.view1D .vec) .s false], .vmlvec_vvdiv, [0, 1, 2]⟩,
  ⟨.vml_div, [.obj (.view1D .vec) .s true, .obj (.view1D .ten) .s true, .obj (.view1D .mat) .s false], .vmlvec_vvdiv, [0, 1, 2]⟩,
  ⟨.vml_div, [.obj (.view1D .vec) .s true, .obj (.view1D .ten) .s true, .obj (.view1D .ten) .s false], .vmlvec_vvdiv, [0, 1, 2]⟩]

/-- src/vml/vector/vector_vml.cpp:2217-2555 -/
def tVmlVec_6 : List Overload := [
  ⟨.vml_div, [.obj (.view1D .mat) .s true, .obj .vector .s true, .obj .vector .s false], .vmlvec_vvdiv, [0, 1, 2]⟩,
  ⟨.vml_div, [.obj (.view1D .mat) .s true, .obj .vector .s true, .obj (.view1D .vec) .s false], .vmlvec_vvdiv, [0, 1, 2]⟩,
  ⟨.vml_div, [.obj (.view1D .mat) .s true, .obj .vector .s true, .obj (.view1D .mat) .s false], .vmlvec_vvdiv, [0, 1, 2]⟩,
  ⟨.vml_div, [.obj (.view1D .mat) .s true, .obj .vector .s true, .obj (.view1D .ten) .s false], .vmlvec_vvdiv, [0, 1, 2]⟩,
  ⟨.vml_div, [.obj (.view1D .mat) .s true, .obj (.view1D .vec) .s true, .obj .vector .s false], .vmlvec_vvdiv, [0, 1, 2]⟩,
  ⟨.vml_div, [.obj (.view1D .mat) .s true, .obj (.view1D .vec) .s true, .obj (.view1D .vec) .s false], .vmlvec_vvdiv, [0, 1, 2]⟩,
  ⟨.vml_div, [.obj (.view1D .mat) .s true, .obj (.view1D .vec) .s true, .obj (.view1D .mat) .s false], .vmlvec_vvdiv, [0, 1, 2]⟩,
  ⟨.vml_div, [.obj (.view1D .mat) .s true, .obj (.view1D .vec) .s true, .obj (.view1D .ten) .s false], .vmlvec_vvdiv, [0, 1, 2]⟩,
  ⟨.vml_div, [.obj (.view1D .mat) .s true, .obj (.view1D .mat) .s true, .obj .vector .s false], .vmlvec_vvdiv, [0, 1, 2]⟩,
  ⟨.vml_div, [.obj (.view1D .mat) .s true, .obj (.view1D .mat) .s true, .obj (.view1D .vec) .s false], .vmlvec_vvdiv, [0, 1, 2]⟩,
  ⟨.vml_div, [.obj (.view1D .mat) .s true, .obj (.view1D .mat) .s true, .obj (.view1D .mat) .s false], .vmlvec_vvdiv, [0, 1, 2]⟩,
  ⟨.vml_div, [.obj (.view1D .mat) .s true, .obj (.view1D .mat) .s true, .obj (.view1D .ten) .s false], .vmlvec_vvdiv, [0, 1, 2]⟩,
  ⟨.vml_div, [.obj (.view1D .mat) .s true, .obj (.view1D .ten) .s true, .obj .vector .s false], .vmlvec_vvdiv, [0, 1, 2]⟩,
  ⟨.vml_div, [.obj (.view1D .mat) .s true, .obj (.view1D .ten) .s true, .obj (.view1D .vec) .s false], .vmlvec_vvdiv, [0, 1, 2]⟩,
  ⟨.vml_div, [.obj (.view1D .mat) .s true, .obj (.view1D .ten) .s true, .obj (.view1D .mat) .s false], .vmlvec_vvdiv, [0, 1, 2]⟩,
  ⟨.vml_div, [.obj (.view1D .mat) .s true, .obj (.view1D .ten) .s true, .obj (.view1D .ten) .s false], .vmlvec_vvdiv, [0, 1, 2]⟩,
  ⟨.vml_div, [.obj (.view1D .ten) .s true, .obj .vector .s true, .obj .vector .s false], .vmlvec_vvdiv, [0, 1, 2]⟩,
  ⟨.vml_div, [.obj (.view1D .ten) .s true, .obj .vector .s true, .obj (.view1D .vec) .s false], .vmlvec_vvdiv, [0, 1, 2]⟩,
  ⟨.vml_div, [.obj (.view1D .ten) .s true, .obj .vector .s true, .obj (.view1D .mat) .s false], .vmlvec_vvdiv, [0, 1, 2]⟩,
  ⟨.vml_div, [.obj (.view1D .ten) .s true, .obj .vector .s true, .obj (.view1D .ten) .s false], .vmlvec_vvdiv, [0, 1, 2]⟩,
  ⟨.vml_div, [.obj (.view1D .ten) .s true, .obj (.view1D .vec) .s true, .obj .vector .s false], .vmlvec_vvdiv, [0, 1, 2]⟩,
  ⟨.vml_div, [.obj (.view1D .ten) .s true, .obj (.view1D .vec) .s true, .obj (.view1D .vec) .s false], .vmlvec_vvdiv, [0, 1, 2]⟩,
  ⟨.vml_div, [.obj (.view1D .ten) .s true, .obj (.view1D .vec) .s true, .obj (.view1D .mat) .s false], .vmlvec_vvdiv, [0, 1, 2]⟩,
  ⟨.vml_div, [.obj (.view1D .ten) .s true, .obj (.view1D .vec) .s true, .obj (.view1D .ten) .s false], .vmlvec_vvdiv, [0, 1, 2]⟩,
  ⟨.vml_div, [.obj (.view1D .ten) .s true, .obj (.view1D .mat) .s true, .obj .vector .s false], .vmlvec_vvdiv, [0, 1, 2]⟩,
  ⟨.vml_div, [.obj (.view1D .ten) .s true, .obj (.view1D .mat) .s true, .obj (.view1D .vec) .s false], .vmlvec_vvdiv, [0, 1, 2]⟩,
  ⟨.vml_div, [.obj (.view1D .ten) .s true, .obj (.view1D .mat) .s true, .obj (.view1D .mat) .s false], .vmlvec_vvdiv, [0, 1, 2]⟩,
  ⟨.vml_div, [.obj (.view1D .ten) .s true, .obj (.view1D .mat) .s true, .obj (.view1D .ten) .s false], .vmlvec_vvdiv, [0, 1, 2]⟩,
  ⟨.vml_div, [.obj (.view1D .ten) .s true, .obj (.view1D .ten) .s true, .obj .vector .s false], .vmlvec_vvdiv, [0, 1, 2]⟩,
  ⟨.vml_div, [.obj (.view1D .ten) .s true, .obj (.view1D .ten) .s true, .obj (.view1D .vec) .s false], .vmlvec_vvdiv, [0, 1, 2]⟩,
  ⟨.vml_div, [.obj (.view1D .ten) .s true, .obj (.view1D .ten) .s true, .obj (.view1D .mat) .s false], .vmlvec_vvdiv, [0, 1, 2]⟩,
  ⟨.vml_div, [.obj (.view1D .ten) .s true, .obj (.view1D .ten) .s true, .obj (.view1D .ten) .s false], .vmlvec_vvdiv, [0, 1, 2]⟩,
  ⟨.vml_add, [.obj .vector .d true, .scal .d, .obj .vector .d false], .vmlvec_svadd, [0, 1, 2]⟩,
  ⟨.vml_add, [.obj .vector .d true, .scal .d, .obj (.view1D .vec) .d false], .vmlvec_svadd, [0, 1, 2]⟩,
  ⟨.vml_add, [.obj .vector .d true, .scal .d, .obj (.view1D .mat) .d false], .vmlvec_svadd, [0, 1, 2]⟩,
  ⟨.vml_add, [.obj .vector .d true, .scal .d, .obj (.view1D .ten) .d false], .vmlvec_svadd, [0, 1, 2]⟩,
  ⟨.vml_add, [.obj (.view1D .vec) .d true, .scal .d, .obj .vector .d false], .vmlvec_svadd, [0, 1, 2]⟩,
  ⟨.vml_add, [.obj (.view1D .vec) .d true, .scal .d, .obj (.view1D .vec) .d false], .vmlvec_svadd, [0, 1, 2]⟩,
  ⟨.vml_add, [.obj (.view1D .vec) .d true, .scal .d, .obj (.view1D .mat) .d false], .vmlvec_svadd, [0, 1, 2]⟩,
  ⟨.vml_add, [.obj (.view1D .vec) .d true, .scal .d, .obj (.view1D .ten) .d false], .vmlvec_svadd, [0, 1, 2]⟩,
  ⟨.vml_add, [.obj (.view1D .mat) .d true, .scal .d, .obj .vector .d false], .vmlvec_svadd, [0, 1, 2]⟩,
  ⟨.vml_add, [.obj (.view1D .mat) .d true, .scal .d, .obj (.view1D .vec) .d false], .vmlvec_svadd, [0, 1, 2]⟩,
  ⟨.vml_add, [.obj (.view1D .mat) .d true, .scal .d, .obj (.view1D .mat) .d false], .vmlvec_svadd, [0, 1, 2]⟩,
  ⟨.vml_add, [.obj (.view1D .mat) .d true, .scal .d, .obj (.view1D .ten) .d false], .vmlvec_svadd, [0, 1, 2]⟩,
  ⟨.vml_add, [.obj (.view1D .ten) .d true, .scal .d, .obj .vector .d false], .vmlvec_svadd, [0, 1, 2]⟩,
  ⟨.vml_add, [.obj (.view1D .ten) .d true, .scal .d, .obj (.view1D .vec) .d false], .vmlvec_svadd, [0, 1, 2]⟩,
  ⟨.vml_add, [.obj (.view1D .ten) .d true, .scal .d, .obj (.view1D .mat) .d false], .vmlvec_svadd, [0, 1, 2]⟩,
  ⟨.vml_add, [.obj (.view1D .ten) .d true, .scal .d, .obj (.view1D .ten) .d false], .vmlvec_svadd, [0, 1, 2]⟩,
  ⟨.vml_add, [.obj .vector .s true, .scal .s, .obj .vector .s false], .vmlvec_svadd, [0, 1, 2]⟩,
  ⟨.vml_add, [.obj .vector .s true, .scal .s, .obj (.view1D .vec) .s false], .vmlvec_svadd, [0, 1, 2]⟩,
  ⟨.vml_add, [.obj .vector .s true, .scal .s, .obj (.view1D .mat) .s false], .vmlvec_svadd, [0, 1, 2]⟩,
  ⟨.vml_add, [.obj .vector .s true, .scal .s, .obj (.view1D .ten) .s false], .vmlvec_svadd, [0, 1, 2]⟩,
  ⟨.vml_add, [.obj (.view1D .vec) .s true, .scal .s, .obj .vector .s false], .vmlvec_svadd, [0, 1, 2]⟩,
  ⟨.vml_add, [.obj (.view1D .vec) .s true, .scal .s, .obj (.view1D .vec) .s false], .vmlvec_svadd, [0, 1, 2]⟩,
  ⟨.vml_add, [.obj (.view1D .vec) .s true, .scal .s, .obj (.view1D .mat) .s false], .vmlvec_svadd, [0, 1, 2]⟩,
  ⟨.vml_add, [.obj (.view1D .vec) .s true, .scal .s, .obj (.view1D .ten) .s false], .vmlvec_svadd, [0, 1, 2]⟩,
  ⟨.vml_add, [.obj (.view1D .mat) .s true, .scal .s, .obj .vector .s false], .vmlvec_svadd, [0, 1, 2]⟩,
  ⟨.vml_add, [.obj (.view1D .mat) .s true, .scal .s, .obj (.view1D .vec) .s false], .vmlvec_svadd, [0, 1, 2]⟩,
  ⟨.vml_add, [.obj (.view1D .mat) .s true, .scal .s, .obj (.view1D .mat) .s false], .vmlvec_svadd, [0, 1, 2]⟩,
  ⟨.vml_add, [.obj (.view1D .mat) .s true, .scal .s, .obj (.view1D .ten) .s false], .vmlvec_svadd, [0, 1, 2]⟩,
  ⟨.vml_add, [.obj (.view1D .ten) .s true, .scal .s, .obj .vector .s false], .vmlvec_svadd, [0, 1, 2]⟩,
  ⟨.vml_add, [.obj (.view1D .ten) .s true, .scal .s, .obj (.view1D .vec) .s false], .vmlvec_svadd, [0, 1, 2]⟩,
  ⟨.vml_add, [.obj (.view1D .ten) .s true, .scal .s, .obj (.view1D .mat) .s false], .vmlvec_svadd, [0, 1, 2]⟩,
  ⟨.vml_add, [.obj (.view1D .ten) .s true, .scal .s, .obj (.view1D .ten) .s false], .vmlvec_svadd, [0, 1, 2]⟩,
  ⟨.vml_sub, [.obj .vector .d true, .scal .d, .obj .vector .d false], .vmlvec_svsub, [0, 1, 2]⟩,
  ⟨.vml_sub, [.obj .vector .d true, .scal .d, .obj (.view1D .vec) .d false], .vmlvec_svsub, [0, 1, 2]⟩,
  ⟨.vml_sub, [.obj .vector .d true, .scal .d, .obj (.view1D .mat) .d false], .vmlvec_svsub, [0, 1, 2]⟩,
  ⟨.vml_sub, [.obj .vector .d true, .scal .d, .obj (.view1D .ten) .d false], .vmlvec_svsub, [0, 1, 2]⟩,
  ⟨.vml_sub, [.obj (.view1D .vec) .d true, .scal .d, .obj .vector .d false], .vmlvec_svsub, [0, 1, 2]⟩,
  ⟨.vml_sub, [.obj (.view1D .vec) .d true, .scal .d, .obj (.view1D .vec) .d false], .vmlvec_svsub, [0, 1, 2]⟩,
  ⟨.vml_sub, [.obj (.view1D .vec) .d true, .scal .d, .obj (.view1D .mat) .d false], .vmlvec_svsub, [0, 1, 2]⟩,
  ⟨.vml_sub, [.obj (.view1D .vec) .d true, .scal .d, .obj (.view1D .ten) .d false], .vmlvec_svsub, [0, 1, 2]⟩,
  ⟨.vml_sub, [.obj (.view1D .mat) .d true, .scal .d, .obj .vector .d false], .vmlvec_svsub, [0, 1, 2]⟩,
  ⟨.vml_sub, [.obj (.view1D .mat) .d true, .scal .d, .obj (.view1D .vec) .d false], .vmlvec_svsub, [0, 1, 2]⟩,
  ⟨.vml_sub, [.obj (.view1D .mat) .d true, .scal .d, .obj (.view1D .mat) .d false], .vmlvec_svsub, [0, 1, 2]⟩,
  ⟨.vml_sub, [.obj (.view1D .mat) .d true, .scal .d, .obj (.view1D .ten) .d false], .vmlvec_svsub, [0, 1, 2]⟩,
  ⟨.vml_sub, [.obj (.view1D .ten) .d true, .scal .d, .obj .vector .d false], .vmlvec_svsub, [0, 1, 2]⟩,
  ⟨.vml_sub, [.obj (.view1D .ten) .d true, .scal .d, .obj (.view1D .vec) .d false], .vmlvec_svsub, [0, 1, 2]⟩,
  ⟨.vml_sub, [.obj (.view1D .ten) .d true, .scal .d, .obj (.view1D .mat) .d false], .vmlvec_svsub, [0, 1, 2]⟩,
  ⟨.vml_sub, [.obj (.view1D .ten) .d true, .scal .d, .obj (.view1D .ten) .d false], .vmlvec_svsub, [0, 1, 2]⟩]

/-- src/vml/vector/vector_vml.cpp:2556-2870 -/
def tVmlVec_7 : List Overload := [
  ⟨.vml_sub, [.obj .vector .s true, .scal .s, .obj .vector .s false], .vmlvec_svsub, [0, 1, 2]⟩,
  ⟨.vml_sub, [.obj .vector .s true, .scal .s, .obj (.view1D .vec) .s false], .vmlvec_svsub, [0, 1, 2]⟩,
  ⟨.vml_sub, [.obj .vector .s true, .scal .s, .obj (.view1D .mat) .s false], .vmlvec_svsub, [0, 1, 2]⟩,
  ⟨.vml_sub, [.obj .vector .s true, .scal .s, .obj (.view1D .ten) .s false], .vmlvec_svsub, [0, 1, 2]⟩,
  ⟨.vml_sub, [.obj (.view1D .vec) .s true, .scal .s, .obj .vector .s false], .vmlvec_svsub, [0, 1, 2]⟩,
  ⟨.vml_sub, [.obj (.view1D .vec) .s true, .scal .s, .obj (.view1D .vec) .s false], .vmlvec_svsub, [0, 1, 2]⟩,
  ⟨.vml_sub, [.obj (.view1D .vec) .s true, .scal .s, .obj (.view1D .mat) .s false], .vmlvec_svsub, [0, 1, 2]⟩,
  ⟨.vml_sub, [.obj (.view1D .vec) .s true, .scal .s, .obj (.view1D .ten) .s false], .vmlvec_svsub, [0, 1, 2]⟩,
  ⟨.vml_sub, [.obj (.view1D .mat) .s true, .scal .s, .obj .vector .s false], .vmlvec_svsub, [0, 1, 2]⟩,
  ⟨.vml_sub, [.obj (.view1D .mat) .s true, .scal .s, .obj (.view1D .vec) .s false], .vmlvec_svsub, [0, 1, 2]⟩,
  ⟨.vml_sub, [.obj (.view1D .mat) .s true, .scal .s, .obj (.view1D .mat) .s false], .vmlvec_svsub, [0, 1, 2]⟩,
  ⟨.vml_sub, [.obj (.view1D .mat) .s true, .scal .s, .obj (.view1D .ten) .s false], .vmlvec_svsub, [0, 1, 2]⟩,
  ⟨.vml_sub, [.obj (.view1D .ten) .s true, .scal .s, .obj .vector .s false], .vmlvec_svsub, [0, 1, 2]⟩,
  ⟨.vml_sub, [.obj (.view1D .ten) .s true, .scal .s, .obj (.view1D .vec) .s false], .vmlvec_svsub, [0, 1, 2]⟩,
  ⟨.vml_sub, [.obj (.view1D .ten) .s true, .scal .s, .obj (.view1D .mat) .s false], .vmlvec_svsub, [0, 1, 2]⟩,
  ⟨.vml_sub, [.obj (.view1D .ten) .s true, .scal .s, .obj (.view1D .ten) .s false], .vmlvec_svsub, [0, 1, 2]⟩,
  ⟨.vml_mul, [.obj .vector .d true, .scal .d, .obj .vector .d false], .vmlvec_svmul, [0, 1, 2]⟩,
  ⟨.vml_mul, [.obj .vector .d true, .scal .d, .obj (.view1D .vec) .d false], .vmlvec_svmul, [0, 1, 2]⟩,
  ⟨.vml_mul, [.obj .vector .d true, .scal .d, .obj (.view1D .mat) .d false], .vmlvec_svmul, [0, 1, 2]⟩,
  ⟨.vml_mul, [.obj .vector .d true, .scal .d, .obj (.view1D .ten) .d false], .vmlvec_svmul, [0, 1, 2]⟩,
  ⟨.vml_mul, [.obj (.view1D .vec) .d true, .scal .d, .obj .vector .d false], .vmlvec_svmul, [0, 1, 2]⟩,
  ⟨.vml_mul, [.obj (.view1D .vec) .d true, .scal .d, .obj (.view1D .vec) .d false], .vmlvec_svmul, [0, 1, 2]⟩,
  ⟨.vml_mul, [.obj (.view1D .vec) .d true, .scal .d, .obj (.view1D .mat) .d false], .vmlvec_svmul, [0, 1, 2]⟩,
  ⟨.vml_mul, [.obj (.view1D .vec) .d true, .scal .d, .obj (.view1D .ten) .d false], .vmlvec_svmul, [0, 1, 2]⟩,
  ⟨.vml_mul, [.obj (.view1D .mat) .d true, .scal .d, .obj .vector .d false], .vmlvec_svmul, [0, 1, 2]⟩,
  ⟨.vml_mul, [.obj (.view1D .mat) .d true, .scal .d, .obj (.view1D .vec) .d false], .vmlvec_svmul, [0, 1, 2]⟩,
  ⟨.vml_mul, [.obj (.view1D .mat) .d true, .scal .d, .obj (.view1D .mat) .d false], .vmlvec_svmul, [0, 1, 2]⟩,
  ⟨.vml_mul, [.obj (.view1D .mat) .d true, .scal .d, .obj (.view1D .ten) .d false], .vmlvec_svmul, [0, 1, 2]⟩,
  ⟨.vml_mul, [.obj (.view1D .ten) .d true, .scal .d, .obj .vector .d false], .vmlvec_svmul, [0, 1, 2]⟩,
  ⟨.vml_mul, [.obj (.view1D .ten) .d true, .scal .d, .obj (.view1D .vec) .d false], .vmlvec_svmul, [0, 1, 2]⟩,
  ⟨.vml_mul, [.obj (.view1D .ten) .d true, .scal .d, .obj (.view1D .mat) .d false], .vmlvec_svmul, [0, 1, 2]⟩,
  ⟨.vml_mul, [.obj (.view1D .ten) .d true, .scal .d, .obj (.view1D .ten) .d false], .vmlvec_svmul, [0, 1, 2]⟩,
  ⟨.vml_mul, [.obj .vector .s true, .scal .s, .obj .vector .s false], .vmlvec_svmul, [0, 1, 2]⟩,
  ⟨.vml_mul, [.obj .vector .s true, .scal .s, .obj (.view1D .vec) .s false], .vmlvec_svmul, [0, 1, 2]⟩,
  ⟨.vml_mul, [.obj .vector .s true, .scal .s, .obj (.view1D .mat) .s false], .vmlvec_svmul, [0, 1, 2]⟩,
  ⟨.vml_mul, [.obj .vector .s true, .scal .s, .obj (.view1D .ten) .s false], .vmlvec_svmul, [0, 1, 2]⟩,
  ⟨.vml_mul, [.obj (.view1D .vec) .s true, .scal .s, .obj .vector .s false], .vmlvec_svmul, [0, 1, 2]⟩,
  ⟨.vml_mul, [.obj (.view1D .vec) .s true, .scal .s, .obj (.view1D .vec) .s false], .vmlvec_svmul, [0, 1, 2]⟩,
  ⟨.vml_mul, [.obj (.view1D .vec) .s true, .scal .s, .obj (.view1D .mat) .s false], .vmlvec_svmul, [0, 1, 2]⟩,
  ⟨.vml_mul, [.obj (.view1D .vec) .s true, .scal .s, .obj (.view1D .ten) .s false], .vmlvec_svmul, [0, 1, 2]⟩,
  ⟨.vml_mul, [.obj (.view1D .mat) .s true, .scal .s, .obj .vector .s false], .vmlvec_svmul, [0, 1, 2]⟩,
  ⟨.vml_mul, [.obj (.view1D .mat) .s true, .scal .s, .obj (.view1D .vec) .s false], .vmlvec_svmul, [0, 1, 2]⟩,
  ⟨.vml_mul, [.obj (.view1D .mat) .s true, .scal .s, .obj (.view1D .mat) .s false], .vmlvec_svmul, [0, 1, 2]⟩,
  ⟨.vml_mul, [.obj (.view1D .mat) .s true, .scal .s, .obj (.view1D .ten) .s false], .vmlvec_svmul, [0, 1, 2]⟩,
  ⟨.vml_mul, [.obj (.view1D .ten) .s true, .scal .s, .obj .vector .s false], .vmlvec_svmul, [0, 1, 2]⟩,
  ⟨.vml_mul, [.obj (.view1D .ten) .s true, .scal .s, .obj (.view1D .vec) .s false], .vmlvec_svmul, [0, 1, 2]⟩,
  ⟨.vml_mul, [.obj (.view1D .ten) .s true, .scal .s, .obj (.view1D .mat) .s false], .vmlvec_svmul, [0, 1, 2]⟩,
  ⟨.vml_mul, [.obj (.view1D .ten) .s true, .scal .s, .obj (.view1D .ten) .s false], .vmlvec_svmul, [0, 1, 2]⟩,
  ⟨.vml_div, [.obj .vector .d true, .scal .d, .obj .vector .d false], .vmlvec_svdiv, [0, 1, 2]⟩,
  ⟨.vml_div, [.obj .vector .d true, .scal .d, .obj (.view1D .vec) .d false], .vmlvec_svdiv, [0, 1, 2]⟩,
  ⟨.vml_div, [.obj .vector .d true, .scal .d, .obj (.view1D .mat) .d false], .vmlvec_svdiv, [0, 1, 2]⟩,
  ⟨.vml_div, [.obj .vector .d true, .scal .d, .obj (.view1D .ten) .d false], .vmlvec_svdiv, [0, 1, 2]⟩,
  ⟨.vml_div, [.obj (.view1D .vec) .d true, .scal .d, .obj .vector .d false], .vmlvec_svdiv, [0, 1, 2]⟩,
  ⟨.vml_div, [.obj (.view1D .vec) .d true, .scal .d, .obj (.view1D .vec) .d false], .vmlvec_svdiv, [0, 1, 2]⟩,
  ⟨.vml_div, [.obj (.view1D .vec) .d true, .scal .d, .obj (.view1D .mat) .d false], .vmlvec_svdiv, [0, 1, 2]⟩,
  ⟨.vml_div, [.obj (.view1D .vec) .d true, .scal .d, .obj (.view1D .ten) .d false], .vmlvec_svdiv, [0, 1, 2]⟩,
  ⟨.vml_div, [.obj (.view1D .mat) .d true, .scal .d, .obj .vector .d false], .vmlvec_svdiv, [0, 1, 2]⟩,
  ⟨.vml_div, [.obj (.view1D .mat) .d true, .scal .d, .obj (.view1D .vec) .d false], .vmlvec_svdiv, [0, 1, 2]⟩,
  ⟨.vml_div, [.obj (.view1D .mat) .d true, .scal .d, .obj (.view1D .mat) .d false], .vmlvec_svdiv, [0, 1, 2]⟩,
  ⟨.vml_div, [.obj (.view1D .mat) .d true, .scal .d, .obj (.view1D .ten) .d false], .vmlvec_svdiv, [0, 1, 2]⟩,
  ⟨.vml_div, [.obj (.view1D .ten) .d true, .scal .d, .obj .vector .d false], .vmlvec_svdiv, [0, 1, 2]⟩,
  ⟨.vml_div, [.obj (.view1D .ten) .d true, .scal .d, .obj (.view1D .vec) .d false], .vmlvec_svdiv, [0, 1, 2]⟩,
  ⟨.vml_div, [.obj (.view1D .ten) .d true, .scal .d, .obj (.view1D .mat) .d false], .vmlvec_svdiv, [0, 1, 2]⟩,
  ⟨.vml_div, [.obj (.view1D .ten) .d true, .scal .d, .obj (.view1D .ten) .d false], .vmlvec_svdiv, [0, 1, 2]⟩,
  ⟨.vml_div, [.obj .vector .s true, .scal .s, .obj .vector .s false], .vmlvec_svdiv, [0, 1, 2]⟩,
  ⟨.vml_div, [.obj .vector .s true, .scal .s, .obj (.view1D .vec) .s false], .vmlvec_svdiv, [0, 1, 2]⟩,
  ⟨.vml_div, [.obj .vector .s true, .scal .s, .obj (.view1D .mat) .s false], .vmlvec_svdiv, [0, 1, 2]⟩,
  ⟨.vml_div, [.obj .vector .s true, .scal .s, .obj (.view1D .ten) .s false], .vmlvec_svdiv, [0, 1, 2]⟩,
  ⟨.vml_div, [.obj (.view1D .vec) .s true, .scal .s, .obj .vector .s false], .vmlvec_svdiv, [0, 1, 2]⟩,
  ⟨.vml_div, [.obj (.view1D .vec) .s true, .scal .s, .obj (.view1D .vec) .s false], .vmlvec_svdiv, [0, 1, 2]⟩,
  ⟨.vml_div, [.obj (.view1D .vec) .s true, .scal .s, .obj (.view1D .mat) .s false], .vmlvec_svdiv, [0, 1, 2]⟩,
  ⟨.vml_div, [.obj (.view1D .vec) .s true, .scal .s, .obj (.view1D .ten) .s false], .vmlvec_svdiv, [0, 1, 2]⟩,
  ⟨.vml_div, [.obj (.view1D .mat) .s true, .scal .s, .obj .vector .s false], .vmlvec_svdiv, [0, 1, 2]⟩,
  ⟨.vml_div, [.obj (.view1D .mat) .s true, .scal .s, .obj (.view1D .vec) .s false], .vmlvec_svdiv, [0, 1, 2]⟩,
  ⟨.vml_div, [.obj (.view1D .mat) .s true, .scal .s, .obj (.view1D .mat) .s false], .vmlvec_svdiv, [0, 1, 2]⟩,
  ⟨.vml_div, [.obj (.view1D .mat) .s true, .scal .s, .obj (.view1D .ten) .s false], .vmlvec_svdiv, [0, 1, 2]⟩,
  ⟨.vml_div, [.obj (.view1D .ten) .s true, .scal .s, .obj .vector .s false], .vmlvec_svdiv, [0, 1, 2]⟩,
  ⟨.vml_div, [.obj (.view1D .ten) .s true, .scal .s, .obj (.view1D .vec) .s false], .vmlvec_svdiv, [0, 1, 2]⟩,
  ⟨.vml_div, [.obj (.view1D .ten) .s true, .scal .s, .obj (.view1D .mat) .s false], .vmlvec_svdiv, [0, 1, 2]⟩,
  ⟨.vml_div, [.obj (.view1D .ten) .s true, .scal .s, .obj (.view1D .ten) .s false], .vmlvec_svdiv, [0, 1, 2]⟩]

/-- src/vml/vector/vector_vml.cpp:2872-3232 -/
def tVmlVec_8 : List Overload := [
  ⟨.vml_pow, [.obj .vector .d true, .obj .vector .d true, .obj .vector .d false], .vmlvec_vvpow, [0, 1, 2]⟩,
  ⟨.vml_pow, [.obj .vector .d true, .obj .vector .d true, .obj (.view1D .vec) .d false], .vmlvec_vvpow, [0, 1, 2]⟩,
  ⟨.vml_pow, [.obj .vector .d true, .obj .vector .d true, .obj (.view1D .mat) .d false], .vmlvec_vvpow, [0, 1, 2]⟩,
  ⟨.vml_pow, [.obj .vector .d true, .obj .vector .d true, .obj (.view1D .ten) .d false], .vmlvec_vvpow, [0, 1, 2]⟩,
  ⟨.vml_pow, [.obj .vector .d true, .obj (.view1D .vec) .d true, .obj .vector .d false], .vmlvec_vvpow, [0, 1, 2]⟩,
  ⟨.vml_pow, [.obj .vector .d true, .obj (.view1D .vec) .d true, .obj (.view1D .vec) .d false], .vmlvec_vvpow, [0, 1, 2]⟩,
  ⟨.vml_pow, [.obj .vector .d true, .obj (.view1D .vec) .d true, .obj (.view1D .mat) .d false], .vmlvec_vvpow, [0, 1, 2]⟩,
  ⟨.vml_pow, [.obj .vector .d true, .obj (.view1D .vec) .d true, .obj (.view1D .ten) .d false], .vmlvec_vvpow, [0, 1, 2]⟩,
  ⟨.vml_pow, [.obj .vector .d true, .obj (.view1D .mat) .d true, .obj .vector .d false], .vmlvec_vvpow, [0, 1, 2]⟩,
  ⟨.vml_pow, [.obj .vector .d true, .obj (.view1D .mat) .d true, .obj (.view1D .vec) .d false], .vmlvec_vvpow, [0, 1, 2]⟩,
  ⟨.vml_pow, [.obj .vector .d true, .obj (.view1D .mat) .d true, .obj (.view1D .mat) .d false], .vmlvec_vvpow, [0, 1, 2]⟩,
  ⟨.vml_pow, [.obj .vector .d true, .obj (.view1D .mat) .d true, .obj (.view1D .ten) .d false], .vmlvec_vvpow, [0, 1, 2]⟩,
  ⟨.vml_pow, [.obj .vector .d true, .obj (.view1D .ten) .d true, .obj .vector .d false], .vmlvec_vvpow, [0, 1, 2]⟩,
  ⟨.vml_pow, [.obj .vector .d true, .obj (.view1D .ten) .d true, .obj (.view1D .vec) .d false], .vmlvec_vvpow, [0, 1, 2]⟩,
  ⟨.vml_pow, [.obj .vector .d true, .obj (.view1D .ten) .d true, .obj (.view1D .mat) .d false], .vmlvec_vvpow, [0, 1, 2]⟩,
  ⟨.vml_pow, [.obj .vector .d true, .obj (.view1D .ten) .d true, .obj (.view1D .ten) .d false], .vmlvec_vvpow, [0, 1, 2]⟩,
  ⟨.vml_pow, [.obj (.view1D .vec) .d true, .obj .vector .d true, .obj .vector .d false], .vmlvec_vvpow, [0, 1, 2]⟩,
  ⟨.vml_pow, [.obj (.view1D .vec) .d true, .obj .vector .d true, .obj (.view1D .vec) .d false], .vmlvec_vvpow, [0, 1, 2]⟩,
  ⟨.vml_pow, [.obj (.view1D .vec) .d true, .obj .vector .d true, .obj (.view1D .mat) .d false], .vmlvec_vvpow, [0, 1, 2]⟩,
  ⟨.vml_pow, [.obj (.view1D .vec) .d true, .obj .vector .d true, .obj (.view1D .ten) .d false], .vmlvec_vvpow, [0, 1, 2]⟩,
  ⟨.vml_pow, [.obj (.view1D .vec) .d true, .obj (.view1D .vec) .d true, .obj .vector .d false], .vmlvec_vvpow, [0, 1, 2]⟩,
  ⟨.vml_pow, [.obj (.view1D .vec) .d true, .obj (.view1D .vec) .d true, .obj (.view1D .vec) .d false], .vmlvec_vvpow, [0, 1, 2]⟩,
  ⟨.vml_pow, [.obj (.view1D .vec) .d true, .obj (.view1D .vec) .d true, .obj (.view1D .mat) .d false], .vmlvec_vvpow, [0, 1, 2]⟩,
  ⟨.vml_pow, [.obj (.view1D .vec) .d true, .obj (.view1D .vec) .d true, .obj (.view1D .ten) .d false], .vmlvec_vvpow, [0, 1, 2]⟩,
  ⟨.vml_pow, [.obj (.view1D .vec) .d true, .obj (.view1D .mat) .d true, .obj .vector .d false], .vmlvec_vvpow, [0, 1, 2]⟩,
  ⟨.vml_pow, [.obj (.view1D .vec) .d true, .obj (.view1D .mat) .d true, .obj (.view1D .vec) .d false], .vmlvec_vvpow, [0, 1, 2]⟩,
  ⟨.vml_pow, [.obj (.view1D .vec) .d true, .obj (.view1D .mat) .d true, .obj (.view1D .mat) .d false], .vmlvec_vvpow, [0, 1, 2]⟩,
  ⟨.vml_pow, [.obj (.view1D .vec) .d true, .obj (.view1D .mat) .d true, .obj (.view1D .ten) .d false], .vmlvec_vvpow, [0, 1, 2]⟩,
  ⟨.vml_pow, [.obj (.view1D .vec) .d true, .obj (.view1D .ten) .d true, .obj .vector .d false], .vmlvec_vvpow, [0, 1, 2]⟩,
  ⟨.vml_pow, [.obj (.view1D .vec) .d true, .obj (.view1D .ten) .d true, .obj (.view1D .vec) .d false], .vmlvec_vvpow, [0, 1, 2]⟩,
  ⟨.vml_pow, [.obj (.view1D .vec) .d true, .obj (.view1D .ten) .d true, .obj (.view1D .mat) .d false], .vmlvec_vvpow, [0, 1, 2]⟩,
  ⟨.vml_pow, [.obj (.view1D .vec) .d true, .obj (.view1D .ten) .d true, .obj (.view1D .ten) .d false], .vmlvec_vvpow, [0, 1, 2]⟩,
  ⟨.vml_pow, [.obj (.view1D .mat) .d true, .obj .vector .d true, .obj .vector .d false], .vmlvec_vvpow, [0, 1, 2]⟩,
  ⟨.vml_pow, [.obj (.view1D .mat) .d true, .obj .vector .d true, .obj (.view1D .vec) .d false], .vmlvec_vvpow, [0, 1, 2]⟩,
  ⟨.vml_pow, [.obj (.view1D .mat) .d true, .obj .vector .d true, .obj (.view1D .mat) .d false], .vmlvec_vvpow, [0, 1, 2]⟩,
  ⟨.vml_pow, [.obj (.view1D .mat) .d true, .obj .vector .d true, .obj (.view1D .ten) .d false], .vmlvec_vvpow, [0, 1, 2]⟩,
  ⟨.vml_pow, [.obj (.view1D .mat) .d true, .obj (.view1D .vec) .d true, .obj .vector .d false], .vmlvec_vvpow, [0, 1, 2]⟩,
  ⟨.vml_pow, [.obj (.view1D .mat) .d true, .obj (.view1D .vec) .d true, .obj (.view1D .vec) .d false], .vmlvec_vvpow, [0, 1, 2]⟩,
  ⟨.vml_pow, [.obj (.view1D .mat) .d true, .obj (.view1D .vec) .d true, .obj (.view1D .mat) .d false], .vmlvec_vvpow, [0, 1, 2]⟩,
  ⟨.vml_pow, [.obj (.view1D .mat) .d true, .obj (.view1D .vec) .d true, .obj (.view1D .ten) .d false], .vmlvec_vvpow, [0, 1, 2]⟩,
  ⟨.vml_pow, [.obj (.view1D .mat) .d true, .obj (.view1D .mat) .d true, .obj .vector .d false], .vmlvec_vvpow, [0, 1, 2]⟩,
  ⟨.vml_pow, [.obj (.view1D .mat) .d true, .obj (.view1D .mat) .d true, .obj (.view1D .vec) .d false], .vmlvec_vvpow, [0, 1, 2]⟩,
  ⟨.vml_pow, [.obj (.view1D .mat) .d true, .obj (.view1D .mat) .d true, .obj (.view1D .mat) .d false], .vmlvec_vvpow, [0, 1, 2]⟩,
  ⟨.vml_pow, [.obj (.view1D .mat) .d true, .obj (.view1D .mat) .d true, .obj (.view1D .ten) .d false], .vmlvec_vvpow, [0, 1, 2]⟩,
  ⟨.vml_pow, [.obj (.view1D .mat) .d true, .obj (.view1D .ten) .d true, .obj .vector .d false], .vmlvec_vvpow, [0, 1, 2]⟩,
  ⟨.vml_pow, [.obj (.view1D .mat) .d true, .obj (.view1D .ten) .d true, .obj (.view1D .vec) .d false], .vmlvec_vvpow, [0, 1, 2]⟩,
  ⟨.vml_pow, [.obj (.view1D .mat) .d true, .obj (.view1D .ten) .d true, .obj (.view1D .mat) .d false], .vmlvec_vvpow, [0, 1, 2]⟩,
  ⟨.vml_pow, [.obj (.view1D .mat) .d true, .obj (.view1D .ten) .d true, .obj (.view1D .ten) .d false], .vmlvec_vvpow, [0, 1, 2]⟩,
  ⟨.vml_pow, [.obj (.view1D .ten) .d true, .obj .vector .d true, .obj .vector .d false], .vmlvec_vvpow, [0, 1, 2]⟩,
  ⟨.vml_pow, [.obj (.view1D .ten) .d true, .obj .vector .d true, .obj (.view1D .vec) .d false], .vmlvec_vvpow, [0, 1, 2]⟩,
  ⟨.vml_pow, [.obj (.view1D .ten) .d true, .obj .vector .d true, .obj (.view1D .mat) .d false], .vmlvec_vvpow, [0, 1, 2]⟩,
  ⟨.vml_pow, [.obj (.view1D .ten) .d true, .obj .vector .d true, .obj (.view1D .ten) .d false], .vmlvec_vvpow, [0, 1, 2]⟩,
  ⟨.vml_pow, [.obj (.view1D .ten) .d true, .obj (.view1D .vec) .d true, .obj .vector .d false], .vmlvec_vvpow, [0, 1, 2]⟩,
  ⟨.vml_pow, [.obj (.view1D .ten) .d true, .obj (.view1D .vec) .d true, .obj (.view1D .vec) .d false], .vmlvec_vvpow, [0, 1, 2]⟩,
  ⟨.vml_pow, [.obj (.view1D .ten) .d true, .obj (.view1D .vec) .d true, .obj (.view1D .mat) .d false], .vmlvec_vvpow, [0, 1, 2]⟩,
  ⟨.vml_pow, [.obj (.view1D .ten) .d true, .obj (.view1D .vec) .d true, .obj (.view1D .ten) .d false], .vmlvec_vvpow, [0, 1, 2]⟩,
  ⟨.vml_pow, [.obj (.view1D .ten) .d true, .obj (.view1D .mat) .d true, .obj .vector .d false], .vmlvec_vvpow, [0, 1, 2]⟩,
  ⟨.vml_pow, [.obj (.view1D .ten) .d true, .obj (.view1D .mat) .d true, .obj (.view1D .vec) .d false], .vmlvec_vvpow, [0, 1, 2]⟩,
  ⟨.vml_pow, [.obj (.view1D .ten) .d true, .obj (.view1D .mat) .d true, .obj (.view1D .mat) .d false], .vmlvec_vvpow, [0, 1, 2]⟩,
  ⟨.vml_pow, [.obj (.view1D .ten) .d true, .obj (.view1D .mat) .d true, .obj (.view1D .ten) .d false], .vmlvec_vvpow, [0, 1, 2]⟩,
  ⟨.vml_pow, [.obj (.view1D .ten) .d true, .obj (.view1D .ten) .d true, .obj .vector .d false], .vmlvec_vvpow, [0, 1, 2]⟩,
  ⟨.vml_pow, [.obj (.view1D .ten) .d true, .obj (.view1D .ten) .d true, .obj (.view1D .vec) .d false], .vmlvec_vvpow, [0, 1, 2]⟩,
  ⟨.vml_pow, [.obj (.view1D .ten) .d true, .obj (.view1D .ten) .d true, .obj (.view1D .mat) .d false], .vmlvec_vvpow, [0, 1, 2]⟩,
  ⟨.vml_pow, [.obj (.view1D .ten) .d true, .obj (.view1D .ten) .d true, .obj (.view1D .ten) .d false], .vmlvec_vvpow, [0, 1, 2]⟩,
  ⟨.vml_pow, [.obj .vector .s true, .obj .vector .s true, .obj .vector .s false], .vmlvec_vvpow, [0, 1, 2]⟩,
  ⟨.vml_pow, [.obj .vector .s true, .obj .vector .s true, .obj (.view1D .vec) .s false], .vmlvec_vvpow, [0, 1, 2]⟩,
  ⟨.vml_pow, [.obj .vector .s true, .obj .vector .s true, .obj (.view1D .mat) .s false], .vmlvec_vvpow, [0, 1, 2]⟩,
  ⟨.vml_pow, [.obj .vector .s true, .obj .vector .s true, .obj (.view1D .ten) .s false], .vmlvec_vvpow, [0, 1, 2]⟩,
  ⟨.vml_pow, [.obj .vector .s true, .obj (.view1D .vec) .s true, .obj .vector .s false], .vmlvec_vvpow, [0, 1, 2]⟩,
  ⟨.vml_pow, [.obj .vector .s true, .obj (.view1D .vec) .s true, .obj (.view1D .vec) .s false], .vmlvec_vvpow, [0, 1, 2]⟩,
  ⟨.vml_pow, [.obj .vector .s true, .obj (.view1D .vec) .s true, .obj (.view1D .mat) .s false], .vmlvec_vvpow, [0, 1, 2]⟩,
  ⟨.vml_pow, [.obj .vector .s true, .obj (.view1D .vec) .s true, .obj (.view1D .ten) .s false], .vmlvec_vvpow, [0, 1, 2]⟩,
  ⟨.vml_pow, [.obj .vector .s true, .obj (.view1D .mat) .s true, .obj .vector .s false], .vmlvec_vvpow, [0, 1, 2]⟩,
  ⟨.vml_pow, [.obj .vector .s true, .obj (.view1D .mat) .s true, .obj (.view1D .vec) .s false], .vmlvec_vvpow, [0, 1, 2]⟩,
  ⟨.vml_pow, [.obj .vector .s true, .obj (.view1D .mat) .s true, .obj (.view1D .mat) .s false], .vmlvec_vvpow, [0, 1, 2]⟩,
  ⟨.vml_pow, [.obj .vector .s true, .obj (.view1D .mat) .s true, .obj (.view1D .ten) .s false], .vmlvec_vvpow, [0, 1, 2]⟩,
  ⟨.vml_pow, [.obj .vector .s true, .obj (.view1D .ten) .s true, .obj .vector .s false], .vmlvec_vvpow, [0, 1, 2]⟩,
  ⟨.vml_pow, [.obj .vector .s true, .obj (.view1D .ten) .s true, .obj (.view1D .vec) .s false], .vmlvec_vvpow, [0, 1, 2]⟩,
  ⟨.vml_pow, [.obj .vector .s true, .obj (.view1D .ten) .s true, .obj (.view1D .mat) .s false], .vmlvec_vvpow, [0, 1, 2]⟩,
  ⟨.vml_pow, [.obj .vector .s true, .obj (.view1D .ten) .s true, .obj (.view1D .ten) .s false], .vmlvec_vvpow, [0, 1, 2]⟩]

/-- src/vml/vector/vector_vml.cpp:3233-3582 -/
def tVmlVec_9 : List Overload := [
  ⟨.vml_pow, [.obj (.view1D .vec) .s true, .obj .vector .s true, .obj .vector .s false], .vmlvec_vvpow, [0, 1, 2]⟩,
  ⟨.vml_pow, [.obj (.view1D .vec) .s true, .obj .vector .s true, .obj (.view1D .vec) .s false], .vmlvec_vvpow, [0, 1, 2]⟩,
  ⟨.vml_pow, [.obj (.view1D .vec) .s true, .obj .vector .s true, .obj (.view1D .mat) .s false], .vmlvec_vvpow, [0, 1, 2]⟩,
  ⟨.vml_pow, [.obj (.view1D .vec) .s true, .obj .vector .s true, .obj (.view1D .ten) .s false], .vmlvec_vvpow, [0, 1, 2]⟩,
  ⟨.vml_pow, [.obj (.view1D .vec) .s true, .obj (.view1D .vec) .s true, .obj .vector .s false], .vmlvec_vvpow, [0, 1, 2]⟩,
  ⟨.vml_pow, [.obj (.view1D .vec) .s true, .obj (.view1D .vec) .s true, .obj (.view1D .vec) .s false], .vmlvec_vvpow, [0, 1, 2]⟩,
  ⟨.vml_pow, [.obj (.view1D .vec) .s true, .obj (.view1D .vec) .s true, .obj (.view1D .mat) .s false], .vmlvec_vvpow, [0, 1, 2]⟩,
  ⟨.vml_pow, [.obj (.view1D .vec) .s true, .obj (.view1D .vec) .s true, .obj (.view1D .ten) .s false], .vmlvec_vvpow, [0, 1, 2]⟩,
  ⟨.vml_pow, [.obj (.view1D .vec) .s true, .obj (.view1D .mat) .s true, .obj .vector .s false], .vmlvec_vvpow, [0, 1, 2]⟩,
  ⟨.vml_pow, [.obj (.view1D .vec) .s true, .obj (.view1D .mat) .s true, .obj (.view1D .vec) .s false], .vmlvec_vvpow, [0, 1, 2]⟩,
  ⟨.vml_pow, [.obj (.view1D .vec) .s true, .obj (.view1D .mat) .s true, .obj (.view1D .mat) .s false], .vmlvec_vvpow, [0, 1, 2]⟩,
  ⟨.vml_pow, [.obj (.view1D .vec) .s true, .obj (.view1D .mat) .s true, .obj (.view1D .ten) .s false], .vmlvec_vvpow, [0, 1, 2]⟩,
  ⟨.vml_pow, [.obj (.view1D .vec) .s true, .obj (.view1D .ten) .s true, .obj .vector .s false], .vmlvec_vvpow, [0, 1, 2]⟩,
  ⟨.vml_pow, [.obj (.view1D .vec) .s true, .obj (.view1D .ten) .s true, .obj (.view1D .vec) .s false], .vmlvec_vvpow, [0, 1, 2]⟩,
  ⟨.vml_pow, [.obj (.view1D .vec) .s true, .obj (.view1D .ten) .s true, .obj (.view1D .mat) .s false], .vmlvec_vvpow, [0, 1, 2]⟩,
  ⟨.vml_pow, [.obj (.view1D .vec) .s true, .obj (.view1D .ten) .s true, .obj (.view1D .ten) .s false], .vmlvec_vvpow, [0, 1, 2]⟩,
  ⟨.vml_pow, [.obj (.view1D .mat) .s true, .obj .vector .s true, .obj .vector .s false], .vmlvec_vvpow, [0, 1, 2]⟩,
  ⟨.vml_pow, [.obj (.view1D .mat) .s true, .obj .vector .s true, .obj (.view1D .vec) .s false], .vmlvec_vvpow, [0, 1, 2]⟩,
  ⟨.vml_pow, [.obj (.view1D .mat) .s true, .obj .vector .s true, .obj (.view1D .mat) .s false], .vmlvec_vvpow, [0, 1, 2]⟩,
  ⟨.vml_pow, [.obj (.view1D .mat) .s true, .obj .vector .s true, .obj (.view1D .ten) .s false], .vmlvec_vvpow, [0, 1, 2]⟩,
  ⟨.vml_pow, [.obj (.view1D .mat) .s true, .obj (.view1D .vec) .s true, .obj .vector .s false], .vmlvec_vvpow, [0, 1, 2]⟩,
  ⟨.vml_pow, [.obj (.view1D .mat) .s true, .obj (.view1D .vec) .s true, .obj (.view1D .vec) .s false], .vmlvec_vvpow, [0, 1, 2]⟩,
  ⟨.vml_pow, [.obj (.view1D .mat) .s true, .obj (.view1D .vec) .s true, .obj (.view1D .mat) .s false], .vmlvec_vvpow, [0, 1, 2]⟩,
  ⟨.vml_pow, [.obj (.view1D .mat) .s true, .obj (.view1D .vec) .s true, .obj (.view1D .ten) .s false], .vmlvec_vvpow, [0, 1, 2]⟩,
  ⟨.vml_pow, [.obj (.view1D .mat) .s true, .obj (.view1D .mat) .s true, .obj .vector .s false], .vmlvec_vvpow, [0, 1, 2]⟩,
  ⟨.vml_pow, [.obj (.view1D .mat) .s true, .obj (.view1D .mat) .s true, .obj (.view1D .vec) .s false], .vmlvec_vvpow, [0, 1, 2]⟩,
  ⟨.vml_pow, [.obj (.view1D .mat) .s true, .obj (.view1D .mat) .s true, .obj (.view1D .mat) .s false], .vmlvec_vvpow, [0, 1, 2]⟩,
  ⟨.vml_pow, [.obj (.view1D .mat) .s true, .obj (.view1D .mat) .s true, .obj (.view1D .ten) .s false], .vmlvec_vvpow, [0, 1, 2]⟩,
  ⟨.vml_pow, [.obj (.view1D .mat) .s true, .obj (.view1D .ten) .s true, .obj .vector .s false], .vmlvec_vvpow, [0, 1, 2]⟩,
  ⟨.vml_pow, [.obj (.view1D .mat) .s true, .obj (.view1D .ten) .s true, .obj (.view1D .vec) .s false], .vmlvec_vvpow, [0, 1, 2]⟩,
  ⟨.vml_pow, [.obj (.view1D .mat) .s true, .obj (.view1D .ten) .s true, .obj (.view1D .mat) .s false], .vmlvec_vvpow, [0, 1, 2]⟩,
  ⟨.vml_pow, [.obj (.view1D .mat) .s true, .obj (.view1D .ten) .s true, .obj (.view1D .ten) .s false], .vmlvec_vvpow, [0, 1, 2]⟩,
  ⟨.vml_pow, [.obj (.view1D .ten) .s true, .obj .vector .s true, .obj .vector .s false], .vmlvec_vvpow, [0, 1, 2]⟩,
  ⟨.vml_pow, [.obj (.view1D .ten) .s true, .obj .vector .s true, .obj (.view1D .vec) .s false], .vmlvec_vvpow, [0, 1, 2]⟩,
  ⟨.vml_pow, [.obj (.view1D .ten) .s true, .obj .vector .s true, .obj (.view1D .mat) .s false], .vmlvec_vvpow, [0, 1, 2]⟩,
  ⟨.vml_pow, [.obj (.view1D .ten) .s true, .obj .vector .s true, .obj (.view1D .ten) .s false], .vmlvec_vvpow, [0, 1, 2]⟩,
  ⟨.vml_pow, [.obj (.view1D .ten) .s true, .obj (.view1D .vec) .s true, .obj .vector .s false], .vmlvec_vvpow, [0, 1, 2]⟩,
  ⟨.vml_pow, [.obj (.view1D .ten) .s true, .obj (.view1D .vec) .s true, .obj (.view1D .vec) .s false], .vmlvec_vvpow, [0, 1, 2]⟩,
  ⟨.vml_pow, [.obj (.view1D .ten) .s true, .obj (.view1D .vec) .s true, .obj (.view1D .mat) .s false], .vmlvec_vvpow, [0, 1, 2]⟩,
  ⟨.vml_pow, [.obj (.view1D .ten) .s true, .obj (.view1D .vec) .s true, .obj (.view1D .ten) .s false], .vmlvec_vvpow, [0, 1, 2]⟩,
  ⟨.vml_pow, [.obj (.view1D .ten) .s true, .obj (.view1D .mat) .s true, .obj .vector .s false], .vmlvec_vvpow, [0, 1, 2]⟩,
  ⟨.vml_pow, [.obj (.view1D .ten) .s true, .obj (.view1D .mat) .s true, .obj (.view1D .vec) .s false], .vmlvec_vvpow, [0, 1, 2]⟩,
  ⟨.vml_pow, [.obj (.view1D .ten) .s true, .obj (.view1D .mat) .s true, .obj (.view1D .mat) .s false], .vmlvec_vvpow, [0, 1, 2]⟩,
  ⟨.vml_pow, [.obj (.view1D .ten) .s true, .obj (.view1D .mat) .s true, .obj (.view1D .ten) .s false], .vmlvec_vvpow, [0, 1, 2]⟩,
  ⟨.vml_pow, [.obj (.view1D .ten) .s true, .obj (.view1D .ten) .s true, .obj .vector .s false], .vmlvec_vvpow, [0, 1, 2]⟩,
  ⟨.vml_pow, [.obj (.view1D .ten) .s true, .obj (.view1D .ten) .s true, .obj (.view1D .vec) .s false], .vmlvec_vvpow, [0, 1, 2]⟩,
  ⟨.vml_pow, [.obj (.view1D .ten) .s true, .obj (.view1D .ten) .s true, .obj (.view1D .mat) .s false], .vmlvec_vvpow, [0, 1, 2]⟩,
  ⟨.vml_pow, [.obj (.view1D .ten) .s true, .obj (.view1D .ten) .s true, .obj (.view1D .ten) .s false], .vmlvec_vvpow, [0, 1, 2]⟩,
  ⟨.vml_pow, [.obj .vector .d true, .scal .d, .obj .vector .d false], .vmlvec_svpow, [0, 1, 2]⟩,
  ⟨.vml_pow, [.obj .vector .d true, .scal .d, .obj (.view1D .vec) .d false], .vmlvec_svpow, [0, 1, 2]⟩,
  ⟨.vml_pow, [.obj .vector .d true, .scal .d, .obj (.view1D .mat) .d false], .vmlvec_svpow, [0, 1, 2]⟩,
  ⟨.vml_pow, [.obj .vector .d true, .scal .d, .obj (.view1D .ten) .d false], .vmlvec_svpow, [0, 1, 2]⟩,
  ⟨.vml_pow, [.obj (.view1D .vec) .d true, .scal .d, .obj .vector .d false], .vmlvec_svpow, [0, 1, 2]⟩,
  ⟨.vml_pow, [.obj (.view1D .vec) .d true, .scal .d, .obj (.view1D .vec) .d false], .vmlvec_svpow, [0, 1, 2]⟩,
  ⟨.vml_pow, [.obj (.view1D .vec) .d true, .scal .d, .obj (.view1D .mat) .d false], .vmlvec_svpow, [0, 1, 2]⟩,
  ⟨.vml_pow, [.obj (.view1D .vec) .d true, .scal .d, .obj (.view1D .ten) .d false], .vmlvec_svpow, [0, 1, 2]⟩,
  ⟨.vml_pow, [.obj (.view1D .mat) .d true, .scal .d, .obj .vector .d false], .vmlvec_svpow, [0, 1, 2]⟩,
  ⟨.vml_pow, [.obj (.view1D .mat) .d true, .scal .d, .obj (.view1D .vec) .d false], .vmlvec_svpow, [0, 1, 2]⟩,
  ⟨.vml_pow, [.obj (.view1D .mat) .d true, .scal .d, .obj (.view1D .mat) .d false], .vmlvec_svpow, [0, 1, 2]⟩,
  ⟨.vml_pow, [.obj (.view1D .mat) .d true, .scal .d, .obj (.view1D .ten) .d false], .vmlvec_svpow, [0, 1, 2]⟩,
  ⟨.vml_pow, [.obj (.view1D .ten) .d true, .scal .d, .obj .vector .d false], .vmlvec_svpow, [0, 1, 2]⟩,
  ⟨.vml_pow, [.obj (.view1D .ten) .d true, .scal .d, .obj (.view1D .vec) .d false], .vmlvec_svpow, [0, 1, 2]⟩,
  ⟨.vml_pow, [.obj (.view1D .ten) .d true, .scal .d, .obj (.view1D .mat) .d false], .vmlvec_svpow, [0, 1, 2]⟩,
  ⟨.vml_pow, [.obj (.view1D .ten) .d true, .scal .d, .obj (.view1D .ten) .d false], .vmlvec_svpow, [0, 1, 2]⟩,
  ⟨.vml_pow, [.obj .vector .s true, .scal .s, .obj .vector .s false], .vmlvec_svpow, [0, 1, 2]⟩,
  ⟨.vml_pow, [.obj .vector .s true, .scal .s, .obj (.view1D .vec) .s false], .vmlvec_svpow, [0, 1, 2]⟩,
  ⟨.vml_pow, [.obj .vector .s true, .scal .s, .obj (.view1D .mat) .s false], .vmlvec_svpow, [0, 1, 2]⟩,
  ⟨.vml_pow, [.obj .vector .s true, .scal .s, .obj (.view1D .ten) .s false], .vmlvec_svpow, [0, 1, 2]⟩,
  ⟨.vml_pow, [.obj (.view1D .vec) .s true, .scal .s, .obj .vector .s false], .vmlvec_svpow, [0, 1, 2]⟩,
  ⟨.vml_pow, [.obj (.view1D .vec) .s true, .scal .s, .obj (.view1D .vec) .s false], .vmlvec_svpow, [0, 1, 2]⟩,
  ⟨.vml_pow, [.obj (.view1D .vec) .s true, .scal .s, .obj (.view1D .mat) .s false], .vmlvec_svpow, [0, 1, 2]⟩,
  ⟨.vml_pow, [.obj (.view1D .vec) .s true, .scal .s, .obj (.view1D .ten) .s false], .vmlvec_svpow, [0, 1, 2]⟩,
  ⟨.vml_pow, [.obj (.view1D .mat) .s true, .scal .s, .obj .vector .s false], .vmlvec_svpow, [0, 1, 2]⟩,
  ⟨.vml_pow, [.obj (.view1D .mat) .s true, .scal .s, .obj (.view1D .vec) .s false], .vmlvec_svpow, [0, 1, 2]⟩,
  ⟨.vml_pow, [.obj (.view1D .mat) .s true, .scal .s, .obj (.view1D .mat) .s false], .vmlvec_svpow, [0, 1, 2]⟩,
  ⟨.vml_pow, [.obj (.view1D .mat) .s true, .scal .s, .obj (.view1D .ten) .s false], .vmlvec_svpow, [0, 1, 2]⟩,
  ⟨.vml_pow, [.obj (.view1D .ten) .s true, .scal .s, .obj .vector .s false], .vmlvec_svpow, [0, 1, 2]⟩,
  ⟨.vml_pow, [.obj (.view1D .ten) .s true, .scal .s, .obj (.view1D .vec) .s false], .vmlvec_svpow, [0, 1, 2]⟩,
  ⟨.vml_pow, [.obj (.view1D .ten) .s true, .scal .s, .obj (.view1D .mat) .s false], .vmlvec_svpow, [0, 1, 2]⟩,
  ⟨.vml_pow, [.obj (.view1D .ten) .s true, .scal .s, .obj (.view1D .ten) .s false], .vmlvec_svpow, [0, 1, 2]⟩]

/-- src/vml/vector/vector_vml.cpp:3584-3868 -/
def tVmlVec_10 : List Overload := [
  ⟨.vml_sin, [.obj .vector .d true, .obj .vector .d false], .vmlvec_vsin, [0, 1]⟩,
  ⟨.vml_sin, [.obj .vector .d true, .obj (.view1D .vec) .d false], .vmlvec_vsin, [0, 1]⟩,
  ⟨.vml_sin, [.obj .vector .d true, .obj (.view1D .mat) .d false], .vmlvec_vsin, [0, 1]⟩,
  ⟨.vml_sin, [.obj .vector .d true, .obj (.view1D .ten) .d false], .vmlvec_vsin, [0, 1]⟩,
  ⟨.vml_sin, [.obj (.view1D .vec) .d true, .obj .vector .d false], .vmlvec_vsin, [0, 1]⟩,
  ⟨.vml_sin, [.obj (.view1D .vec) .d true, .obj (.view1D .vec) .d false], .vmlvec_vsin, [0, 1]⟩,
  ⟨.vml_sin, [.obj (.view1D .vec) .d true, .obj (.view1D .mat) .d false], .vmlvec_vsin, [0, 1]⟩,
  ⟨.vml_sin, [.obj (.view1D .vec) .d true, .obj (.view1D .ten) .d false], .vmlvec_vsin, [0, 1]⟩,
  ⟨.vml_sin, [.obj (.view1D .mat) .d true, .obj .vector .d false], .vmlvec_vsin, [0, 1]⟩,
  ⟨.vml_sin, [.obj (.view1D .mat) .d true, .obj (.view1D .vec) .d false], .vmlvec_vsin, [0, 1]⟩,
  ⟨.vml_sin, [.obj (.view1D .mat) .d true, .obj (.view1D .mat) .d false], .vmlvec_vsin, [0, 1]⟩,
  ⟨.vml_sin, [.obj (.view1D .mat) .d true, .obj (.view1D .ten) .d false], .vmlvec_vsin, [0, 1]⟩,
  ⟨.vml_sin, [.obj (.view1D .ten) .d true, .obj .vector .d false], .vmlvec_vsin, [0, 1]⟩,
  ⟨.vml_sin, [.obj (.view1D .ten) .d true, .obj (.view1D .vec) .d false], .vmlvec_vsin, [0, 1]⟩,
  ⟨.vml_sin, [.obj (.view1D .ten) .d true, .obj (.view1D .mat) .d false], .vmlvec_vsin, [0, 1]⟩,
  ⟨.vml_sin, [.obj (.view1D .ten) .d true, .obj (.view1D .ten) .d false], .vmlvec_vsin, [0, 1]⟩,
  ⟨.vml_sin, [.obj .vector .s true, .obj .vector .s false], .vmlvec_vsin, [0, 1]⟩,
  ⟨.vml_sin, [.obj .vector .s true, .obj (.view1D .vec) .s false], .vmlvec_vsin, [0, 1]⟩,
  ⟨.vml_sin, [.obj .vector .s true, .obj (.view1D .mat) .s false], .vmlvec_vsin, [0, 1]⟩,
  ⟨.vml_sin, [.obj .vector .s true, .obj (.view1D .ten) .s false], .vmlvec_vsin, [0, 1]⟩,
  ⟨.vml_sin, [.obj (.view1D .vec) .s true, .obj .vector .s false], .vmlvec_vsin, [0, 1]⟩,
  ⟨.vml_sin, [.obj (.view1D .vec) .s true, .obj (.view1D .vec) .s false], .vmlvec_vsin, [0, 1]⟩,
  ⟨.vml_sin, [.obj (.view1D .vec) .s true, .obj (.view1D .mat) .s false], .vmlvec_vsin, [0, 1]⟩,
  ⟨.vml_sin, [.obj (.view1D .vec) .s true, .obj (.view1D .ten) .s false], .vmlvec_vsin, [0, 1]⟩,
  ⟨.vml_sin, [.obj (.view1D .mat) .s true, .obj .vector .s false], .vmlvec_vsin, [0, 1]⟩,
  ⟨.vml_sin, [.obj (.view1D .mat) .s true, .obj (.view1D .vec) .s false], .vmlvec_vsin, [0, 1]⟩,
  ⟨.vml_sin, [.obj (.view1D .mat) .s true, .obj (.view1D .mat) .s false], .vmlvec_vsin, [0, 1]⟩,
  ⟨.vml_sin, [.obj (.view1D .mat) .s true, .obj (.view1D .ten) .s false], .vmlvec_vsin, [0, 1]⟩,
  ⟨.vml_sin, [.obj (.view1D .ten) .s true, .obj .vector .s false], .vmlvec_vsin, [0, 1]⟩,
  ⟨.vml_sin, [.obj (.view1D .ten) .s true, .obj (.view1D .vec) .s false], .vmlvec_vsin, [0, 1]⟩,
  ⟨.vml_sin, [.obj (.view1D .ten) .s true, .obj (.view1D .mat) .s false], .vmlvec_vsin, [0, 1]⟩,
  ⟨.vml_sin, [.obj (.view1D .ten) .s true, .obj (.view1D .ten) .s false], .vmlvec_vsin, [0, 1]⟩,
  ⟨.vml_sqrt, [.obj .vector .d true, .obj .vector .d false], .vmlvec_vsqrt, [0, 1]⟩,
  ⟨.vml_sqrt, [.obj .vector .d true, .obj (.view1D .vec) .d false], .vmlvec_vsqrt, [0, 1]⟩,
  ⟨.vml_sqrt, [.obj .vector .d true, .obj (.view1D .mat) .d false], .vmlvec_vsqrt, [0, 1]⟩,
  ⟨.vml_sqrt, [.obj .vector .d true, .obj (.view1D .ten) .d false], .vmlvec_vsqrt, [0, 1]⟩,
  ⟨.vml_sqrt, [.obj (.view1D .vec) .d true, .obj .vector .d false], .vmlvec_vsqrt, [0, 1]⟩,
  ⟨.vml_sqrt, [.obj (.view1D .vec) .d true, .obj (.view1D .vec) .d false], .vmlvec_vsqrt, [0, 1]⟩,
  ⟨.vml_sqrt, [.obj (.view1D .vec) .d true, .obj (.view1D .mat) .d false], .vmlvec_vsqrt, [0, 1]⟩,
  ⟨.vml_sqrt, [.obj (.view1D .vec) .d true, .obj (.view1D .ten) .d false], .vmlvec_vsqrt, [0, 1]⟩,
  ⟨.vml_sqrt, [.obj (.view1D .mat) .d true, .obj .vector .d false], .vmlvec_vsqrt, [0, 1]⟩,
  ⟨.vml_sqrt, [.obj (.view1D .mat) .d true, .obj (.view1D .vec) .d false], .vmlvec_vsqrt, [0, 1]⟩,
  ⟨.vml_sqrt, [.obj (.view1D .mat) .d true, .obj (.view1D .mat) .d false], .vmlvec_vsqrt, [0, 1]⟩,
  ⟨.vml_sqrt, [.obj (.view1D .mat) .d true, .obj (.view1D .ten) .d false], .vmlvec_vsqrt, [0, 1]⟩,
  ⟨.vml_sqrt, [.obj (.view1D .ten) .d true, .obj .vector .d false], .vmlvec_vsqrt, [0, 1]⟩,
  ⟨.vml_sqrt, [.obj (.view1D .ten) .d true, .obj (.view1D .vec) .d false], .vmlvec_vsqrt, [0, 1]⟩,
  ⟨.vml_sqrt, [.obj (.view1D .ten) .d true, .obj (.view1D .mat) .d false], .vmlvec_vsqrt, [0, 1]⟩,
  ⟨.vml_sqrt, [.obj (.view1D .ten) .d true, .obj (.view1D .ten) .d false], .vmlvec_vsqrt, [0, 1]⟩,
  ⟨.vml_sqrt, [.obj .vector .s true, .obj .vector .s false], .vmlvec_vsqrt, [0, 1]⟩,
  ⟨.vml_sqrt, [.obj .vector .s true, .obj (.view1D .vec) .s false], .vmlvec_vsqrt, [0, 1]⟩,
  ⟨.vml_sqrt, [.obj .vector .s true, .obj (.view1D .mat) .s false], .vmlvec_vsqrt, [0, 1]⟩,
  ⟨.vml_sqrt, [.obj .vector .s true, .obj (.view1D .ten) .s false], .vmlvec_vsqrt, [0, 1]⟩,
  ⟨.vml_sqrt, [.obj (.view1D .vec) .s true, .obj .vector .s false], .vmlvec_vsqrt, [0, 1]⟩,
  ⟨.vml_sqrt, [.obj (.view1D .vec) .s true, .obj (.view1D .vec) .s false], .vmlvec_vsqrt, [0, 1]⟩,
  ⟨.vml_sqrt, [.obj (.view1D .vec) .s true, .obj (.view1D .mat) .s false], .vmlvec_vsqrt, [0, 1]⟩,
  ⟨.vml_sqrt, [.obj (.view1D .vec) .s true, .obj (.view1D .ten) .s false], .vmlvec_vsqrt, [0, 1]⟩,
  ⟨.vml_sqrt, [.obj (.view1D .mat) .s true, .obj .vector .s false], .vmlvec_vsqrt, [0, 1]⟩,
  ⟨.vml_sqrt, [.obj (.view1D .mat) .s true, .obj (.view1D .vec) .s false], .vmlvec_vsqrt, [0, 1]⟩,
  ⟨.vml_sqrt, [.obj (.view1D .mat) .s true, .obj (.view1D .mat) .s false], .vmlvec_vsqrt, [0, 1]⟩,
  ⟨.vml_sqrt, [.obj (.view1D .mat) .s true, .obj (.view1D .ten) .s false], .vmlvec_vsqrt, [0, 1]⟩,
  ⟨.vml_sqrt, [.obj (.view1D .ten) .s true, .obj .vector .s false], .vmlvec_vsqrt, [0, 1]⟩,
  ⟨.vml_sqrt, [.obj (.view1D .ten) .s true, .obj (.view1D .vec) .s false], .vmlvec_vsqrt, [0, 1]⟩,
  ⟨.vml_sqrt, [.obj (.view1D .ten) .s true, .obj (.view1D .mat) .s false], .vmlvec_vsqrt, [0, 1]⟩,
  ⟨.vml_sqrt, [.obj (.view1D .ten) .s true, .obj (.view1D .ten) .s false], .vmlvec_vsqrt, [0, 1]⟩,
  ⟨.vml_sinh, [.obj .vector .d true, .obj .vector .d false], .vmlvec_vsinh, [0, 1]⟩,
  ⟨.vml_sinh, [.obj .vector .d true, .obj (.view1D .vec) .d false], .vmlvec_vsinh, [0, 1]⟩,
  ⟨.vml_sinh, [.obj .vector .d true, .obj (.view1D .mat) .d false], .vmlvec_vsinh, [0, 1]⟩,
  ⟨.vml_sinh, [.obj .vector .d true, .obj (.view1D .ten) .d false], .vmlvec_vsinh, [0, 1]⟩,
  ⟨.vml_sinh, [.obj (.view1D .vec) .d true, .obj .vector .d false], .vmlvec_vsinh, [0, 1]⟩,
  ⟨.vml_sinh, [.obj (.view1D .vec) .d true, .obj (.view1D .vec) .d false], .vmlvec_vsinh, [0, 1]⟩,
  ⟨.vml_sinh, [.obj (.view1D .vec) .d true, .obj (.view1D .mat) .d false], .vmlvec_vsinh, [0, 1]⟩,
  ⟨.vml_sinh, [.obj (.view1D .vec) .d true, .obj (.view1D .ten) .d false], .vmlvec_vsinh, [0, 1]⟩,
  ⟨.vml_sinh, [.obj (.view1D .mat) .d true, .obj .vector .d false], .vmlvec_vsinh, [0, 1]⟩,
  ⟨.vml_sinh, [.obj (.view1D .mat) .d true, .obj (.view1D .vec) .d false], .vmlvec_vsinh, [0, 1]⟩,
  ⟨.vml_sinh, [.obj (.view1D .mat) .d true, .obj (.view1D .mat) .d false], .vmlvec_vsinh, [0, 1]⟩,
  ⟨.vml_sinh, [.obj (.view1D .mat) .d true, .obj (.view1D .ten) .d false], .vmlvec_vsinh, [0, 1]⟩,
  ⟨.vml_sinh, [.obj (.view1D .ten) .d true, .obj .vector .d false], .vmlvec_vsinh, [0, 1]⟩,
  ⟨.vml_sinh, [.obj (.view1D .ten) .d true, .obj (.view1D .vec) .d false], .vmlvec_vsinh, [0, 1]⟩,
  ⟨.vml_sinh, [.obj (.view1D .ten) .d true, .obj (.view1D .mat) .d false], .vmlvec_vsinh, [0, 1]⟩,
  ⟨.vml_sinh, [.obj (.view1D .ten) .d true, .obj (.view1D .ten) .d false], .vmlvec_vsinh, [0, 1]⟩]

/-- src/vml/vector/vector_vml.cpp:3869-4153 -/
def tVmlVec_11 : List Overload := [
  ⟨.vml_sinh, [.obj .vector .s true, .obj .vector .s false], .vmlvec_vsinh, [0, 1]⟩,
  ⟨.vml_sinh, [.obj .vector .s true, .obj (.view1D .vec) .s false], .vmlvec_vsinh, [0, 1]⟩,
  ⟨.vml_sinh, [.obj .vector .s true, .obj (.view1D .mat) .s false], .vmlvec_vsinh, [0, 1]⟩,
  ⟨.vml_sinh, [.obj .vector .s true, .obj (.view1D .ten) .s false], .vmlvec_vsinh, [0, 1]⟩,
  ⟨.vml_sinh, [.obj (.view1D .vec) .s true, .obj .vector .s false], .vmlvec_vsinh, [0, 1]⟩,
  ⟨.vml_sinh, [.obj (.view1D .vec) .s true, .obj (.view1D .vec) .s false], .vmlvec_vsinh, [0, 1]⟩,
  ⟨.vml_sinh, [.obj (.view1D .vec) .s true, .obj (.view1D .mat) .s false], .vmlvec_vsinh, [0, 1]⟩,
  ⟨.vml_sinh, [.obj (.view1D .vec) .s true, .obj (.view1D .ten) .s false], .vmlvec_vsinh, [0, 1]⟩,
  ⟨.vml_sinh, [.obj (.view1D .mat) .s true, .obj .vector .s false], .vmlvec_vsinh, [0, 1]⟩,
  ⟨.vml_sinh, [.obj (.view1D .mat) .s true, .obj (.view1D .vec) .s false], .vmlvec_vsinh, [0, 1]⟩,
  ⟨.vml_sinh, [.obj (.view1D .mat) .s true, .obj (.view1D .mat) .s false], .vmlvec_vsinh, [0, 1]⟩,
  ⟨.vml_sinh, [.obj (.view1D .mat) .s true, .obj (.view1D .ten) .s false], .vmlvec_vsinh, [0, 1]⟩,
  ⟨.vml_sinh, [.obj (.view1D .ten) .s true, .obj .vector .s false], .vmlvec_vsinh, [0, 1]⟩,
  ⟨.vml_sinh, [.obj (.view1D .ten) .s true, .obj (.view1D .vec) .s false], .vmlvec_vsinh, [0, 1]⟩,
  ⟨.vml_sinh, [.obj (.view1D .ten) .s true, .obj (.view1D .mat) .s false], .vmlvec_vsinh, [0, 1]⟩,
  ⟨.vml_sinh, [.obj (.view1D .ten) .s true, .obj (.view1D .ten) .s false], .vmlvec_vsinh, [0, 1]⟩,
  ⟨.vml_asin, [.obj .vector .d true, .obj .vector .d false], .vmlvec_vasin, [0, 1]⟩,
  ⟨.vml_asin, [.obj .vector .d true, .obj (.view1D .vec) .d false], .vmlvec_vasin, [0, 1]⟩,
  ⟨.vml_asin, [.obj .vector .d true, .obj (.view1D .mat) .d false], .vmlvec_vasin, [0, 1]⟩,
  ⟨.vml_asin, [.obj .vector .d true, .obj (.view1D .ten) .d false], .vmlvec_vasin, [0, 1]⟩,
  ⟨.vml_asin, [.obj (.view1D .vec) .d true, .obj .vector .d false], .vmlvec_vasin, [0, 1]⟩,
  ⟨.vml_asin, [.obj (.view1D .vec) .d true, .obj (.view1D .vec) .d false], .vmlvec_vasin, [0, 1]⟩,
  ⟨.vml_asin, [.obj (.view1D .vec) .d true, .obj (.view1D .mat) .d false], .vmlvec_vasin, [0, 1]⟩,
  ⟨.vml_asin, [.obj (.view1D .vec) .d true, .obj (.view1D .ten) .d false], .vmlvec_vasin, [0, 1]⟩,
  ⟨.vml_asin, [.obj (.view1D .mat) .d true, .obj .vector .d false], .vmlvec_vasin, [0, 1]⟩,
  ⟨.vml_asin, [.obj (.view1D .mat) .d true, .obj (.view1D .vec) .d false], .vmlvec_vasin, [0, 1]⟩,
  ⟨.vml_asin, [.obj (.view1D .mat) .d true, .obj (.view1D .mat) .d false], .vmlvec_vasin, [0, 1]⟩,
  ⟨.vml_asin, [.obj (.view1D .mat) .d true, .obj (.view1D .ten) .d false], .vmlvec_vasin, [0, 1]⟩,
  ⟨.vml_asin, [.obj (.view1D .ten) .d true, .obj .vector .d false], .vmlvec_vasin, [0, 1]⟩,
  ⟨.vml_asin, [.obj (.view1D .ten) .d true, .obj (.view1D .vec) .d false], .vmlvec_vasin, [0, 1]⟩,
  ⟨.vml_asin, [.obj (.view1D .ten) .d true, .obj (.view1D .mat) .d false], .vmlvec_vasin, [0, 1]⟩,
  ⟨.vml_asin, [.obj (.view1D .ten) .d true, .obj (.view1D .ten) .d false], .vmlvec_vasin, [0, 1]⟩,
  ⟨.vml_asin, [.obj .vector .s true, .obj .vector .s false], .vmlvec_vasin, [0, 1]⟩,
  ⟨.vml_asin, [.obj .vector .s true, .obj (.view1D .vec) .s false], .vmlvec_vasin, [0, 1]⟩,
  ⟨.vml_asin, [.obj .vector .s true, .obj (.view1D .mat) .s false], .vmlvec_vasin, [0, 1]⟩,
  ⟨.vml_asin, [.obj .vector .s true, .obj (.view1D .ten) .s false], .vmlvec_vasin, [0, 1]⟩,
  ⟨.vml_asin, [.obj (.view1D .vec) .s true, .obj .vector .s false], .vmlvec_vasin, [0, 1]⟩,
  ⟨.vml_asin, [.obj (.view1D .vec) .s true, .obj (.view1D .vec) .s false], .vmlvec_vasin, [0, 1]⟩,
  ⟨.vml_asin, [.obj (.view1D .vec) .s true, .obj (.view1D .mat) .s false], .vmlvec_vasin, [0, 1]⟩,
  ⟨.vml_asin, [.obj (.view1D .vec) .s true, .obj (.view1D .ten) .s false], .vmlvec_vasin, [0, 1]⟩,
  ⟨.vml_asin, [.obj (.view1D .mat) .s true, .obj .vector .s false], .vmlvec_vasin, [0, 1]⟩,
  ⟨.vml_asin, [.obj (.view1D .mat) .s true, .obj (.view1D .vec) .s false], .vmlvec_vasin, [0, 1]⟩,
  ⟨.vml_asin, [.obj (.view1D .mat) .s true, .obj (.view1D .mat) .s false], .vmlvec_vasin, [0, 1]⟩,
  ⟨.vml_asin, [.obj (.view1D .mat) .s true, .obj (.view1D .ten) .s false], .vmlvec_vasin, [0, 1]⟩,
  ⟨.vml_asin, [.obj (.view1D .ten) .s true, .obj .vector .s false], .vmlvec_vasin, [0, 1]⟩,
  ⟨.vml_asin, [.obj (.view1D .ten) .s true, .obj (.view1D .vec) .s false], .vmlvec_vasin, [0, 1]⟩,
  ⟨.vml_asin, [.obj (.view1D .ten) .s true, .obj (.view1D .mat) .s false], .vmlvec_vasin, [0, 1]⟩,
  ⟨.vml_asin, [.obj (.view1D .ten) .s true, .obj (.view1D .ten) .s false], .vmlvec_vasin, [0, 1]⟩,
  ⟨.vml_asinh, [.obj .vector .d true, .obj .vector .d false], .vmlvec_vasinh, [0, 1]⟩,
  ⟨.vml_asinh, [.obj .vector .d true, .obj (.view1D .vec) .d false], .vmlvec_vasinh, [0, 1]⟩,
  ⟨.vml_asinh, [.obj .vector .d true, .obj (.view1D .mat) .d false], .vmlvec_vasinh, [0, 1]⟩,
  ⟨.vml_asinh, [.obj .vector .d true, .obj (.view1D .ten) .d false], .vmlvec_vasinh, [0, 1]⟩,
  ⟨.vml_asinh, [.obj (.view1D .vec) .d true, .obj .vector .d false], .vmlvec_vasinh, [0, 1]⟩,
  ⟨.vml_asinh, [.obj (.view1D .vec) .d true, .obj (.view1D .vec) .d false], .vmlvec_vasinh, [0, 1]⟩,
  ⟨.vml_asinh, [.obj (.view1D .vec) .d true, .obj (.view1D .mat) .d false], .vmlvec_vasinh, [0, 1]⟩,
  ⟨.vml_asinh, [.obj (.view1D .vec) .d true, .obj (.view1D .ten) .d false], .vmlvec_vasinh, [0, 1]⟩,
  ⟨.vml_asinh, [.obj (.view1D .mat) .d true, .obj .vector .d false], .vmlvec_vasinh, [0, 1]⟩,
  ⟨.vml_asinh, [.obj (.view1D .mat) .d true, .obj (.view1D .vec) .d false], .vmlvec_vasinh, [0, 1]⟩,
  ⟨.vml_asinh, [.obj (.view1D .mat) .d true, .obj (.view1D .mat) .d false], .vmlvec_vasinh, [0, 1]⟩,
  ⟨.vml_asinh, [.obj (.view1D .mat) .d true, .obj (.view1D .ten) .d false], .vmlvec_vasinh, [0, 1]⟩,
  ⟨.vml_asinh, [.obj (.view1D .ten) .d true, .obj .vector .d false], .vmlvec_vasinh, [0, 1]⟩,
  ⟨.vml_asinh, [.obj (.view1D .ten) .d true, .obj (.view1D .vec) .d false], .vmlvec_vasinh, [0, 1]⟩,
  ⟨.vml_asinh, [.obj (.view1D .ten) .d true, .obj (.view1D .mat) .d false], .vmlvec_vasinh, [0, 1]⟩,
  ⟨.vml_asinh, [.obj (.view1D .ten) .d true, .obj (.view1D .ten) .d false], .vmlvec_vasinh, [0, 1]⟩,
  ⟨.vml_asinh, [.obj .vector .s true, .obj .vector .s false], .vmlvec_vasinh, [0, 1]⟩,
  ⟨.vml_asinh, [.obj .vector .s true, .obj (.view1D .vec) .s false], .vmlvec_vasinh, [0, 1]⟩,
  ⟨.vml_asinh, [.obj .vector .s true, .obj (.view1D .mat) .s false], .vmlvec_vasinh, [0, 1]⟩,
  ⟨.vml_asinh, [.obj .vector .s true, .obj (.view1D .ten) .s false], .vmlvec_vasinh, [0, 1]⟩,
  ⟨.vml_asinh, [.obj (.view1D .vec) .s true, .obj .vector .s false], .vmlvec_vasinh, [0, 1]⟩,
  ⟨.vml_asinh, [.obj (.view1D .vec) .s true, .obj (.view1D .vec) .s false], .vmlvec_vasinh, [0, 1]⟩,
  ⟨.vml_asinh, [.obj (.view1D .vec) .s true, .obj (.view1D .mat) .s false], .vmlvec_vasinh, [0, 1]⟩,
  ⟨.vml_asinh, [.obj (.view1D .vec) .s true, .obj (.view1D .ten) .s false], .vmlvec_vasinh, [0, 1]⟩,
  ⟨.vml_asinh, [.obj (.view1D .mat) .s true, .obj .vector .s false], .vmlvec_vasinh, [0, 1]⟩,
  ⟨.vml_asinh, [.obj (.view1D .mat) .s true, .obj (.view1D .vec) .s false], .vmlvec_vasinh, [0, 1]⟩,
  ⟨.vml_asinh, [.obj (.view1D .mat) .s true, .obj (.view1D .mat) .s false], .vmlvec_vasinh, [0, 1]⟩,
  ⟨.vml_asinh, [.obj (.view1D .mat) .s true, .obj (.view1D .ten) .s false], .vmlvec_vasinh, [0, 1]⟩,
  ⟨.vml_asinh, [.obj (.view1D .ten) .s true, .obj .vector .s false], .vmlvec_vasinh, [0, 1]⟩,
  ⟨.vml_asinh, [.obj (.view1D .ten) .s true, .obj (.view1D .vec) .s false], .vmlvec_vasinh, [0, 1]⟩,
  ⟨.vml_asinh, [.obj (.view1D .ten) .s true, .obj (.view1D .mat) .s false], .vmlvec_vasinh, [0, 1]⟩,
  ⟨.vml_asinh, [.obj (.view1D .ten) .s true, .obj (.view1D .ten) .s false], .vmlvec_vasinh, [0, 1]⟩]

/-- src/vml/vector/vector_vml.cpp:4154-4438 -/
def tVmlVec_12 : List Overload := [
  ⟨.vml_tan, [.obj .vector .d true, .obj .vector .d false], .vmlvec_vtan, [0, 1]⟩,
  ⟨.vml_tan, [.obj .vector .d true, .obj (.view1D .vec) .d false], .vmlvec_vtan, [0, 1]⟩,
  ⟨.vml_tan, [.obj .vector .d true, .obj (.view1D .mat) .d false], .vmlvec_vtan, [0, 1]⟩,
  ⟨.vml_tan, [.obj .vector .d true, .obj (.view1D .ten) .d false], .vmlvec_vtan, [0, 1]⟩,
  ⟨.vml_tan, [.obj (.view1D .vec) .d true, .obj .vector .d false], .vmlvec_vtan, [0, 1]⟩,
  ⟨.vml_tan, [.obj (.view1D .vec) .d true, .obj (.view1D .vec) .d false], .vmlvec_vtan, [0, 1]⟩,
  ⟨.vml_tan, [.obj (.view1D .vec) .d true, .obj (.view1D .mat) .d false], .vmlvec_vtan, [0, 1]⟩,
  ⟨.vml_tan, [.obj (.view1D .vec) .d true, .obj (.view1D .ten) .d false], .vmlvec_vtan, [0, 1]⟩,
  ⟨.vml_tan, [.obj (.view1D .mat) .d true, .obj .vector .d false], .vmlvec_vtan, [0, 1]⟩,
  ⟨.vml_tan, [.obj (.view1D .mat) .d true, .obj (.view1D .vec) .d false], .vmlvec_vtan, [0, 1]⟩,
  ⟨.vml_tan, [.obj (.view1D .mat) .d true, .obj (.view1D .mat) .d false], .vmlvec_vtan, [0, 1]⟩,
  ⟨.vml_tan, [.obj (.view1D .mat) .d true, .obj (.view1D .ten) .d false], .vmlvec_vtan, [0, 1]⟩,
  ⟨.vml_tan, [.obj (.view1D .ten) .d true, .obj .vector .d false], .vmlvec_vtan, [0, 1]⟩,
  ⟨.vml_tan, [.obj (.view1D .ten) .d true, .obj (.view1D .vec) .d false], .vmlvec_vtan, [0, 1]⟩,
  ⟨.vml_tan, [.obj (.view1D .ten) .d true, .obj (.view1D .mat) .d false], .vmlvec_vtan, [0, 1]⟩,
  ⟨.vml_tan, [.obj (.view1D .ten) .d true, .obj (.view1D .ten) .d false], .vmlvec_vtan, [0, 1]⟩,
  ⟨.vml_tan, [.obj .vector .s true, .obj .vector .s false], .vmlvec_vtan, [0, 1]⟩,
  ⟨.vml_tan, [.obj .vector .s true, .obj (.view1D .vec) .s false], .vmlvec_vtan, [0, 1]⟩,
  ⟨.vml_tan, [.obj .vector .s true, .obj (.view1D .mat) .s false], .vmlvec_vtan, [0, 1]⟩,
  ⟨.vml_tan, [.obj .vector .s true, .obj (.view1D .ten) .s false], .vmlvec_vtan, [0, 1]⟩,
  ⟨.vml_tan, [.obj (.view1D .vec) .s true, .obj .vector .s false], .vmlvec_vtan, [0, 1]⟩,
  ⟨.vml_tan, [.obj (.view1D .vec) .s true, .obj (.view1D .vec) .s false], .vmlvec_vtan, [0, 1]⟩,
  ⟨.vml_tan, [.obj (.view1D .vec) .s true, .obj (.view1D .mat) .s false], .vmlvec_vtan, [0, 1]⟩,
  ⟨.vml_tan, [.obj (.view1D .vec) .s true, .obj (.view1D .ten) .s false], .vmlvec_vtan, [0, 1]⟩,
  ⟨.vml_tan, [.obj (.view1D .mat) .s true, .obj .vector .s false], .vmlvec_vtan, [0, 1]⟩,
  ⟨.vml_tan, [.obj (.view1D .mat) .s true, .obj (.view1D .vec) .s false], .vmlvec_vtan, [0, 1]⟩,
  ⟨.vml_tan, [.obj (.view1D .mat) .s true, .obj (.view1D .mat) .s false], .vmlvec_vtan, [0, 1]⟩,
  ⟨.vml_tan, [.obj (.view1D .mat) .s true, .obj (.view1D .ten) .s false], .vmlvec_vtan, [0, 1]⟩,
  ⟨.vml_tan, [.obj (.view1D .ten) .s true, .obj .vector .s false], .vmlvec_vtan, [0, 1]⟩,
  ⟨.vml_tan, [.obj (.view1D .ten) .s true, .obj (.view1D .vec) .s false], .vmlvec_vtan, [0, 1]⟩,
  ⟨.vml_tan, [.obj (.view1D .ten) .s true, .obj (.view1D .mat) .s false], .vmlvec_vtan, [0, 1]⟩,
  ⟨.vml_tan, [.obj (.view1D .ten) .s true, .obj (.view1D .ten) .s false], .vmlvec_vtan, [0, 1]⟩,
  ⟨.vml_tanh, [.obj .vector .d true, .obj .vector .d false], .vmlvec_vtanh, [0, 1]⟩,
  ⟨.vml_tanh, [.obj .vector .d true, .obj (.view1D .vec) .d false], .vmlvec_vtanh, [0, 1]⟩,
  ⟨.vml_tanh, [.obj .vector .d true, .obj (.view1D .mat) .d false], .vmlvec_vtanh, [0, 1]⟩,
  ⟨.vml_tanh, [.obj .vector .d true, .obj (.view1D .ten) .d false], .vmlvec_vtanh, [0, 1]⟩,
  ⟨.vml_tanh, [.obj (.view1D .vec) .d true, .obj .vector .d false], .vmlvec_vtanh, [0, 1]⟩,
  ⟨.vml_tanh, [.obj (.view1D .vec) .d true, .obj (.view1D .vec) .d false], .vmlvec_vtanh, [0, 1]⟩,
  ⟨.vml_tanh, [.obj (.view1D .vec) .d true, .obj (.view1D .mat) .d false], .vmlvec_vtanh, [0, 1]⟩,
  ⟨.vml_tanh, [.obj (.view1D .vec) .d true, .obj (.view1D .ten) .d false], .vmlvec_vtanh, [0, 1]⟩,
  ⟨.vml_tanh, [.obj (.view1D .mat) .d true, .obj .vector .d false], .vmlvec_vtanh, [0, 1]⟩,
  ⟨.vml_tanh, [.obj (.view1D .mat) .d true, .obj (.view1D .vec) .d false], .vmlvec_vtanh, [0, 1]⟩,
  ⟨.vml_tanh, [.obj (.view1D .mat) .d true, .obj (.view1D .mat) .d false], .vmlvec_vtanh, [0, 1]⟩,
  ⟨.vml_tanh, [.obj (.view1D .mat) .d true, .obj (.view1D .ten) .d false], .vmlvec_vtanh, [0, 1]⟩,
  ⟨.vml_tanh, [.obj (.view1D .ten) .d true, .obj .vector .d false], .vmlvec_vtanh, [0, 1]⟩,
  ⟨.vml_tanh, [.obj (.view1D .ten) .d true, .obj (.view1D .vec) .d false], .vmlvec_vtanh, [0, 1]⟩,
  ⟨.vml_tanh, [.obj (.view1D .ten) .d true, .obj (.view1D .mat) .d false], .vmlvec_vtanh, [0, 1]⟩,
  ⟨.vml_tanh, [.obj (.view1D .ten) .d true, .obj (.view1D .ten) .d false], .vmlvec_vtanh, [0, 1]⟩,
  ⟨.vml_tanh, [.obj .vector .s true, .obj .vector .s false], .vmlvec_vtanh, [0, 1]⟩,
  ⟨.vml_tanh, [.obj .vector .s true, .obj (.view1D .vec) .s false], .vmlvec_vtanh, [0, 1]⟩,
  ⟨.vml_tanh, [.obj .vector .s true, .obj (.view1D .mat) .s false], .vmlvec_vtanh, [0, 1]⟩,
  ⟨.vml_tanh, [.obj .vector .s true, .obj (.view1D .ten) .s false], .vmlvec_vtanh, [0, 1]⟩,
  ⟨.vml_tanh, [.obj (.view1D .vec) .s true, .obj .vector .s false], .vmlvec_vtanh, [0, 1]⟩,
  ⟨.vml_tanh, [.obj (.view1D .vec) .s true, .obj (.view1D .vec) .s false], .vmlvec_vtanh, [0, 1]⟩,
  ⟨.vml_tanh, [.obj (.view1D .vec) .s true, .obj (.view1D .mat) .s false], .vmlvec_vtanh, [0, 1]⟩,
  ⟨.vml_tanh, [.obj (.view1D .vec) .s true, .obj (.view1D .ten) .s false], .vmlvec_vtanh, [0, 1]⟩,
  ⟨.vml_tanh, [.obj (.view1D .mat) .s true, .obj .vector .s false], .vmlvec_vtanh, [0, 1]⟩,
  ⟨.vml_tanh, [.obj (.view1D .mat) .s true, .obj (.view1D .vec) .s false], .vmlvec_vtanh, [0, 1]⟩,
  ⟨.vml_tanh, [.obj (.view1D .mat) .s true, .obj (.view1D .mat) .s false], .vmlvec_vtanh, [0, 1]⟩,
  ⟨.vml_tanh, [.obj (.view1D .mat) .s true, .obj (.view1D .ten) .s false], .vmlvec_vtanh, [0, 1]⟩,
  ⟨.vml_tanh, [.obj (.view1D .ten) .s true, .obj .vector .s false], .vmlvec_vtanh, [0, 1]⟩,
  ⟨.vml_tanh, [.obj (.view1D .ten) .s true, .obj (.view1D .vec) .s false], .vmlvec_vtanh, [0, 1]⟩,
  ⟨.vml_tanh, [.obj (.view1D .ten) .s true, .obj (.view1D .mat) .s false], .vmlvec_vtanh, [0, 1]⟩,
  ⟨.vml_tanh, [.obj (.view1D .ten) .s true, .obj (.view1D .ten) .s false], .vmlvec_vtanh, [0, 1]⟩,
  ⟨.vml_atan, [.obj .vector .d true, .obj .vector .d false], .vmlvec_vatan, [0, 1]⟩,
  ⟨.vml_atan, [.obj .vector .d true, .obj (.view1D .vec) .d false], .vmlvec_vatan, [0, 1]⟩,
  ⟨.vml_atan, [.obj .vector .d true, .obj (.view1D .mat) .d false], .vmlvec_vatan, [0, 1]⟩,
  ⟨.vml_atan, [.obj .vector .d true, .obj (.view1D .ten) .d false], .vmlvec_vatan, [0, 1]⟩,
  ⟨.vml_atan, [.obj (.view1D .vec) .d true, .obj .vector .d false], .vmlvec_vatan, [0, 1]⟩,
  ⟨.vml_atan, [.obj (.view1D .vec) .d true, .obj (.view1D .vec) .d false], .vmlvec_vatan, [0, 1]⟩,
  ⟨.vml_atan, [.obj (.view1D .vec) .d true, .obj (.view1D .mat) .d false], .vmlvec_vatan, [0, 1]⟩,
  ⟨.vml_atan, [.obj (.view1D .vec) .d true, .obj (.view1D .ten) .d false], .vmlvec_vatan, [0, 1]⟩,
  ⟨.vml_atan, [.obj (.view1D .mat) .d true, .obj .vector .d false], .vmlvec_vatan, [0, 1]⟩,
  ⟨.vml_atan, [.obj (.view1D .mat) .d true, .obj (.view1D .vec) .d false], .vmlvec_vatan, [0, 1]⟩,
  ⟨.vml_atan, [.obj (.view1D .mat) .d true, .obj (.view1D .mat) .d false], .vmlvec_vatan, [0, 1]⟩,
  ⟨.vml_atan, [.obj (.view1D .mat) .d true, .obj (.view1D .ten) .d false], .vmlvec_vatan, [0, 1]⟩,
  ⟨.vml_atan, [.obj (.view1D .ten) .d true, .obj .vector .d false], .vmlvec_vatan, [0, 1]⟩,
  ⟨.vml_atan, [.obj (.view1D .ten) .d true, .obj (.view1D .vec) .d false], .vmlvec_vatan, [0, 1]⟩,
  ⟨.vml_atan, [.obj (.view1D .ten) .d true, .obj (.view1D .mat) .d false], .vmlvec_vatan, [0, 1]⟩,
  ⟨.vml_atan, [.obj (.view1D .ten) .d true, .obj (.view1D .ten) .d false], .vmlvec_vatan, [0, 1]⟩]

/-- src/vml/vector/vector_vml.cpp:4439-4723 -/
def tVmlVec_13 : List Overload := [
  ⟨.vml_atan, [.obj .vector .s true, .obj .vector .s false], .vmlvec_vatan, [0, 1]⟩,
  ⟨.vml_atan, [.obj .vector .s true, .obj (.view1D .vec) .s false], .vmlvec_vatan, [0, 1]⟩,
  ⟨.vml_atan, [.obj .vector .s true, .obj (.view1D .mat) .s false], .vmlvec_vatan, [0, 1]⟩,
  ⟨.vml_atan, [.obj .vector .s true, .obj (.view1D .ten) .s false], .vmlvec_vatan, [0, 1]⟩,
  ⟨.vml_atan, [.obj (.view1D .vec) .s true, .obj .vector .s false], .vmlvec_vatan, [0, 1]⟩,
  ⟨.vml_atan, [.obj (.view1D .vec) .s true, .obj (.view1D .vec) .s false], .vmlvec_vatan, [0, 1]⟩,
  ⟨.vml_atan, [.obj (.view1D .vec) .s true, .obj (.view1D .mat) .s false], .vmlvec_vatan, [0, 1]⟩,
  ⟨.vml_atan, [.obj (.view1D .vec) .s true, .obj (.view1D .ten) .s false], .vmlvec_vatan, [0, 1]⟩,
  ⟨.vml_atan, [.obj (.view1D .mat) .s true, .obj .vector .s false], .vmlvec_vatan, [0, 1]⟩,
  ⟨.vml_atan, [.obj (.view1D .mat) .s true, .obj (.view1D .vec) .s false], .vmlvec_vatan, [0, 1]⟩,
  ⟨.vml_atan, [.obj (.view1D .mat) .s true, .obj (.view1D .mat) .s false], .vmlvec_vatan, [0, 1]⟩,
  ⟨.vml_atan, [.obj (.view1D .mat) .s true, .obj (.view1D .ten) .s false], .vmlvec_vatan, [0, 1]⟩,
  ⟨.vml_atan, [.obj (.view1D .ten) .s true, .obj .vector .s false], .vmlvec_vatan, [0, 1]⟩,
  ⟨.vml_atan, [.obj (.view1D .ten) .s true, .obj (.view1D .vec) .s false], .vmlvec_vatan, [0, 1]⟩,
  ⟨.vml_atan, [.obj (.view1D .ten) .s true, .obj (.view1D .mat) .s false], .vmlvec_vatan, [0, 1]⟩,
  ⟨.vml_atan, [.obj (.view1D .ten) .s true, .obj (.view1D .ten) .s false], .vmlvec_vatan, [0, 1]⟩,
  ⟨.vml_atanh, [.obj .vector .d true, .obj .vector .d false], .vmlvec_vatanh, [0, 1]⟩,
  ⟨.vml_atanh, [.obj .vector .d true, .obj (.view1D .vec) .d false], .vmlvec_vatanh, [0, 1]⟩,
  ⟨.vml_atanh, [.obj .vector .d true, .obj (.view1D .mat) .d false], .vmlvec_vatanh, [0, 1]⟩,
  ⟨.vml_atanh, [.obj .vector .d true, .obj (.view1D .ten) .d false], .vmlvec_vatanh, [0, 1]⟩,
  ⟨.vml_atanh, [.obj (.view1D .vec) .d true, .obj .vector .d false], .vmlvec_vatanh, [0, 1]⟩,
  ⟨.vml_atanh, [.obj (.view1D .vec) .d true, .obj (.view1D .vec) .d false], .vmlvec_vatanh, [0, 1]⟩,
  ⟨.vml_atanh, [.obj (.view1D .vec) .d true, .obj (.view1D .mat) .d false], .vmlvec_vatanh, [0, 1]⟩,
  ⟨.vml_atanh, [.obj (.view1D .vec) .d true, .obj (.view1D .ten) .d false], .vmlvec_vatanh, [0, 1]⟩,
  ⟨.vml_atanh, [.obj (.view1D .mat) .d true, .obj .vector .d false], .vmlvec_vatanh, [0, 1]⟩,
  ⟨.vml_atanh, [.obj (.view1D .mat) .d true, .obj (.view1D .vec) .d false], .vmlvec_vatanh, [0, 1]⟩,
  ⟨.vml_atanh, [.obj (.view1D .mat) .d true, .obj (.view1D .mat) .d false], .vmlvec_vatanh, [0, 1]⟩,
  ⟨.vml_atanh, [.obj (.view1D .mat) .d true, .obj (.view1D .ten) .d false], .vmlvec_vatanh, [0, 1]⟩,
  ⟨.vml_atanh, [.obj (.view1D .ten) .d true, .obj .vector .d false], .vmlvec_vatanh, [0, 1]⟩,
  ⟨.vml_atanh, [.obj (.view1D .ten) .d true, .obj (.view1D .vec) .d false], .vmlvec_vatanh, [0, 1]⟩,
  ⟨.vml_atanh, [.obj (.view1D .ten) .d true, .obj (.view1D .mat) .d false], .vmlvec_vatanh, [0, 1]⟩,
  ⟨.vml_atanh, [.obj (.view1D .ten) .d true, .obj (.view1D .ten) .d false], .vmlvec_vatanh, [0, 1]⟩,
  ⟨.vml_atanh, [.obj .vector .s true, .obj .vector .s false], .vmlvec_vatanh, [0, 1]⟩,
  ⟨.vml_atanh, [.obj .vector .s true, .obj (.view1D .vec) .s false], .vmlvec_vatanh, [0, 1]⟩,
  ⟨.vml_atanh, [.obj .vector .s true, .obj (.view1D .mat) .s false], .vmlvec_vatanh, [0, 1]⟩,
  ⟨.vml_atanh, [.obj .vector .s true, .obj (.view1D .ten) .s false], .vmlvec_vatanh, [0, 1]⟩,
  ⟨.vml_atanh, [.obj (.view1D .vec) .s true, .obj .vector .s false], .vmlvec_vatanh, [0, 1]⟩,
  ⟨.vml_atanh, [.obj (.view1D .vec) .s true, .obj (.view1D .vec) .s false], .vmlvec_vatanh, [0, 1]⟩,
  ⟨.vml_atanh, [.obj (.view1D .vec) .s true, .obj (.view1D .mat) .s false], .vmlvec_vatanh, [0, 1]⟩,
  ⟨.vml_atanh, [.obj (.view1D .vec) .s true, .obj (.view1D .ten) .s false], .vmlvec_vatanh, [0, 1]⟩,
  ⟨.vml_atanh, [.obj (.view1D .mat) .s true, .obj .vector .s false], .vmlvec_vatanh, [0, 1]⟩,
  ⟨.vml_atanh, [.obj (.view1D .mat) .s true, .obj (.view1D .vec) .s false], .vmlvec_vatanh, [0, 1]⟩,
  ⟨.vml_atanh, [.obj (.view1D .mat) .s true, .obj (.view1D .mat) .s false], .vmlvec_vatanh, [0, 1]⟩,
  ⟨.vml_atanh, [.obj (.view1D .mat) .s true, .obj (.view1D .ten) .s false], .vmlvec_vatanh, [0, 1]⟩,
  ⟨.vml_atanh, [.obj (.view1D .ten) .s true, .obj .vector .s false], .vmlvec_vatanh, [0, 1]⟩,
  ⟨.vml_atanh, [.obj (.view1D .ten) .s true, .obj (.view1D .vec) .s false], .vmlvec_vatanh, [0, 1]⟩,
  ⟨.vml_atanh, [.obj (.view1D .ten) .s true, .obj (.view1D .mat) .s false], .vmlvec_vatanh, [0, 1]⟩,
  ⟨.vml_atanh, [.obj (.view1D .ten) .s true, .obj (.view1D .ten) .s false], .vmlvec_vatanh, [0, 1]⟩,
  ⟨.vml_ceil, [.obj .vector .d true, .obj .vector .d false], .vmlvec_vceil, [0, 1]⟩,
  ⟨.vml_ceil, [.obj .vector .d true, .obj (.view1D .vec) .d false], .vmlvec_vceil, [0, 1]⟩,
  ⟨.vml_ceil, [.obj .vector .d true, .obj (.view1D .mat) .d false], .vmlvec_vceil, [0, 1]⟩,
  ⟨.vml_ceil, [.obj .vector .d true, .obj (.view1D .ten) .d false], .vmlvec_vceil, [0, 1]⟩,
  ⟨.vml_ceil, [.obj (.view1D .vec) .d true, .obj .vector .d false], .vmlvec_vceil, [0, 1]⟩,
  ⟨.vml_ceil, [.obj (.view1D .vec) .d true, .obj (.view1D .vec) .d false], .vmlvec_vceil, [0, 1]⟩,
  ⟨.vml_ceil, [.obj (.view1D .vec) .d true, .obj (.view1D .mat) .d false], .vmlvec_vceil, [0, 1]⟩,
  ⟨.vml_ceil, [.obj (.view1D .vec) .d true, .obj (.view1D .ten) .d false], .vmlvec_vceil, [0, 1]⟩,
  ⟨.vml_ceil, [.obj (.view1D .mat) .d true, .obj .vector .d false], .vmlvec_vceil, [0, 1]⟩,
  ⟨.vml_ceil, [.obj (.view1D .mat) .d true, .obj (.view1D .vec) .d false], .vmlvec_vceil, [0, 1]⟩,
  ⟨.vml_ceil, [.obj (.view1D .mat) .d true, .obj (.view1D .mat) .d false], .vmlvec_vceil, [0, 1]⟩,
  ⟨.vml_ceil, [.obj (.view1D .mat) .d true, .obj (.view1D .ten) .d false], .vmlvec_vceil, [0, 1]⟩,
  ⟨.vml_ceil, [.obj (.view1D .ten) .d true, .obj .vector .d false], .vmlvec_vceil, [0, 1]⟩,
  ⟨.vml_ceil, [.obj (.view1D .ten) .d true, .obj (.view1D .vec) .d false], .vmlvec_vceil, [0, 1]⟩,
  ⟨.vml_ceil, [.obj (.view1D .ten) .d true, .obj (.view1D .mat) .d false], .vmlvec_vceil, [0, 1]⟩,
  ⟨.vml_ceil, [.obj (.view1D .ten) .d true, .obj (.view1D .ten) .d false], .vmlvec_vceil, [0, 1]⟩,
  ⟨.vml_ceil, [.obj .vector .s true, .obj .vector .s false], .vmlvec_vceil, [0, 1]⟩,
  ⟨.vml_ceil, [.obj .vector .s true, .obj (.view1D .vec) .s false], .vmlvec_vceil, [0, 1]⟩,
  ⟨.vml_ceil, [.obj .vector .s true, .obj (.view1D .mat) .s false], .vmlvec_vceil, [0, 1]⟩,
  ⟨.vml_ceil, [.obj .vector .s true, .obj (.view1D .ten) .s false], .vmlvec_vceil, [0, 1]⟩,
  ⟨.vml_ceil, [.obj (.view1D .vec) .s true, .obj .vector .s false], .vmlvec_vceil, [0, 1]⟩,
  ⟨.vml_ceil, [.obj (.view1D .vec) .s true, .obj (.view1D .vec) .s false], .vmlvec_vceil, [0, 1]⟩,
  ⟨.vml_ceil, [.obj (.view1D .vec) .s true, .obj (.view1D .mat) .s false], .vmlvec_vceil, [0, 1]⟩,
  ⟨.vml_ceil, [.obj (.view1D .vec) .s true, .obj (.view1D .ten) .s false], .vmlvec_vceil, [0, 1]⟩,
  ⟨.vml_ceil, [.obj (.view1D .mat) .s true, .obj .vector .s false], .vmlvec_vceil, [0, 1]⟩,
  ⟨.vml_ceil, [.obj (.view1D .mat) .s true, .obj (.view1D .vec) .s false], .vmlvec_vceil, [0, 1]⟩,
  ⟨.vml_ceil, [.obj (.view1D .mat) .s true, .obj (.view1D .mat) .s false], .vmlvec_vceil, [0, 1]⟩,
  ⟨.vml_ceil, [.obj (.view1D .mat) .s true, .obj (.view1D .ten) .s false], .vmlvec_vceil, [0, 1]⟩,
  ⟨.vml_ceil, [.obj (.view1D .ten) .s true, .obj .vector .s false], .vmlvec_vceil, [0, 1]⟩,
  ⟨.vml_ceil, [.obj (.view1D .ten) .s true, .obj (.view1D .vec) .s false], .vmlvec_vceil, [0, 1]⟩,
  ⟨.vml_ceil, [.obj (.view1D .ten) .s true, .obj (.view1D .mat) .s false], .vmlvec_vceil, [0, 1]⟩,
  ⟨.vml_ceil, [.obj (.view1D .ten) .s true, .obj (.view1D .ten) .s false], .vmlvec_vceil, [0, 1]⟩]

/-- src/vml/vector/vector_vml.cpp:4724-5012 -/
def tVmlVec_14 : List Overload := [
  ⟨.vml_floor, [.obj .vector .d true, .obj .vector .d false], .vmlvec_vfloor, [0, 1]⟩,
  ⟨.vml_floor, [.obj .vector .d true, .obj (.view1D .vec) .d false], .vmlvec_vfloor, [0, 1]⟩,
  ⟨.vml_floor, [.obj .vector .d true, .obj (.view1D .mat) .d false], .vmlvec_vfloor, [0, 1]⟩,
  ⟨.vml_floor, [.obj .vector .d true, .obj (.view1D .ten) .d false], .vmlvec_vfloor, [0, 1]⟩,
  ⟨.vml_floor, [.obj (.view1D .vec) .d true, .obj .vector .d false], .vmlvec_vfloor, [0, 1]⟩,
  ⟨.vml_floor, [.obj (.view1D .vec) .d true, .obj (.view1D .vec) .d false], .vmlvec_vfloor, [0, 1]⟩,
  ⟨.vml_floor, [.obj (.view1D .vec) .d true, .obj (.view1D .mat) .d false], .vmlvec_vfloor, [0, 1]⟩,
  ⟨.vml_floor, [.obj (.view1D .vec) .d true, .obj (.view1D .ten) .d false], .vmlvec_vfloor, [0, 1]⟩,
  ⟨.vml_floor, [.obj (.view1D .mat) .d true, .obj .vector .d false], .vmlvec_vfloor, [0, 1]⟩,
  ⟨.vml_floor, [.obj (.view1D .mat) .d true, .obj (.view1D .vec) .d false], .vmlvec_vfloor, [0, 1]⟩,
  ⟨.vml_floor, [.obj (.view1D .mat) .d true, .obj (.view1D .mat) .d false], .vmlvec_vfloor, [0, 1]⟩,
  ⟨.vml_floor, [.obj (.view1D .mat) .d true, .obj (.view1D .ten) .d false], .vmlvec_vfloor, [0, 1]⟩,
  ⟨.vml_floor, [.obj (.view1D .ten) .d true, .obj .vector .d false], .vmlvec_vfloor, [0, 1]⟩,
  ⟨.vml_floor, [.obj (.view1D .ten) .d true, .obj (.view1D .vec) .d false], .vmlvec_vfloor, [0, 1]⟩,
  ⟨.vml_floor, [.obj (.view1D .ten) .d true, .obj (.view1D .mat) .d false], .vmlvec_vfloor, [0, 1]⟩,
  ⟨.vml_floor, [.obj (.view1D .ten) .d true, .obj (.view1D .ten) .d false], .vmlvec_vfloor, [0, 1]⟩,
  ⟨.vml_floor, [.obj .vector .s true, .obj .vector .s false], .vmlvec_vfloor, [0, 1]⟩,
  ⟨.vml_floor, [.obj .vector .s true, .obj (.view1D .vec) .s false], .vmlvec_vfloor, [0, 1]⟩,
  ⟨.vml_floor, [.obj .vector .s true, .obj (.view1D .mat) .s false], .vmlvec_vfloor, [0, 1]⟩,
  ⟨.vml_floor, [.obj .vector .s true, .obj (.view1D .ten) .s false], .vmlvec_vfloor, [0, 1]⟩,
  ⟨.vml_floor, [.obj (.view1D .vec) .s true, .obj .vector .s false], .vmlvec_vfloor, [0, 1]⟩,
  ⟨.vml_floor, [.obj (.view1D .vec) .s true, .obj (.view1D .vec) .s false], .vmlvec_vfloor, [0, 1]⟩,
  ⟨.vml_floor, [.obj (.view1D .vec) .s true, .obj (.view1D .mat) .s false], .vmlvec_vfloor, [0, 1]⟩,
  ⟨.vml_floor, [.obj (.view1D .vec) .s true, .obj (.view1D .ten) .s false], .vmlvec_vfloor, [0, 1]⟩,
  ⟨.vml_floor, [.obj (.view1D .mat) .s true, .obj .vector .s false], .vmlvec_vfloor, [0, 1]⟩,
  ⟨.vml_floor, [.obj (.view1D .mat) .s true, .obj (.view1D .vec) .s false], .vmlvec_vfloor, [0, 1]⟩,
  ⟨.vml_floor, [.obj (.view1D .mat) .s true, .obj (.view1D .mat) .s false], .vmlvec_vfloor, [0, 1]⟩,
  ⟨.vml_floor, [.obj (.view1D .mat) .s true, .obj (.view1D .ten) .s false], .vmlvec_vfloor, [0, 1]⟩,
  ⟨.vml_floor, [.obj (.view1D .ten) .s true, .obj .vector .s false], .vmlvec_vfloor, [0, 1]⟩,
  ⟨.vml_floor, [.obj (.view1D .ten) .s true, .obj (.view1D .vec) .s false], .vmlvec_vfloor, [0, 1]⟩,
  ⟨.vml_floor, [.obj (.view1D .ten) .s true, .obj (.view1D .mat) .s false], .vmlvec_vfloor, [0, 1]⟩,
  ⟨.vml_floor, [.obj (.view1D .ten) .s true, .obj (.view1D .ten) .s false], .vmlvec_vfloor, [0, 1]⟩,
  ⟨.vml_sign, [.obj .vector .d true, .obj .vector .d false], .vmlvec_vsign, [0, 1]⟩,
  ⟨.vml_sign, [.obj .vector .d true, .obj (.view1D .vec) .d false], .vmlvec_vsign, [0, 1]⟩,
  ⟨.vml_sign, [.obj .vector .d true, .obj (.view1D .mat) .d false], .vmlvec_vsign, [0, 1]⟩,
  ⟨.vml_sign, [.obj .vector .d true, .obj (.view1D .ten) .d false], .vmlvec_vsign, [0, 1]⟩,
  ⟨.vml_sign, [.obj (.view1D .vec) .d true, .obj .vector .d false], .vmlvec_vsign, [0, 1]⟩,
  ⟨.vml_sign, [.obj (.view1D .vec) .d true, .obj (.view1D .vec) .d false], .vmlvec_vsign, [0, 1]⟩,
  ⟨.vml_sign, [.obj (.view1D .vec) .d true, .obj (.view1D .mat) .d false], .vmlvec_vsign, [0, 1]⟩,
  ⟨.vml_sign, [.obj (.view1D .vec) .d true, .obj (.view1D .ten) .d false], .vmlvec_vsign, [0, 1]⟩,
  ⟨.vml_sign, [.obj (.view1D .mat) .d true, .obj .vector .d false], .vmlvec_vsign, [0, 1]⟩,
  ⟨.vml_sign, [.obj (.view1D .mat) .d true, .obj (.view1D .vec) .d false], .vmlvec_vsign, [0, 1]⟩,
  ⟨.vml_sign, [.obj (.view1D .mat) .d true, .obj (.view1D .mat) .d false], .vmlvec_vsign, [0, 1]⟩,
  ⟨.vml_sign, [.obj (.view1D .mat) .d true, .obj (.view1D .ten) .d false], .vmlvec_vsign, [0, 1]⟩,
  ⟨.vml_sign, [.obj (.view1D .ten) .d true, .obj .vector .d false], .vmlvec_vsign, [0, 1]⟩,
  ⟨.vml_sign, [.obj (.view1D .ten) .d true, .obj (.view1D .vec) .d false], .vmlvec_vsign, [0, 1]⟩,
  ⟨.vml_sign, [.obj (.view1D .ten) .d true, .obj (.view1D .mat) .d false], .vmlvec_vsign, [0, 1]⟩,
  ⟨.vml_sign, [.obj (.view1D .ten) .d true, .obj (.view1D .ten) .d false], .vmlvec_vsign, [0, 1]⟩,
  ⟨.vml_sign, [.obj .vector .s true, .obj .vector .s false], .vmlvec_vsign, [0, 1]⟩,
  ⟨.vml_sign, [.obj .vector .s true, .obj (.view1D .vec) .s false], .vmlvec_vsign, [0, 1]⟩,
  ⟨.vml_sign, [.obj .vector .s true, .obj (.view1D .mat) .s false], .vmlvec_vsign, [0, 1]⟩,
  ⟨.vml_sign, [.obj .vector .s true, .obj (.view1D .ten) .s false], .vmlvec_vsign, [0, 1]⟩,
  ⟨.vml_sign, [.obj (.view1D .vec) .s true, .obj .vector .s false], .vmlvec_vsign, [0, 1]⟩,
  ⟨.vml_sign, [.obj (.view1D .vec) .s true, .obj (.view1D .vec) .s false], .vmlvec_vsign, [0, 1]⟩,
  ⟨.vml_sign, [.obj (.view1D .vec) .s true, .obj (.view1D .mat) .s false], .vmlvec_vsign, [0, 1]⟩,
  ⟨.vml_sign, [.obj (.view1D .vec) .s true, .obj (.view1D .ten) .s false], .vmlvec_vsign, [0, 1]⟩,
  ⟨.vml_sign, [.obj (.view1D .mat) .s true, .obj .vector .s false], .vmlvec_vsign, [0, 1]⟩,
  ⟨.vml_sign, [.obj (.view1D .mat) .s true, .obj (.view1D .vec) .s false], .vmlvec_vsign, [0, 1]⟩,
  ⟨.vml_sign, [.obj (.view1D .mat) .s true, .obj (.view1D .mat) .s false], .vmlvec_vsign, [0, 1]⟩,
  ⟨.vml_sign, [.obj (.view1D .mat) .s true, .obj (.view1D .ten) .s false], .vmlvec_vsign, [0, 1]⟩,
  ⟨.vml_sign, [.obj (.view1D .ten) .s true, .obj .vector .s false], .vmlvec_vsign, [0, 1]⟩,
  ⟨.vml_sign, [.obj (.view1D .ten) .s true, .obj (.view1D .vec) .s false], .vmlvec_vsign, [0, 1]⟩,
  ⟨.vml_sign, [.obj (.view1D .ten) .s true, .obj (.view1D .mat) .s false], .vmlvec_vsign, [0, 1]⟩,
  ⟨.vml_sign, [.obj (.view1D .ten) .s true, .obj (.view1D .ten) .s false], .vmlvec_vsign, [0, 1]⟩,
  ⟨.vml_reciprocal, [.obj .vector .d true, .obj .vector .d false], .vmlvec_vreciprocal, [0, 1]⟩,
  ⟨.vml_reciprocal, [.obj .vector .d true, .obj (.view1D .vec) .d false], .vmlvec_vreciprocal, [0, 1]⟩,
  ⟨.vml_reciprocal, [.obj .vector .d true, .obj (.view1D .mat) .d false], .vmlvec_vreciprocal, [0, 1]⟩,
  ⟨.vml_reciprocal, [.obj .vector .d true, .obj (.view1D .ten) .d false], .vmlvec_vreciprocal, [0, 1]⟩,
  ⟨.vml_reciprocal, [.obj (.view1D .vec) .d true, .obj .vector .d false], .vmlvec_vreciprocal, [0, 1]⟩,
  ⟨.vml_reciprocal, [.obj (.view1D .vec) .d true, .obj (.view1D .vec) .d false], .vmlvec_vreciprocal, [0, 1]⟩,
  ⟨.vml_reciprocal, [.obj (.view1D .vec) .d true, .obj (.view1D .mat) .d false], .vmlvec_vreciprocal, [0, 1]⟩,
  ⟨.vml_reciprocal, [.obj (.view1D .vec) .d true, .obj (.view1D .ten) .d false], .vmlvec_vreciprocal, [0, 1]⟩,
  ⟨.vml_reciprocal, [.obj (.view1D .mat) .d true, .obj .vector .d false], .vmlvec_vreciprocal, [0, 1]⟩,
  ⟨.vml_reciprocal, [.obj (.view1D .mat) .d true, .obj (.view1D .vec) .d false], .vmlvec_vreciprocal, [0, 1]⟩,
  ⟨.vml_reciprocal, [.obj (.view1D .mat) .d true, .obj (.view1D .mat) .d false], .vmlvec_vreciprocal, [0, 1]⟩,
  ⟨.vml_reciprocal, [.obj (.view1D .mat) .d true, .obj (.view1D .ten) .d false], .vmlvec_vreciprocal, [0, 1]⟩,
  ⟨.vml_reciprocal, [.obj (.view1D .ten) .d true, .obj .vector .d false], .vmlvec_vreciprocal, [0, 1]⟩,
  ⟨.vml_reciprocal, [.obj (.view1D .ten) .d true, .obj (.view1D .vec) .d false], .vmlvec_vreciprocal, [0, 1]⟩,
  ⟨.vml_reciprocal, [.obj (.view1D .ten) .d true, .obj (.view1D .mat) .d false], .vmlvec_vreciprocal, [0, 1]⟩,
  ⟨.vml_reciprocal, [.obj (.view1D .ten) .d true, .obj (.view1D .ten) .d false], .vmlvec_vreciprocal, [0, 1]⟩]

/-- src/vml/vector/vector_vml.cpp:5013-5332 -/
def tVmlVec_15 : List Overload := [
  ⟨.vml_reciprocal, [.obj .vector .s true, .obj .vector .s false], .vmlvec_vreciprocal, [0, 1]⟩,
  ⟨.vml_reciprocal, [.obj .vector .s true, .obj (.view1D .vec) .s false], .vmlvec_vreciprocal, [0, 1]⟩,
  ⟨.vml_reciprocal, [.obj .vector .s true, .obj (.view1D .mat) .s false], .vmlvec_vreciprocal, [0, 1]⟩,
  ⟨.vml_reciprocal, [.obj .vector .s true, .obj (.view1D .ten) .s false], .vmlvec_vreciprocal, [0, 1]⟩,
  ⟨.vml_reciprocal, [.obj (.view1D .vec) .s true, .obj .vector .s false], .vmlvec_vreciprocal, [0, 1]⟩,
  ⟨.vml_reciprocal, [.obj (.view1D .vec) .s true, .obj (.view1D .vec) .s false], .vmlvec_vreciprocal, [0, 1]⟩,
  ⟨.vml_reciprocal, [.obj (.view1D .vec) .s true, .obj (.view1D .mat) .s false], .vmlvec_vreciprocal, [0, 1]⟩,
  ⟨.vml_reciprocal, [.obj (.view1D .vec) .s true, .obj (.view1D .ten) .s false], .vmlvec_vreciprocal, [0, 1]⟩,
  ⟨.vml_reciprocal, [.obj (.view1D .mat) .s true, .obj .vector .s false], .vmlvec_vreciprocal, [0, 1]⟩,
  ⟨.vml_reciprocal, [.obj (.view1D .mat) .s true, .obj (.view1D .vec) .s false], .vmlvec_vreciprocal, [0, 1]⟩,
  ⟨.vml_reciprocal, [.obj (.view1D .mat) .s true, .obj (.view1D .mat) .s false], .vmlvec_vreciprocal, [0, 1]⟩,
  ⟨.vml_reciprocal, [.obj (.view1D .mat) .s true, .obj (.view1D .ten) .s false], .vmlvec_vreciprocal, [0, 1]⟩,
  ⟨.vml_reciprocal, [.obj (.view1D .ten) .s true, .obj .vector .s false], .vmlvec_vreciprocal, [0, 1]⟩,
  ⟨.vml_reciprocal, [.obj (.view1D .ten) .s true, .obj (.view1D .vec) .s false], .vmlvec_vreciprocal, [0, 1]⟩,
  ⟨.vml_reciprocal, [.obj (.view1D .ten) .s true, .obj (.view1D .mat) .s false], .vmlvec_vreciprocal, [0, 1]⟩,
  ⟨.vml_reciprocal, [.obj (.view1D .ten) .s true, .obj (.view1D .ten) .s false], .vmlvec_vreciprocal, [0, 1]⟩,
  ⟨.vml_exp, [.obj .vector .d true, .obj .vector .d false], .vmlvec_vexp, [0, 1]⟩,
  ⟨.vml_exp, [.obj .vector .d true, .obj (.view1D .vec) .d false], .vmlvec_vexp, [0, 1]⟩,
  ⟨.vml_exp, [.obj .vector .d true, .obj (.view1D .mat) .d false], .vmlvec_vexp, [0, 1]⟩,
  ⟨.vml_exp, [.obj .vector .d true, .obj (.view1D .ten) .d false], .vmlvec_vexp, [0, 1]⟩,
  ⟨.vml_exp, [.obj (.view1D .vec) .d true, .obj .vector .d false], .vmlvec_vexp, [0, 1]⟩,
  ⟨.vml_exp, [.obj (.view1D .vec) .d true, .obj (.view1D .vec) .d false], .vmlvec_vexp, [0, 1]⟩,
  ⟨.vml_exp, [.obj (.view1D .vec) .d true, .obj (.view1D .mat) .d false], .vmlvec_vexp, [0, 1]⟩,
  ⟨.vml_exp, [.obj (.view1D .vec) .d true, .obj (.view1D .ten) .d false], .vmlvec_vexp, [0, 1]⟩,
  ⟨.vml_exp, [.obj (.view1D .mat) .d true, .obj .vector .d false], .vmlvec_vexp, [0, 1]⟩,
  ⟨.vml_exp, [.obj (.view1D .mat) .d true, .obj (.view1D .vec) .d false], .vmlvec_vexp, [0, 1]⟩,
  ⟨.vml_exp, [.obj (.view1D .mat) .d true, .obj (.view1D .mat) .d false], .vmlvec_vexp, [0, 1]⟩,
  ⟨.vml_exp, [.obj (.view1D .mat) .d true, .obj (.view1D .ten) .d false], .vmlvec_vexp, [0, 1]⟩,
  ⟨.vml_exp, [.obj (.view1D .ten) .d true, .obj .vector .d false], .vmlvec_vexp, [0, 1]⟩,
  ⟨.vml_exp, [.obj (.view1D .ten) .d true, .obj (.view1D .vec) .d false], .vmlvec_vexp, [0, 1]⟩,
  ⟨.vml_exp, [.obj (.view1D .ten) .d true, .obj (.view1D .mat) .d false], .vmlvec_vexp, [0, 1]⟩,
  ⟨.vml_exp, [.obj (.view1D .ten) .d true, .obj (.view1D .ten) .d false], .vmlvec_vexp, [0, 1]⟩,
  ⟨.vml_exp, [.obj .vector .s true, .obj .vector .s false], .vmlvec_vexp, [0, 1]⟩,
  ⟨.vml_exp, [.obj .vector .s true, .obj (.view1D .vec) .s false], .vmlvec_vexp, [0, 1]⟩,
  ⟨.vml_exp, [.obj .vector .s true, .obj (.view1D .mat) .s false], .vmlvec_vexp, [0, 1]⟩,
  ⟨.vml_exp, [.obj .vector .s true, .obj (.view1D .ten) .s false], .vmlvec_vexp, [0, 1]⟩,
  ⟨.vml_exp, [.obj (.view1D .vec) .s true, .obj .vector .s false], .vmlvec_vexp, [0, 1]⟩,
  ⟨.vml_exp, [.obj (.view1D .vec) .s true, .obj (.view1D .vec) .s false], .vmlvec_vexp, [0, 1]⟩,
  ⟨.vml_exp, [.obj (.view1D .vec) .s true, .obj (.view1D .mat) .s false], .vmlvec_vexp, [0, 1]⟩,
  ⟨.vml_exp, [.obj (.view1D .vec) .s true, .obj (.view1D .ten) .s false], .vmlvec_vexp, [0, 1]⟩,
  ⟨.vml_exp, [.obj (.view1D .mat) .s true, .obj .vector .s false], .vmlvec_vexp, [0, 1]⟩,
  ⟨.vml_exp, [.obj (.view1D .mat) .s true, .obj (.view1D .vec) .s false], .vmlvec_vexp, [0, 1]⟩,
  ⟨.vml_exp, [.obj (.view1D .mat) .s true, .obj (.view1D .mat) .s false], .vmlvec_vexp, [0, 1]⟩,
  ⟨.vml_exp, [.obj (.view1D .mat) .s true, .obj (.view1D .ten) .s false], .vmlvec_vexp, [0, 1]⟩,
  ⟨.vml_exp, [.obj (.view1D .ten) .s true, .obj .vector .s false], .vmlvec_vexp, [0, 1]⟩,
  ⟨.vml_exp, [.obj (.view1D .ten) .s true, .obj (.view1D .vec) .s false], .vmlvec_vexp, [0, 1]⟩,
  ⟨.vml_exp, [.obj (.view1D .ten) .s true, .obj (.view1D .mat) .s false], .vmlvec_vexp, [0, 1]⟩,
  ⟨.vml_exp, [.obj (.view1D .ten) .s true, .obj (.view1D .ten) .s false], .vmlvec_vexp, [0, 1]⟩,
  ⟨.vml_max, [.obj .vector .d true, .obj .vector .d true, .obj .vector .d false], .vmlvec_vvmax, [0, 1, 2]⟩,
  ⟨.vml_max, [.obj .vector .d true, .obj .vector .d true, .obj (.view1D .vec) .d false], .vmlvec_vvmax, [0, 1, 2]⟩,
  ⟨.vml_max, [.obj .vector .d true, .obj .vector .d true, .obj (.view1D .mat) .d false], .vmlvec_vvmax, [0, 1, 2]⟩,
  ⟨.vml_max, [.obj .vector .d true, .obj .vector .d true, .obj (.view1D .ten) .d false], .vmlvec_vvmax, [0, 1, 2]⟩,
  ⟨.vml_max, [.obj .vector .d true, .obj (.view1D .vec) .d true, .obj .vector .d false], .vmlvec_vvmax, [0, 1, 2]⟩,
  ⟨.vml_max, [.obj .vector .d true, .obj (.view1D .vec) .d true, .obj (.view1D .vec) .d false], .vmlvec_vvmax, [0, 1, 2]⟩,
  ⟨.vml_max, [.obj .vector .d true, .obj (.view1D .vec) .d true, .obj (.view1D .mat) .d false], .vmlvec_vvmax, [0, 1, 2]⟩,
  ⟨.vml_max, [.obj .vector .d true, .obj (.view1D .vec) .d true, .obj (.view1D .ten) .d false], .vmlvec_vvmax, [0, 1, 2]⟩,
  ⟨.vml_max, [.obj .vector .d true, .obj (.view1D .mat) .d true, .obj .vector .d false], .vmlvec_vvmax, [0, 1, 2]⟩,
  ⟨.vml_max, [.obj .vector .d true, .obj (.view1D .mat) .d true, .obj (.view1D .vec) .d false], .vmlvec_vvmax, [0, 1, 2]⟩,
  ⟨.vml_max, [.obj .vector .d true, .obj (.view1D .mat) .d true, .obj (.view1D .mat) .d false], .vmlvec_vvmax, [0, 1, 2]⟩,
  ⟨.vml_max, [.obj .vector .d true, .obj (.view1D .mat) .d true, .obj (.view1D .ten) .d false], .vmlvec_vvmax, [0, 1, 2]⟩,
  ⟨.vml_max, [.obj .vector .d true, .obj (.view1D .ten) .d true, .obj .vector .d false], .vmlvec_vvmax, [0, 1, 2]⟩,
  ⟨.vml_max, [.obj .vector .d true, .obj (.view1D .ten) .d true, .obj (.view1D .vec) .d false], .vmlvec_vvmax, [0, 1, 2]⟩,
  ⟨.vml_max, [.obj .vector .d true, .obj (.view1D .ten) .d true, .obj (.view1D .mat) .d false], .vmlvec_vvmax, [0, 1, 2]⟩,
  ⟨.vml_max, [.obj .vector .d true, .obj (.view1D .ten) .d true, .obj (.view1D .ten) .d false], .vmlvec_vvmax, [0, 1, 2]⟩,
  ⟨.vml_max, [.obj (.view1D .vec) .d true, .obj .vector .d true, .obj .vector .d false], .vmlvec_vvmax, [0, 1, 2]⟩,
  ⟨.vml_max, [.obj (.view1D .vec) .d true, .obj .vector .d true, .obj (.view1D .vec) .d false], .vmlvec_vvmax, [0, 1, 2]⟩,
  ⟨.vml_max, [.obj (.view1D .vec) .d true, .obj .vector .d true, .obj (.view1D .mat) .d false], .vmlvec_vvmax, [0, 1, 2]⟩,
  ⟨.vml_max, [.obj (.view1D .vec) .d true, .obj .vector .d true, .obj (.view1D .ten) .d false], .vmlvec_vvmax, [0, 1, 2]⟩,
  ⟨.vml_max, [.obj (.view1D .vec) .d true, .obj (.view1D .vec) .d true, .obj .vector .d false], .vmlvec_vvmax, [0, 1, 2]⟩,
  ⟨.vml_max, [.obj (.view1D .vec) .d true, .obj (.view1D .vec) .d true, .obj (.view1D .vec) .d false], .vmlvec_vvmax, [0, 1, 2]⟩,
  ⟨.vml_max, [.obj (.view1D .vec) .d true, .obj (.view1D .vec) .d true, .obj (.view1D .mat) .d false], .vmlvec_vvmax, [0, 1, 2]⟩,
  ⟨.vml_max, [.obj (.view1D .vec) .d true, .obj (.view1D .vec) .d true, .obj (.view1D .ten) .d false], .vmlvec_vvmax, [0, 1, 2]⟩,
  ⟨.vml_max, [.obj (.view1D .vec) .d true, .obj (.view1D .mat) .d true, .obj .vector .d false], .vmlvec_vvmax, [0, 1, 2]⟩,
  ⟨.vml_max, [.obj (.view1D .vec) .d true, .obj (.view1D .mat) .d true, .obj (.view1D .vec) .d false], .vmlvec_vvmax, [0, 1, 2]⟩,
  ⟨.vml_max, [.obj (.view1D .vec) .d true, .obj (.view1D .mat) .d true, .obj (.view1D .mat) .d false], .vmlvec_vvmax, [0, 1, 2]⟩,
  ⟨.vml_max, [.obj (.view1D .vec) .d true, .obj (.view1D .mat) .d true, .obj (.view1D .ten) .d false], .vmlvec_vvmax, [0, 1, 2]⟩,
  ⟨.vml_max, [.obj (.view1D .vec) .d true, .obj (.view1D .ten) .d true, .obj .vector .d false], .vmlvec_vvmax, [0, 1, 2]⟩,
  ⟨.vml_max, [.obj (.view1D .vec) .d true, .obj (.view1D .ten) .d true, .obj (.view1D .vec) .d false], .vmlvec_vvmax, [0, 1, 2]⟩,
  ⟨.vml_max, [.obj (.view1D .vec) .d true, .obj (.view1D .ten) .d true, .obj (.view1D .mat) .d false], .vmlvec_vvmax, [0, 1, 2]⟩,
  ⟨.vml_max, [.obj (.view1D .vec) .d true, .obj (.view1D .ten) .d true, .obj (.view1D .ten) .d false], .vmlvec_vvmax, [0, 1, 2]⟩]

/-- src/vml/vector/vector_vml.cpp:5333-5697 -/
def tVmlVec_16 : List Overload := [
  ⟨.vml_max, [.obj (.view1D .mat) .d true, .obj .vector .d true, .obj .vector .d false], .vmlvec_vvmax, [0, 1, 2]⟩,
  ⟨.vml_max, [.obj (.view1D .mat) .d true, .obj .vector .d true, .obj (.view1D .vec) .d false], .vmlvec_vvmax, [0, 1, 2]⟩,
  ⟨.vml_max, [.obj (.view1D .mat) .d true, .obj .vector .d true, .obj (.view1D .mat) .d false], .vmlvec_vvmax, [0, 1, 2]⟩,
  ⟨.vml_max, [.obj (.view1D .mat) .d true, .obj .vector .d true, .obj (.view1D .ten) .d false], .vmlvec_vvmax, [0, 1, 2]⟩,
  ⟨.vml_max, [.obj (.view1D .mat) .d true, .obj (.view1D .vec) .d true, .obj .vector .d false], .vmlvec_vvmax, [0, 1, 2]⟩,
  ⟨.vml_max, [.obj (.view1D .mat) .d true, .obj (.view1D .vec) .d true, .obj (.view1D .vec) .d false], .vmlvec_vvmax, [0, 1, 2]⟩,
  ⟨.vml_max, [.obj (.view1D .mat) .d true, .obj (.view1D .vec) .d true, .obj (.view1D .mat) .d false], .vmlvec_vvmax, [0, 1, 2]⟩,
  ⟨.vml_max, [.obj (.view1D .mat) .d true, .obj (.view1D .vec) .d true, .obj (.view1D .ten) .d false], .vmlvec_vvmax, [0, 1, 2]⟩,
  ⟨.vml_max, [.obj (.view1D .mat) .d true, .obj (.view1D .mat) .d true, .obj .vector .d false], .vmlvec_vvmax, [0, 1, 2]⟩,
  ⟨.vml_max, [.obj (.view1D .mat) .d true, .obj (.view1D .mat) .d true, .obj (.view1D .vec) .d false], .vmlvec_vvmax, [0, 1, 2]⟩,
  ⟨.vml_max, [.obj (.view1D .mat) .d true, .obj (.view1D .mat) .d true, .obj (.view1D .mat) .d false], .vmlvec_vvmax, [0, 1, 2]⟩,
  ⟨.vml_max, [.obj (.view1D .mat) .d true, .obj (.view1D .mat) .d true, .obj (.view1D .ten) .d false], .vmlvec_vvmax, [0, 1, 2]⟩,
  ⟨.vml_max, [.obj (.view1D .mat) .d true, .obj (.view1D .ten) .d true, .obj .vector .d false], .vmlvec_vvmax, [0, 1, 2]⟩,
  ⟨.vml_max, [.obj (.view1D .mat) .d true, .obj (.view1D .ten) .d true, .obj (.view1D .vec) .d false], .vmlvec_vvmax, [0, 1, 2]⟩,
  ⟨.vml_max, [.obj (.view1D .mat) .d true, .obj (.view1D .ten) .d true, .obj (.view1D .mat) .d false], .vmlvec_vvmax, [0, 1, 2]⟩,
  ⟨.vml_max, [.obj (.view1D .mat) .d true, .obj (.view1D .ten) .d true, .obj (.view1D .ten) .d false], .vmlvec_vvmax, [0, 1, 2]⟩,
  ⟨.vml_max, [.obj (.view1D .ten) .d true, .obj .vector .d true, .obj .vector .d false], .vmlvec_vvmax, [0, 1, 2]⟩,
  ⟨.vml_max, [.obj (.view1D .ten) .d true, .obj .vector .d true, .obj (.view1D .vec) .d false], .vmlvec_vvmax, [0, 1, 2]⟩,
  ⟨.vml_max, [.obj (.view1D .ten) .d true, .obj .vector .d true, .obj (.view1D .mat) .d false], .vmlvec_vvmax, [0, 1, 2]⟩,
  ⟨.vml_max, [.obj (.view1D .ten) .d true, .obj .vector .d true, .obj (.view1D .ten) .d false], .vmlvec_vvmax, [0, 1, 2]⟩,
  ⟨.vml_max, [.obj (.view1D .ten) .d true, .obj (.view1D .vec) .d true, .obj .vector .d false], .vmlvec_vvmax, [0, 1, 2]⟩,
  ⟨.vml_max, [.obj (.view1D .ten) .d true, .obj (.view1D .vec) .d true, .obj (.view1D .vec) .d false], .vmlvec_vvmax, [0, 1, 2]⟩,
  ⟨.vml_max, [.obj (.view1D .ten) .d true, .obj (.view1D .vec) .d true, .obj (.view1D .mat) .d false], .vmlvec_vvmax, [0, 1, 2]⟩,
  ⟨.vml_max, [.obj (.view1D .ten) .d true, .obj (.view1D .vec) .d true, .obj (.view1D .ten) .d false], .vmlvec_vvmax, [0, 1, 2]⟩,
  ⟨.vml_max, [.obj (.view1D .ten) .d true, .obj (.view1D .mat) .d true, .obj .vector .d false], .vmlvec_vvmax, [0, 1, 2]⟩,
  ⟨.vml_max, [.obj (.view1D .ten) .d true, .obj (.view1D .mat) .d true, .obj (.view1D .vec) .d false], .vmlvec_vvmax, [0, 1, 2]⟩,
  ⟨.vml_max, [.obj (.view1D .ten) .d true, .obj (.view1D .mat) .d true, .obj (.view1D .mat) .d false], .vmlvec_vvmax, [0, 1, 2]⟩,
  ⟨.vml_max, [.obj (.view1D .ten) .d true, .obj (.view1D .mat) .d true, .obj (.view1D .ten) .d false], .vmlvec_vvmax, [0, 1, 2]⟩,
  ⟨.vml_max, [.obj (.view1D .ten) .d true, .obj (.view1D .ten) .d true, .obj .vector .d false], .vmlvec_vvmax, [0, 1, 2]⟩,
  ⟨.vml_max, [.obj (.view1D .ten) .d true, .obj (.view1D .ten) .d true, .obj (.view1D .vec) .d false], .vmlvec_vvmax, [0, 1, 2]⟩,
  ⟨.vml_max, [.obj (.view1D .ten) .d true, .obj (.view1D .ten) .d true, .obj (.view1D .mat) .d false], .vmlvec_vvmax, [0, 1, 2]⟩,
  ⟨.vml_max, [.obj (.view1D .ten) .d true, .obj (.view1D .ten) .d true, .obj (.view1D .ten) .d false], .vmlvec_vvmax, [0, 1, 2]⟩,
  ⟨.vml_max, [.obj .vector .s true, .obj .vector .s true, .obj .vector .s false], .vmlvec_vvmax, [0, 1, 2]⟩,
  ⟨.vml_max, [.obj .vector .s true, .obj .vector .s true, .obj (.view1D .vec) .s false], .vmlvec_vvmax, [0, 1, 2]⟩,
  ⟨.vml_max, [.obj .vector .s true, .obj .vector .s true, .obj (.view1D .mat) .s false], .vmlvec_vvmax, [0, 1, 2]⟩,
  ⟨.vml_max, [.obj .vector .s true, .obj .vector .s true, .obj (.view1D .ten) .s false], .vmlvec_vvmax, [0, 1, 2]⟩,
  ⟨.vml_max, [.obj .vector .s true, .obj (.view1D .vec) .s true, .obj .vector .s false], .vmlvec_vvmax, [0, 1, 2]⟩,
  ⟨.vml_max, [.obj .vector .s true, .obj (.view1D .vec) .s true, .obj (.view1D .vec) .s false], .vmlvec_vvmax, [0, 1, 2]⟩,
  ⟨.vml_max, [.obj .vector .s true, .obj (.view1D .vec) .s true, .obj (.view1D .mat) .s false], .vmlvec_vvmax, [0, 1, 2]⟩,
  ⟨.vml_max, [.obj .vector .s true, .obj (.view1D .vec) .s true, .obj (.view1D .ten) .s false], .vmlvec_vvmax, [0, 1, 2]⟩,
  ⟨.vml_max, [.obj .vector .s true, .obj (.view1D .mat) .s true, .obj .vector .s false], .vmlvec_vvmax, [0, 1, 2]⟩,
  ⟨.vml_max, [.obj .vector .s true, .obj (.view1D .mat) .s true, .obj (.view1D .vec) .s false], .vmlvec_vvmax, [0, 1, 2]⟩,
  ⟨.vml_max, [.obj .vector .s true, .obj (.view1D .mat) .s true, .obj (.view1D .mat) .s false], .vmlvec_vvmax, [0, 1, 2]⟩,
  ⟨.vml_max, [.obj .vector .s true, .obj (.view1D .mat) .s true, .obj (.view1D .ten) .s false], .vmlvec_vvmax, [0, 1, 2]⟩,
  ⟨.vml_max, [.obj .vector .s true, .obj (.view1D .ten) .s true, .obj .vector .s false], .vmlvec_vvmax, [0, 1, 2]⟩,
  ⟨.vml_max, [.obj .vector .s true, .obj (.view1D .ten) .s true, .obj (.view1D .vec) .s false], .vmlvec_vvmax, [0, 1, 2]⟩,
  ⟨.vml_max, [.obj .vector .s true, .obj (.view1D .ten) .s true, .obj (.view1D .mat) .s false], .vmlvec_vvmax, [0, 1, 2]⟩,
  ⟨.vml_max, [.obj .vector .s true, .obj (.view1D .ten) .s true, .obj (.view1D .ten) .s false], .vmlvec_vvmax, [0, 1, 2]⟩,
  ⟨.vml_max, [.obj (.view1D .vec) .s true, .obj .vector .s true, .obj .vector .s false], .vmlvec_vvmax, [0, 1, 2]⟩,
  ⟨.vml_max, [.obj (.view1D .vec) .s true, .obj .vector .s true, .obj (.view1D .vec) .s false], .vmlvec_vvmax, [0, 1, 2]⟩,
  ⟨.vml_max, [.obj (.view1D .vec) .s true, .obj .vector .s true, .obj (.view1D .mat) .s false], .vmlvec_vvmax, [0, 1, 2]⟩,
  ⟨.vml_max, [.obj (.view1D .vec) .s true, .obj .vector .s true, .obj (.view1D .ten) .s false], .vmlvec_vvmax, [0, 1, 2]⟩,
  ⟨.vml_max, [.obj (.view1D .vec) .s true, .obj (.view1D .vec) .s true, .obj .vector .s false], .vmlvec_vvmax, [0, 1, 2]⟩,
  ⟨.vml_max, [.obj (.view1D .vec) .s true, .obj (.view1D .vec) .s true, .obj (.view1D .vec) .s false], .vmlvec_vvmax, [0, 1, 2]⟩,
  ⟨.vml_max, [.obj (.view1D .vec) .s true, .obj (.view1D .vec) .s true, .obj (.view1D .mat) .s false], .vmlvec_vvmax, [0, 1, 2]⟩,
  ⟨.vml_max, [.obj (.view1D .vec) .s true, .obj (.view1D .vec) .s true, .obj (.view1D .ten) .s false], .vmlvec_vvmax, [0, 1, 2]⟩,
  ⟨.vml_max, [.obj (.view1D .vec) .s true, .obj (.view1D .mat) .s true, .obj .vector .s false], .vmlvec_vvmax, [0, 1, 2]⟩,
  ⟨.vml_max, [.obj (.view1D .vec) .s true, .obj (.view1D .mat) .s true, .obj (.view1D .vec) .s false], .vmlvec_vvmax, [0, 1, 2]⟩,
  ⟨.vml_max, [.obj (.view1D .vec) .s true, .obj (.view1D .mat) .s true, .obj (.view1D .mat) .s false], .vmlvec_vvmax, [0, 1, 2]⟩,
  ⟨.vml_max, [.obj (.view1D .vec) .s true, .obj (.view1D .mat) .s true, .obj (.view1D .ten) .s false], .vmlvec_vvmax, [0, 1, 2]⟩,
  ⟨.vml_max, [.obj (.view1D .vec) .s true, .obj (.view1D .ten) .s true, .obj .vector .s false], .vmlvec_vvmax, [0, 1, 2]⟩,
  ⟨.vml_max, [.obj (.view1D .vec) .s true, .obj (.view1D .ten) .s true, .obj (.view1D .vec) .s false], .vmlvec_vvmax, [0, 1, 2]⟩,
  ⟨.vml_max, [.obj (.view1D .vec) .s true, .obj (.view1D .ten) .s true, .obj (.view1D .mat) .s false], .vmlvec_vvmax, [0, 1, 2]⟩,
  ⟨.vml_max, [.obj (.view1D .vec) .s true, .obj (.view1D .ten) .s true, .obj (.view1D .ten) .s false], .vmlvec_vvmax, [0, 1, 2]⟩,
  ⟨.vml_max, [.obj (.view1D .mat) .s true, .obj .vector .s true, .obj .vector .s false], .vmlvec_vvmax, [0, 1, 2]⟩,
  ⟨.vml_max, [.obj (.view1D .mat) .s true, .obj .vector .s true, .obj (.view1D .vec) .s false], .vmlvec_vvmax, [0, 1, 2]⟩,
  ⟨.vml_max, [.obj (.view1D .mat) .s true, .obj .vector .s true, .obj (.view1D .mat) .s false], .vmlvec_vvmax, [0, 1, 2]⟩,
  ⟨.vml_max, [.obj (.view1D .mat) .s true, .obj .vector .s true, .obj (.view1D .ten) .s false], .vmlvec_vvmax, [0, 1, 2]⟩,
  ⟨.vml_max, [.obj (.view1D .mat) .s true, .obj (.view1D .vec) .s true, .obj .vector .s false], .vmlvec_vvmax, [0, 1, 2]⟩,
  ⟨.vml_max, [.obj (.view1D .mat) .s true, .obj (.view1D .vec) .s true, .obj (.view1D .vec) .s false], .vmlvec_vvmax, [0, 1, 2]⟩,
  ⟨.vml_max, [.obj (.view1D .mat) .s true, .obj (.view1D .vec) .s true, .obj (.view1D .mat) .s false], .vmlvec_vvmax, [0, 1, 2]⟩,
  ⟨.vml_max, [.obj (.view1D .mat) .s true, .obj (.view1D .vec) .s true, .obj (.view1D .ten) .s false], .vmlvec_vvmax, [0, 1, 2]⟩,
  ⟨.vml_max, [.obj (.view1D .mat) .s true, .obj (.view1D .mat) .s true, .obj .vector .s false], .vmlvec_vvmax, [0, 1, 2]⟩,
  ⟨.vml_max, [.obj (.view1D .mat) .s true, .obj (.view1D .mat) .s true, .obj (.view1D .vec) .s false], .vmlvec_vvmax, [0, 1, 2]⟩,
  ⟨.vml_max, [.obj (.view1D .mat) .s true, .obj (.view1D .mat) .s true, .obj (.view1D .mat) .s false], .vmlvec_vvmax, [0, 1, 2]⟩,
  ⟨.vml_max, [.obj (.view1D .mat) .s true, .obj (.view1D .mat) .s true, .obj (.view1D .ten) .s false], .vmlvec_vvmax, [0, 1, 2]⟩,
  ⟨.vml_max, [.obj (.view1D .mat) .s true, .obj (.view1D .ten) .s true, .obj .vector .s false], .vmlvec_vvmax, [0, 1, 2]⟩,
  ⟨.vml_max, [.obj (.view1D .mat) .s true, .obj (.view1D .ten) .s true, .obj (.view1D .vec) .s false], .vmlvec_vvmax, [0, 1, 2]⟩,
  ⟨.vml_max, [.obj (.view1D .mat) .s true, .obj (.view1D .ten) .s true, .obj (.view1D .mat) .s false], .vmlvec_vvmax, [0, 1, 2]⟩,
  ⟨.vml_max, [.obj (.view1D .mat) .s true, .obj (.view1D .ten) .s true, .obj (.view1D .ten) .s false], .vmlvec_vvmax, [0, 1, 2]⟩]

/-- src/vml/vector/vector_vml.cpp:5698-6066 -/
def tVmlVec_17 : List Overload := [
  ⟨.vml_max, [.obj (.view1D .ten) .s true, .obj .vector .s true, .obj .vector .s false], .vmlvec_vvmax, [0, 1, 2]⟩,
  ⟨.vml_max, [.obj (.view1D .ten) .s true, .obj .vector .s true, .obj (.view1D .vec) .s false], .vmlvec_vvmax, [0, 1, 2]⟩,
  ⟨.vml_max, [.obj (.view1D .ten) .s true, .obj .vector .s true, .obj (.view1D .mat) .s false], .vmlvec_vvmax, [0, 1, 2]⟩,
  ⟨.vml_max, [.obj (.view1D .ten) .s true, .obj .vector .s true, .obj (.view1D .ten) .s false], .vmlvec_vvmax, [0, 1, 2]⟩,
  ⟨.vml_max, [.obj (.view1D .ten) .s true, .obj (.view1D .vec) .s true, .obj .vector .s false], .vmlvec_vvmax, [0, 1, 2]⟩,
  ⟨.vml_max, [.obj (.view1D .ten) .s true, .obj (.view1D .vec) .s true, .obj (.view1D .vec) .s false], .vmlvec_vvmax, [0, 1, 2]⟩,
  ⟨.vml_max, [.obj (.view1D .ten) .s true, .obj (.view1D .vec) .s true, .obj (.view1D .mat) .s false], .vmlvec_vvmax, [0, 1, 2]⟩,
  ⟨.vml_max, [.obj (.view1D .ten) .s true, .obj (.view1D .vec) .s true, .obj (.view1D .ten) .s false], .vmlvec_vvmax, [0, 1, 2]⟩,
  ⟨.vml_max, [.obj (.view1D .ten) .s true, .obj (.view1D .mat) .s true, .obj .vector .s false], .vmlvec_vvmax, [0, 1, 2]⟩,
  ⟨.vml_max, [.obj (.view1D .ten) .s true, .obj (.view1D .mat) .s true, .obj (.view1D .vec) .s false], .vmlvec_vvmax, [0, 1, 2]⟩,
  ⟨.vml_max, [.obj (.view1D .ten) .s true, .obj (.view1D .mat) .s true, .obj (.view1D .mat) .s false], .vmlvec_vvmax, [0, 1, 2]⟩,
  ⟨.vml_max, [.obj (.view1D .ten) .s true, .obj (.view1D .mat) .s true, .obj (.view1D .ten) .s false], .vmlvec_vvmax, [0, 1, 2]⟩,
  ⟨.vml_max, [.obj (.view1D .ten) .s true, .obj (.view1D .ten) .s true, .obj .vector .s false], .vmlvec_vvmax, [0, 1, 2]⟩,
  ⟨.vml_max, [.obj (.view1D .ten) .s true, .obj (.view1D .ten) .s true, .obj (.view1D .vec) .s false], .vmlvec_vvmax, [0, 1, 2]⟩,
  ⟨.vml_max, [.obj (.view1D .ten) .s true, .obj (.view1D .ten) .s true, .obj (.view1D .mat) .s false], .vmlvec_vvmax, [0, 1, 2]⟩,
  ⟨.vml_max, [.obj (.view1D .ten) .s true, .obj (.view1D .ten) .s true, .obj (.view1D .ten) .s false], .vmlvec_vvmax, [0, 1, 2]⟩,
  ⟨.vml_min, [.obj .vector .d true, .obj .vector .d true, .obj .vector .d false], .vmlvec_vvmin, [0, 1, 2]⟩,
  ⟨.vml_min, [.obj .vector .d true, .obj .vector .d true, .obj (.view1D .vec) .d false], .vmlvec_vvmin, [0, 1, 2]⟩,
  ⟨.vml_min, [.obj .vector .d true, .obj .vector .d true, .obj (.view1D .mat) .d false], .vmlvec_vvmin, [0, 1, 2]⟩,
  ⟨.vml_min, [.obj .vector .d true, .obj .vector .d true, .obj (.view1D .ten) .d false], .vmlvec_vvmin, [0, 1, 2]⟩,
  ⟨.vml_min, [.obj .vector .d true, .obj (.view1D .vec) .d true, .obj .vector .d false], .vmlvec_vvmin, [0, 1, 2]⟩,
  ⟨.vml_min, [.obj .vector .d true, .obj (.view1D .vec) .d true, .obj (.view1D .vec) .d false], .vmlvec_vvmin, [0, 1, 2]⟩,
  ⟨.vml_min, [.obj .vector .d true, .obj (.view1D .vec) .d true, .obj (.view1D .mat) .d false], .vmlvec_vvmin, [0, 1, 2]⟩,
  ⟨.vml_min, [.obj .vector .d true, .obj (.view1D .vec) .d true, .obj (.view1D .ten) .d false], .vmlvec_vvmin, [0, 1, 2]⟩,
  ⟨.vml_min, [.obj .vector .d true, .obj (.view1D .mat) .d true, .obj .vector .d false], .vmlvec_vvmin, [0, 1, 2]⟩,
  ⟨.vml_min, [.obj .vector .d true, .obj (.view1D .mat) .d true, .obj (.view1D .vec) .d false], .vmlvec_vvmin, [0, 1, 2]⟩,
  ⟨.vml_min, [.obj .vector .d true, .obj (.view1D .mat) .d true, .obj (.view1D .mat) .d false], .vmlvec_vvmin, [0, 1, 2]⟩,
  ⟨.vml_min, [.obj .vector .d true, .obj (.view1D .mat) .d true, .obj (.view1D .ten) .d false], .vmlvec_vvmin, [0, 1, 2]⟩,
  ⟨.vml_min, [.obj .vector .d true, .obj (.view1D .ten) .d true, .obj .vector .d false], .vmlvec_vvmin, [0, 1, 2]⟩,
  ⟨.vml_min, [.obj .vector .d true, .obj (.view1D .ten) .d true, .obj (.view1D .vec) .d false], .vmlvec_vvmin, [0, 1, 2]⟩,
  ⟨.vml_min, [.obj .vector .d true, .obj (.view1D .ten) .d true, .obj (.view1D .mat) .d false], .vmlvec_vvmin, [0, 1, 2]⟩,
  ⟨.vml_min, [.obj .vector .d true, .obj (.view1D .ten) .d true, .obj (.view1D .ten) .d false], .vmlvec_vvmin, [0, 1, 2]⟩,
  ⟨.vml_min, [.obj (.view1D .vec) .d true, .obj .vector .d true, .obj .vector .d false], .vmlvec_vvmin, [0, 1, 2]⟩,
  ⟨.vml_min, [.obj (.view1D .vec) .d true, .obj .vector .d true, .obj (.view1D .vec) .d false], .vmlvec_vvmin, [0, 1, 2]⟩,
  ⟨.vml_min, [.obj (.view1D .vec) .d true, .obj .vector .d true, .obj (.view1D .mat) .d false], .vmlvec_vvmin, [0, 1, 2]⟩,
  ⟨.vml_min, [.obj (.view1D .vec) .d true, .obj .vector .d true, .obj (.view1D .ten) .d false], .vmlvec_vvmin, [0, 1, 2]⟩,
  ⟨.vml_min, [.obj (.view1D .vec) .d true, .obj (.view1D .vec) .d true, .obj .vector .d false], .vmlvec_vvmin, [0, 1, 2]⟩,
  ⟨.vml_min, [.obj (.view1D .vec) .d true, .obj (.view1D .vec) .d true, .obj (.view1D .vec) .d false], .vmlvec_vvmin, [0, 1, 2]⟩,
  ⟨.vml_min, [.obj (.view1D .vec) .d true, .obj (.view1D .vec) .d true, .obj (.view1D .mat) .d false], .vmlvec_vvmin, [0, 1, 2]⟩,
  ⟨.vml_min, [.obj (.view1D .vec) .d true, .obj (.view1D .vec) .d true, .obj (.view1D .ten) .d false], .vmlvec_vvmin, [0, 1, 2]⟩,
  ⟨.vml_min, [.obj (.view1D .vec) .d true, .obj (.view1D .mat) .d true, .obj .vector .d false], .vmlvec_vvmin, [0, 1, 2]⟩,
  ⟨.vml_min, [.obj (.view1D .vec) .d true, .obj (.view1D .mat) .d true, .obj (.view1D .vec) .d false], .vmlvec_vvmin, [0, 1, 2]⟩,
  ⟨.vml_min, [.obj (.view1D .vec) .d true, .obj (.view1D .mat) .d true, .obj (.view1D .mat) .d false], .vmlvec_vvmin, [0, 1, 2]⟩,
  ⟨.vml_min, [.obj (.view1D .vec) .d true, .obj (.view1D .mat) .d true, .obj (.view1D .ten) .d false], .vmlvec_vvmin, [0, 1, 2]⟩,
  ⟨.vml_min, [.obj (.view1D .vec) .d true, .obj (.view1D .ten) .d true, .obj .vector .d false], .vmlvec_vvmin, [0, 1, 2]⟩,
  ⟨.vml_min, [.obj (.view1D .vec) .d true, .obj (.view1D .ten) .d true, .obj (.view1D .vec) .d false], .vmlvec_vvmin, [0, 1, 2]⟩,
  ⟨.vml_min, [.obj (.view1D .vec) .d true, .obj (.view1D .ten) .d true, .obj (.view1D .mat) .d false], .vmlvec_vvmin, [0, 1, 2]⟩,
  ⟨.vml_min, [.obj (.view1D .vec) .d true, .obj (.view1D .ten) .d true, .obj (.view1D .ten) .d false], .vmlvec_vvmin, [0, 1, 2]⟩,
  ⟨.vml_min, [.obj (.view1D .mat) .d true, .obj .vector .d true, .obj .vector .d false], .vmlvec_vvmin, [0, 1, 2]⟩,
  ⟨.vml_min, [.obj (.view1D .mat) .d true, .obj .vector .d true, .obj (.view1D .vec) .d false], .vmlvec_vvmin, [0, 1, 2]⟩,
  ⟨.vml_min, [.obj (.view1D .mat) .d true, .obj .vector .d true, .obj (.view1D .mat) .d false], .vmlvec_vvmin, [0, 1, 2]⟩,
  ⟨.vml_min, [.obj (.view1D .mat) .d true, .obj .vector .d true, .obj (.view1D .ten) .d false], .vmlvec_vvmin, [0, 1, 2]⟩,
  ⟨.vml_min, [.obj (.view1D .mat) .d true, .obj (.view1D .vec) .d true, .obj .vector .d false], .vmlvec_vvmin, [0, 1, 2]⟩,
  ⟨.vml_min, [.obj (.view1D .mat) .d true, .obj (.view1D .vec) .d true, .obj (.view1D .vec) .d false], .vmlvec_vvmin, [0, 1, 2]⟩,
  ⟨.vml_min, [.obj (.view1D .mat) .d true, .obj (.view1D .vec) .d true, .obj (.view1D .mat) .d false], .vmlvec_vvmin, [0, 1, 2]⟩,
  ⟨.vml_min, [.obj (.view1D .mat) .d true, .obj (.view1D .vec) .d true, .obj (.view1D .ten) .d false], .vmlvec_vvmin, [0, 1, 2]⟩,
  ⟨.vml_min, [.obj (.view1D .mat) .d true, .obj (.view1D .mat) .d true, .obj .vector .d false], .vmlvec_vvmin, [0, 1, 2]⟩,
  ⟨.vml_min, [.obj (.view1D .mat) .d true, .obj (.view1D .mat) .d true, .obj (.view1D .vec) .d false], .vmlvec_vvmin, [0, 1, 2]⟩,
  ⟨.vml_min, [.obj (.view1D .mat) .d true, .obj (.view1D .mat) .d true, .obj (.view1D .mat) .d false], .vmlvec_vvmin, [0, 1, 2]⟩,
  ⟨.vml_min, [.obj (.view1D .mat) .d true, .obj (.view1D .mat) .d true, .obj (.view1D .ten) .d false], .vmlvec_vvmin, [0, 1, 2]⟩,
  ⟨.vml_min, [.obj (.view1D .mat) .d true, .obj (.view1D .ten) .d true, .obj .vector .d false], .vmlvec_vvmin, [0, 1, 2]⟩,
  ⟨.vml_min, [.obj (.view1D .mat) .d true, .obj (.view1D .ten) .d true, .obj (.view1D .vec) .d false], .vmlvec_vvmin, [0, 1, 2]⟩,
  ⟨.vml_min, [.obj (.view1D .mat) .d true, .obj (.view1D .ten) .d true, .obj (.view1D .mat) .d false], .vmlvec_vvmin, [0, 1, 2]⟩,
  ⟨.vml_min, [.obj (.view1D .mat) .d true, .obj (.view1D .ten) .d true, .obj (.view1D .ten) .d false], .vmlvec_vvmin, [0, 1, 2]⟩,
  ⟨.vml_min, [.obj (.view1D .ten) .d true, .obj .vector .d true, .obj .vector .d false], .vmlvec_vvmin, [0, 1, 2]⟩,
  ⟨.vml_min, [.obj (.view1D .ten) .d true, .obj .vector .d true, .obj (.view1D .vec) .d false], .vmlvec_vvmin, [0, 1, 2]⟩,
  ⟨.vml_min, [.obj (.view1D .ten) .d true, .obj .vector .d true, .obj (.view1D .mat) .d false], .vmlvec_vvmin, [0, 1, 2]⟩,
  ⟨.vml_min, [.obj (.view1D .ten) .d true, .obj .vector .d true, .obj (.view1D .ten) .d false], .vmlvec_vvmin, [0, 1, 2]⟩,
  ⟨.vml_min, [.obj (.view1D .ten) .d true, .obj (.view1D .vec) .d true, .obj .vector .d false], .vmlvec_vvmin, [0, 1, 2]⟩,
  ⟨.vml_min, [.obj (.view1D .ten) .d true, .obj (.view1D .vec) .d true, .obj (.view1D .vec) .d false], .vmlvec_vvmin, [0, 1, 2]⟩,
  ⟨.vml_min, [.obj (.view1D .ten) .d true, .obj (.view1D .vec) .d true, .obj (.view1D .mat) .d false], .vmlvec_vvmin, [0, 1, 2]⟩,
  ⟨.vml_min, [.obj (.view1D .ten) .d true, .obj (.view1D .vec) .d true, .obj (.view1D .ten) .d false], .vmlvec_vvmin, [0, 1, 2]⟩,
  ⟨.vml_min, [.obj (.view1D .ten) .d true, .obj (.view1D .mat) .d true, .obj .vector .d false], .vmlvec_vvmin, [0, 1, 2]⟩,
  ⟨.vml_min, [.obj (.view1D .ten) .d true, .obj (.view1D .mat) .d true, .obj (.view1D .vec) .d false], .vmlvec_vvmin, [0, 1, 2]⟩,
  ⟨.vml_min, [.obj (.view1D .ten) .d true, .obj (.view1D .mat) .d true, .obj (.view1D .mat) .d false], .vmlvec_vvmin, [0, 1, 2]⟩,
  ⟨.vml_min, [.obj (.view1D .ten) .d true, .obj (.view1D .mat) .d true, .obj (.view1D .ten) .d false], .vmlvec_vvmin, [0, 1, 2]⟩,
  ⟨.vml_min, [.obj (.view1D .ten) .d true, .obj (.view1D .ten) .d true, .obj .vector .d false], .vmlvec_vvmin, [0, 1, 2]⟩,
  ⟨.vml_min, [.obj (.view1D .ten) .d true, .obj (.view1D .ten) .d true, .obj (.view1D .vec) .d false], .vmlvec_vvmin, [0, 1, 2]⟩,
  ⟨.vml_min, [.obj (.view1D .ten) .d true, .obj (.view1D .ten) .d true, .obj (.view1D .mat) .d false], .vmlvec_vvmin, [0, 1, 2]⟩,
  ⟨.vml_min, [.obj (.view1D .ten) .d true, .obj (.view1D .ten) .d true, .obj (.view1D .ten) .d false], .vmlvec_vvmin, [0, 1, 2]⟩]

/-- src/vml/vector/vector_vml.cpp:6067-6420 -/
def tVmlVec_18 : List Overload := [
  ⟨.vml_min, [.obj .vector .s true, .obj .vector .s true, .obj .vector .s false], .vmlvec_vvmin, [0, 1, 2]⟩,
  ⟨.vml_min, [.obj .vector .s true, .obj .vector .s true, .obj (.view1D .vec) .s false], .vmlvec_vvmin, [0, 1, 2]⟩,
  ⟨.vml_min, [.obj .vector .s true, .obj .vector .s true, .obj (.view1D .mat) .s false], .vmlvec_vvmin, [0, 1, 2]⟩,
  ⟨.vml_min, [.obj .vector .s true, .obj .vector .s true, .obj (.view1D .ten) .s false], .vmlvec_vvmin, [0, 1, 2]⟩,
  ⟨.vml_min, [.obj .vector .s true, .obj (.view1D .vec) .s true, .obj .vector .s false], .vmlvec_vvmin, [0, 1, 2]⟩,
  ⟨.vml_min, [.obj .vector .s true, .obj (.view1D .vec) .s true, .obj (.view1D .vec) .s false], .vmlvec_vvmin, [0, 1, 2]⟩,
  ⟨.vml_min, [.obj .vector .s true, .obj (.view1D .vec) .s true, .obj (.view1D .mat) .s false], .vmlvec_vvmin, [0, 1, 2]⟩,
  ⟨.vml_min, [.obj .vector .s true, .obj (.view1D .vec) .s true, .obj (.view1D .ten) .s false], .vmlvec_vvmin, [0, 1, 2]⟩,
  ⟨.vml_min, [.obj .vector .s true, .obj (.view1D .mat) .s true, .obj .vector .s false], .vmlvec_vvmin, [0, 1, 2]⟩,
  ⟨.vml_min, [.obj .vector .s true, .obj (.view1D .mat) .s true, .obj (.view1D .vec) .s false], .vmlvec_vvmin, [0, 1, 2]⟩,
  ⟨.vml_min, [.obj .vector .s true, .obj (.view1D .mat) .s true, .obj (.view1D .mat) .s false], .vmlvec_vvmin, [0, 1, 2]⟩,
  ⟨.vml_min, [.obj .vector .s true, .obj (.view1D .mat) .s true, .obj (.view1D .ten) .s false], .vmlvec_vvmin, [0, 1, 2]⟩,
  ⟨.vml_min, [.obj .vector .s true, .obj (.view1D .ten) .s true, .obj .vector .s false], .vmlvec_vvmin, [0, 1, 2]⟩,
  ⟨.vml_min, [.obj .vector .s true, .obj (.view1D .ten) .s true, .obj (.view1D .vec) .s false], .vmlvec_vvmin, [0, 1, 2]⟩,
  ⟨.vml_min, [.obj .vector .s true, .obj (.view1D .ten) .s true, .obj (.view1D .mat) .s false], .vmlvec_vvmin, [0, 1, 2]⟩,
  ⟨.vml_min, [.obj .vector .s true, .obj (.view1D .ten) .s true, .obj (.view1D .ten) .s false], .vmlvec_vvmin, [0, 1, 2]⟩,
  ⟨.vml_min, [.obj (.view1D .vec) .s true, .obj .vector .s true, .obj .vector .s false], .vmlvec_vvmin, [0, 1, 2]⟩,
  ⟨.vml_min, [.obj (.view1D .vec) .s true, .obj .vector .s true, .obj (.view1D .vec) .s false], .vmlvec_vvmin, [0, 1, 2]⟩,
  ⟨.vml_min, [.obj (.view1D .vec) .s true, .obj .vector .s true, .obj (.view1D .mat) .s false], .vmlvec_vvmin, [0, 1, 2]⟩,
  ⟨.vml_min, [.obj (.view1D .vec) .s true, .obj .vector .s true, .obj (.view1D .ten) .s false], .vmlvec_vvmin, [0, 1, 2]⟩,
  ⟨.vml_min, [.obj (.view1D .vec) .s true, .obj (.view1D .vec) .s true, .obj .vector .s false], .vmlvec_vvmin, [0, 1, 2]⟩,
  ⟨.vml_min, [.obj (.view1D .vec) .s true, .obj (.view1D .vec) .s true, .obj (.view1D .vec) .s false], .vmlvec_vvmin, [0, 1, 2]⟩,
  ⟨.vml_min, [.obj (.view1D .vec) .s true, .obj (.view1D .vec) .s true, .obj (.view1D .mat) .s false], .vmlvec_vvmin, [0, 1, 2]⟩,
  ⟨.vml_min, [.obj (.view1D .vec) .s true, .obj (.view1D .vec) .s true, .obj (.view1D .ten) .s false], .vmlvec_vvmin, [0, 1, 2]⟩,
  ⟨.vml_min, [.obj (.view1D .vec) .s true, .obj (.view1D .mat) .s true, .obj .vector .s false], .vmlvec_vvmin, [0, 1, 2]⟩,
  ⟨.vml_min, [.obj (.view1D .vec) .s true, .obj (.view1D .mat) .s true, .obj (.view1D .vec) .s false], .vmlvec_vvmin, [0, 1, 2]⟩,
  ⟨.vml_min, [.obj (.view1D .vec) .s true, .obj (.view1D .mat) .s true, .obj (.view1D .mat) .s false], .vmlvec_vvmin, [0, 1, 2]⟩,
  ⟨.vml_min, [.obj (.view1D .vec) .s true, .obj (.view1D .mat) .s true, .obj (.view1D .ten) .s false], .vmlvec_vvmin, [0, 1, 2]⟩,
  ⟨.vml_min, [.obj (.view1D .vec) .s true, .obj (.view1D .ten) .s true, .obj .vector .s false], .vmlvec_vvmin, [0, 1, 2]⟩,
  ⟨.vml_min, [.obj (.view1D .vec) .s true, .obj (.view1D .ten) .s true, .obj (.view1D .vec) .s false], .vmlvec_vvmin, [0, 1, 2]⟩,
  ⟨.vml_min, [.obj (.view1D .vec) .s true, .obj (.view1D .ten) .s true, .obj (.view1D .mat) .s false], .vmlvec_vvmin, [0, 1, 2]⟩,
  ⟨.vml_min, [.obj (.view1D .vec) .s true, .obj (.view1D .ten) .s true, .obj (.view1D .ten) .s false], .vmlvec_vvmin, [0, 1, 2]⟩,
  ⟨.vml_min, [.obj (.view1D .mat) .s true, .obj .vector .s true, .obj .vector .s false], .vmlvec_vvmin, [0, 1, 2]⟩,
  ⟨.vml_min, [.obj (.view1D .mat) .s true, .obj .vector .s true, .obj (.view1D .vec) .s false], .vmlvec_vvmin, [0, 1, 2]⟩,
  ⟨.vml_min, [.obj (.view1D .mat) .s true, .obj .vector .s true, .obj (.view1D .mat) .s false], .vmlvec_vvmin, [0, 1, 2]⟩,
  ⟨.vml_min, [.obj (.view1D .mat) .s true, .obj .vector .s true, .obj (.view1D .ten) .s false], .vmlvec_vvmin, [0, 1, 2]⟩,
  ⟨.vml_min, [.obj (.view1D .mat) .s true, .obj (.view1D .vec) .s true, .obj .vector .s false], .vmlvec_vvmin, [0, 1, 2]⟩,
  ⟨.vml_min, [.obj (.view1D .mat) .s true, .obj (.view1D .vec) .s true, .obj (.view1D .vec) .s false], .vmlvec_vvmin, [0, 1, 2]⟩,
  ⟨.vml_min, [.obj (.view1D .mat) .s true, .obj (.view1D .vec) .s true, .obj (.view1D .mat) .s false], .vmlvec_vvmin, [0, 1, 2]⟩,
  ⟨.vml_min, [.obj (.view1D .mat) .s true, .obj (.view1D .vec) .s true, .obj (.view1D .ten) .s false], .vmlvec_vvmin, [0, 1, 2]⟩,
  ⟨.vml_min, [.obj (.view1D .mat) .s true, .obj (.view1D .mat) .s true, .obj .vector .s false], .vmlvec_vvmin, [0, 1, 2]⟩,
  ⟨.vml_min, [.obj (.view1D .mat) .s true, .obj (.view1D .mat) .s true, .obj (.view1D .vec) .s false], .vmlvec_vvmin, [0, 1, 2]⟩,
  ⟨.vml_min, [.obj (.view1D .mat) .s true, .obj (.view1D .mat) .s true, .obj (.view1D .mat) .s false], .vmlvec_vvmin, [0, 1, 2]⟩,
  ⟨.vml_min, [.obj (.view1D .mat) .s true, .obj (.view1D .mat) .s true, .obj (.view1D .ten) .s false], .vmlvec_vvmin, [0, 1, 2]⟩,
  ⟨.vml_min, [.obj (.view1D .mat) .s true, .obj (.view1D .ten) .s true, .obj .vector .s false], .vmlvec_vvmin, [0, 1, 2]⟩,
  ⟨.vml_min, [.obj (.view1D .mat) .s true, .obj (.view1D .ten) .s true, .obj (.view1D .vec) .s false], .vmlvec_vvmin, [0, 1, 2]⟩,
  ⟨.vml_min, [.obj (.view1D .mat) .s true, .obj (.view1D .ten) .s true, .obj (.view1D .mat) .s false], .vmlvec_vvmin, [0, 1, 2]⟩,
  ⟨.vml_min, [.obj (.view1D .mat) .s true, .obj (.view1D .ten) .s true, .obj (.view1D .ten) .s false], .vmlvec_vvmin, [0, 1, 2]⟩,
  ⟨.vml_min, [.obj (.view1D .ten) .s true, .obj .vector .s true, .obj .vector .s false], .vmlvec_vvmin, [0, 1, 2]⟩,
  ⟨.vml_min, [.obj (.view1D .ten) .s true, .obj .vector .s true, .obj (.view1D .vec) .s false], .vmlvec_vvmin, [0, 1, 2]⟩,
  ⟨.vml_min, [.obj (.view1D .ten) .s true, .obj .vector .s true, .obj (.view1D .mat) .s false], .vmlvec_vvmin, [0, 1, 2]⟩,
  ⟨.vml_min, [.obj (.view1D .ten) .s true, .obj .vector .s true, .obj (.view1D .ten) .s false], .vmlvec_vvmin, [0, 1, 2]⟩,
  ⟨.vml_min, [.obj (.view1D .ten) .s true, .obj (.view1D .vec) .s true, .obj .vector .s false], .vmlvec_vvmin, [0, 1, 2]⟩,
  ⟨.vml_min, [.obj (.view1D .ten) .s true, .obj (.view1D .vec) .s true, .obj (.view1D .vec) .s false], .vmlvec_vvmin, [0, 1, 2]⟩,
  ⟨.vml_min, [.obj (.view1D .ten) .s true, .obj (.view1D .vec) .s true, .obj (.view1D .mat) .s false], .vmlvec_vvmin, [0, 1, 2]⟩,
  ⟨.vml_min, [.obj (.view1D .ten) .s true, .obj (.view1D .vec) .s true, .obj (.view1D .ten) .s false], .vmlvec_vvmin, [0, 1, 2]⟩,
  ⟨.vml_min, [.obj (.view1D .ten) .s true, .obj (.view1D .mat) .s true, .obj .vector .s false], .vmlvec_vvmin, [0, 1, 2]⟩,
  ⟨.vml_min, [.obj (.view1D .ten) .s true, .obj (.view1D .mat) .s true, .obj (.view1D .vec) .s false], .vmlvec_vvmin, [0, 1, 2]⟩,
  ⟨.vml_min, [.obj (.view1D .ten) .s true, .obj (.view1D .mat) .s true, .obj (.view1D .mat) .s false], .vmlvec_vvmin, [0, 1, 2]⟩,
  ⟨.vml_min, [.obj (.view1D .ten) .s true, .obj (.view1D .mat) .s true, .obj (.view1D .ten) .s false], .vmlvec_vvmin, [0, 1, 2]⟩,
  ⟨.vml_min, [.obj (.view1D .ten) .s true, .obj (.view1D .ten) .s true, .obj .vector .s false], .vmlvec_vvmin, [0, 1, 2]⟩,
  ⟨.vml_min, [.obj (.view1D .ten) .s true, .obj (.view1D .ten) .s true, .obj (.view1D .vec) .s false], .vmlvec_vvmin, [0, 1, 2]⟩,
  ⟨.vml_min, [.obj (.view1D .ten) .s true, .obj (.view1D .ten) .s true, .obj (.view1D .mat) .s false], .vmlvec_vvmin, [0, 1, 2]⟩,
  ⟨.vml_min, [.obj (.view1D .ten) .s true, .obj (.view1D .ten) .s true, .obj (.view1D .ten) .s false], .vmlvec_vvmin, [0, 1, 2]⟩,
  ⟨.vml_max, [.obj .vector .d true, .scal .d, .obj .vector .d false], .vmlvec_svmax, [0, 1, 2]⟩,
  ⟨.vml_max, [.obj .vector .d true, .scal .d, .obj (.view1D .vec) .d false], .vmlvec_svmax, [0, 1, 2]⟩,
  ⟨.vml_max, [.obj .vector .d true, .scal .d, .obj (.view1D .mat) .d false], .vmlvec_svmax, [0, 1, 2]⟩,
  ⟨.vml_max, [.obj .vector .d true, .scal .d, .obj (.view1D .ten) .d false], .vmlvec_svmax, [0, 1, 2]⟩,
  ⟨.vml_max, [.obj (.view1D .vec) .d true, .scal .d, .obj .vector .d false], .vmlvec_svmax, [0, 1, 2]⟩,
  ⟨.vml_max, [.obj (.view1D .vec) .d true, .scal .d, .obj (.view1D .vec) .d false], .vmlvec_svmax, [0, 1, 2]⟩,
  ⟨.vml_max, [.obj (.view1D .vec) .d true, .scal .d, .obj (.view1D .mat) .d false], .vmlvec_svmax, [0, 1, 2]⟩,
  ⟨.vml_max, [.obj (.view1D .vec) .d true, .scal .d, .obj (.view1D .ten) .d false], .vmlvec_svmax, [0, 1, 2]⟩,
  ⟨.vml_max, [.obj (.view1D .mat) .d true, .scal .d, .obj .vector .d false], .vmlvec_svmax, [0, 1, 2]⟩,
  ⟨.vml_max, [.obj (.view1D .mat) .d true, .scal .d, .obj (.view1D .vec) .d false], .vmlvec_svmax, [0, 1, 2]⟩,
  ⟨.vml_max, [.obj (.view1D .mat) .d true, .scal .d, .obj (.view1D .mat) .d false], .vmlvec_svmax, [0, 1, 2]⟩,
  ⟨.vml_max, [.obj (.view1D .mat) .d true, .scal .d, .obj (.view1D .ten) .d false], .vmlvec_svmax, [0, 1, 2]⟩,
  ⟨.vml_max, [.obj (.view1D .ten) .d true, .scal .d, .obj .vector .d false], .vmlvec_svmax, [0, 1, 2]⟩,
  ⟨.vml_max, [.obj (.view1D .ten) .d true, .scal .d, .obj (.view1D .vec) .d false], .vmlvec_svmax, [0, 1, 2]⟩,
  ⟨.vml_max, [.obj (.view1D .ten) .d true, .scal .d, .obj (.view1D .mat) .d false], .vmlvec_svmax, [0, 1, 2]⟩,
  ⟨.vml_max, [.obj (.view1D .ten) .d true, .scal .d, .obj (.view1D .ten) .d false], .vmlvec_svmax, [0, 1, 2]⟩]

/-- src/vml/vector/vector_vml.cpp:6421-6786 -/
def tVmlVec_19 : List Overload := [
  ⟨.vml_max, [.obj .vector .s true, .scal .s, .obj .vector .s false], .vmlvec_svmax, [0, 1, 2]⟩,
  ⟨.vml_max, [.obj .vector .s true, .scal .s, .obj (.view1D .vec) .s false], .vmlvec_svmax, [0, 1, 2]⟩,
  ⟨.vml_max, [.obj .vector .s true, .scal .s, .obj (.view1D .mat) .s false], .vmlvec_svmax, [0, 1, 2]⟩,
  ⟨.vml_max, [.obj .vector .s true, .scal .s, .obj (.view1D .ten) .s false], .vmlvec_svmax, [0, 1, 2]⟩,
  ⟨.vml_max, [.obj (.view1D .vec) .s true, .scal .s, .obj .vector .s false], .vmlvec_svmax, [0, 1, 2]⟩,
  ⟨.vml_max, [.obj (.view1D .vec) .s true, .scal .s, .obj (.view1D .vec) .s false], .vmlvec_svmax, [0, 1, 2]⟩,
  ⟨.vml_max, [.obj (.view1D .vec) .s true, .scal .s, .obj (.view1D .mat) .s false], .vmlvec_svmax, [0, 1, 2]⟩,
  ⟨.vml_max, [.obj (.view1D .vec) .s true, .scal .s, .obj (.view1D .ten) .s false], .vmlvec_svmax, [0, 1, 2]⟩,
  ⟨.vml_max, [.obj (.view1D .mat) .s true, .scal .s, .obj .vector .s false], .vmlvec_svmax, [0, 1, 2]⟩,
  ⟨.vml_max, [.obj (.view1D .mat) .s true, .scal .s, .obj (.view1D .vec) .s false], .vmlvec_svmax, [0, 1, 2]⟩,
  ⟨.vml_max, [.obj (.view1D .mat) .s true, .scal .s, .obj (.view1D .mat) .s false], .vmlvec_svmax, [0, 1, 2]⟩,
  ⟨.vml_max, [.obj (.view1D .mat) .s true, .scal .s, .obj (.view1D .ten) .s false], .vmlvec_svmax, [0, 1, 2]⟩,
  ⟨.vml_max, [.obj (.view1D .ten) .s true, .scal .s, .obj .vector .s false], .vmlvec_svmax, [0, 1, 2]⟩,
  ⟨.vml_max, [.obj (.view1D .ten) .s true, .scal .s, .obj (.view1D .vec) .s false], .vmlvec_svmax, [0, 1, 2]⟩,
  ⟨.vml_max, [.obj (.view1D .ten) .s true, .scal .s, .obj (.view1D .mat) .s false], .vmlvec_svmax, [0, 1, 2]⟩,
  ⟨.vml_max, [.obj (.view1D .ten) .s true, .scal .s, .obj (.view1D .ten) .s false], .vmlvec_svmax, [0, 1, 2]⟩,
  ⟨.vml_min, [.obj .vector .d true, .scal .d, .obj .vector .d false], .vmlvec_svmin, [0, 1, 2]⟩,
  ⟨.vml_min, [.obj .vector .d true, .scal .d, .obj (.view1D .vec) .d false], .vmlvec_svmin, [0, 1, 2]⟩,
  ⟨.vml_min, [.obj .vector .d true, .scal .d, .obj (.view1D .mat) .d false], .vmlvec_svmin, [0, 1, 2]⟩,
  ⟨.vml_min, [.obj .vector .d true, .scal .d, .obj (.view1D .ten) .d false], .vmlvec_svmin, [0, 1, 2]⟩,
  ⟨.vml_min, [.obj (.view1D .vec) .d true, .scal .d, .obj .vector .d false], .vmlvec_svmin, [0, 1, 2]⟩,
  ⟨.vml_min, [.obj (.view1D .vec) .d true, .scal .d, .obj (.view1D .vec) .d false], .vmlvec_svmin, [0, 1, 2]⟩,
  ⟨.vml_min, [.obj (.view1D .vec) .d true, .scal .d, .obj (.view1D .mat) .d false], .vmlvec_svmin, [0, 1, 2]⟩,
  ⟨.vml_min, [.obj (.view1D .vec) .d true, .scal .d, .obj (.view1D .ten) .d false], .vmlvec_svmin, [0, 1, 2]⟩,
  ⟨.vml_min, [.obj (.view1D .mat) .d true, .scal .d, .obj .vector .d false], .vmlvec_svmin, [0, 1, 2]⟩,
  ⟨.vml_min, [.obj (.view1D .mat) .d true, .scal .d, .obj (.view1D .vec) .d false], .vmlvec_svmin, [0, 1, 2]⟩,
  ⟨.vml_min, [.obj (.view1D .mat) .d true, .scal .d, .obj (.view1D .mat) .d false], .vmlvec_svmin, [0, 1, 2]⟩,
  ⟨.vml_min, [.obj (.view1D .mat) .d true, .scal .d, .obj (.view1D .ten) .d false], .vmlvec_svmin, [0, 1, 2]⟩,
  ⟨.vml_min, [.obj (.view1D .ten) .d true, .scal .d, .obj .vector .d false], .vmlvec_svmin, [0, 1, 2]⟩,
  ⟨.vml_min, [.obj (.view1D .ten) .d true, .scal .d, .obj (.view1D .vec) .d false], .vmlvec_svmin, [0, 1, 2]⟩,
  ⟨.vml_min, [.obj (.view1D .ten) .d true, .scal .d, .obj (.view1D .mat) .d false], .vmlvec_svmin, [0, 1, 2]⟩,
  ⟨.vml_min, [.obj (.view1D .ten) .d true, .scal .d, .obj (.view1D .ten) .d false], .vmlvec_svmin, [0, 1, 2]⟩,
  ⟨.vml_min, [.obj .vector .s true, .scal .s, .obj .vector .s false], .vmlvec_svmin, [0, 1, 2]⟩,
  ⟨.vml_min, [.obj .vector .s true, .scal .s, .obj (.view1D .vec) .s false], .vmlvec_svmin, [0, 1, 2]⟩,
  ⟨.vml_min, [.obj .vector .s true, .scal .s, .obj (.view1D .mat) .s false], .vmlvec_svmin, [0, 1, 2]⟩,
  ⟨.vml_min, [.obj .vector .s true, .scal .s, .obj (.view1D .ten) .s false], .vmlvec_svmin, [0, 1, 2]⟩,
  ⟨.vml_min, [.obj (.view1D .vec) .s true, .scal .s, .obj .vector .s false], .vmlvec_svmin, [0, 1, 2]⟩,
  ⟨.vml_min, [.obj (.view1D .vec) .s true, .scal .s, .obj (.view1D .vec) .s false], .vmlvec_svmin, [0, 1, 2]⟩,
  ⟨.vml_min, [.obj (.view1D .vec) .s true, .scal .s, .obj (.view1D .mat) .s false], .vmlvec_svmin, [0, 1, 2]⟩,
  ⟨.vml_min, [.obj (.view1D .vec) .s true, .scal .s, .obj (.view1D .ten) .s false], .vmlvec_svmin, [0, 1, 2]⟩,
  ⟨.vml_min, [.obj (.view1D .mat) .s true, .scal .s, .obj .vector .s false], .vmlvec_svmin, [0, 1, 2]⟩,
  ⟨.vml_min, [.obj (.view1D .mat) .s true, .scal .s, .obj (.view1D .vec) .s false], .vmlvec_svmin, [0, 1, 2]⟩,
  ⟨.vml_min, [.obj (.view1D .mat) .s true, .scal .s, .obj (.view1D .mat) .s false], .vmlvec_svmin, [0, 1, 2]⟩,
  ⟨.vml_min, [.obj (.view1D .mat) .s true, .scal .s, .obj (.view1D .ten) .s false], .vmlvec_svmin, [0, 1, 2]⟩,
  ⟨.vml_min, [.obj (.view1D .ten) .s true, .scal .s, .obj .vector .s false], .vmlvec_svmin, [0, 1, 2]⟩,
  ⟨.vml_min, [.obj (.view1D .ten) .s true, .scal .s, .obj (.view1D .vec) .s false], .vmlvec_svmin, [0, 1, 2]⟩,
  ⟨.vml_min, [.obj (.view1D .ten) .s true, .scal .s, .obj (.view1D .mat) .s false], .vmlvec_svmin, [0, 1, 2]⟩,
  ⟨.vml_min, [.obj (.view1D .ten) .s true, .scal .s, .obj (.view1D .ten) .s false], .vmlvec_svmin, [0, 1, 2]⟩,
  ⟨.vml_alo, [.obj .vector .d true, .scal .d, .scal .d, .obj .vector .d false], .vmlvec_vecalo, [0, 1, 2, 3]⟩,
  ⟨.vml_alo, [.obj .vector .d true, .scal .d, .scal .d, .obj (.view1D .vec) .d false], .vmlvec_vecalo, [0, 1, 2, 3]⟩,
  ⟨.vml_alo, [.obj .vector .d true, .scal .d, .scal .d, .obj (.view1D .mat) .d false], .vmlvec_vecalo, [0, 1, 2, 3]⟩,
  ⟨.vml_alo, [.obj .vector .d true, .scal .d, .scal .d, .obj (.view1D .ten) .d false], .vmlvec_vecalo, [0, 1, 2, 3]⟩,
  ⟨.vml_alo, [.obj (.view1D .vec) .d true, .scal .d, .scal .d, .obj .vector .d false], .vmlvec_vecalo, [0, 1, 2, 3]⟩,
  ⟨.vml_alo, [.obj (.view1D .vec) .d true, .scal .d, .scal .d, .obj (.view1D .vec) .d false], .vmlvec_vecalo, [0, 1, 2, 3]⟩,
  ⟨.vml_alo, [.obj (.view1D .vec) .d true, .scal .d, .scal .d, .obj (.view1D .mat) .d false], .vmlvec_vecalo, [0, 1, 2, 3]⟩,
  ⟨.vml_alo, [.obj (.view1D .vec) .d true, .scal .d, .scal .d, .obj (.view1D .ten) .d false], .vmlvec_vecalo, [0, 1, 2, 3]⟩,
  ⟨.vml_alo, [.obj (.view1D .mat) .d true, .scal .d, .scal .d, .obj .vector .d false], .vmlvec_vecalo, [0, 1, 2, 3]⟩,
  ⟨.vml_alo, [.obj (.view1D .mat) .d true, .scal .d, .scal .d, .obj (.view1D .vec) .d false], .vmlvec_vecalo, [0, 1, 2, 3]⟩,
  ⟨.vml_alo, [.obj (.view1D .mat) .d true, .scal .d, .scal .d, .obj (.view1D .mat) .d false], .vmlvec_vecalo, [0, 1, 2, 3]⟩,
  ⟨.vml_alo, [.obj (.view1D .mat) .d true, .scal .d, .scal .d, .obj (.view1D .ten) .d false], .vmlvec_vecalo, [0, 1, 2, 3]⟩,
  ⟨.vml_alo, [.obj (.view1D .ten) .d true, .scal .d, .scal .d, .obj .vector .d false], .vmlvec_vecalo, [0, 1, 2, 3]⟩,
  ⟨.vml_alo, [.obj (.view1D .ten) .d true, .scal .d, .scal .d, .obj (.view1D .vec) .d false], .vmlvec_vecalo, [0, 1, 2, 3]⟩,
  ⟨.vml_alo, [.obj (.view1D .ten) .d true, .scal .d, .scal .d, .obj (.view1D .mat) .d false], .vmlvec_vecalo, [0, 1, 2, 3]⟩,
  ⟨.vml_alo, [.obj (.view1D .ten) .d true, .scal .d, .scal .d, .obj (.view1D .ten) .d false], .vmlvec_vecalo, [0, 1, 2, 3]⟩,
  ⟨.vml_alo, [.obj .vector .s true, .scal .s, .scal .s, .obj .vector .s false], .vmlvec_vecalo, [0, 1, 2, 3]⟩,
  ⟨.vml_alo, [.obj .vector .s true, .scal .s, .scal .s, .obj (.view1D .vec) .s false], .vmlvec_vecalo, [0, 1, 2, 3]⟩,
  ⟨.vml_alo, [.obj .vector .s true, .scal .s, .scal .s, .obj (.view1D .mat) .s false], .vmlvec_vecalo, [0, 1, 2, 3]⟩,
  ⟨.vml_alo, [.obj .vector .s true, .scal .s, .scal .s, .obj (.view1D .ten) .s false], .vmlvec_vecalo, [0, 1, 2, 3]⟩,
  ⟨.vml_alo, [.obj (.view1D .vec) .s true, .scal .s, .scal .s, .obj .vector .s false], .vmlvec_vecalo, [0, 1, 2, 3]⟩,
  ⟨.vml_alo, [.obj (.view1D .vec) .s true, .scal .s, .scal .s, .obj (.view1D .vec) .s false], .vmlvec_vecalo, [0, 1, 2, 3]⟩,
  ⟨.vml_alo, [.obj (.view1D .vec) .s true, .scal .s, .scal .s, .obj (.view1D .mat) .s false], .vmlvec_vecalo, [0, 1, 2, 3]⟩,
  ⟨.vml_alo, [.obj (.view1D .vec) .s true, .scal .s, .scal .s, .obj (.view1D .ten) .s false], .vmlvec_vecalo, [0, 1, 2, 3]⟩,
  ⟨.vml_alo, [.obj (.view1D .mat) .s true, .scal .s, .scal .s, .obj .vector .s false], .vmlvec_vecalo, [0, 1, 2, 3]⟩,
  ⟨.vml_alo, [.obj (.view1D .mat) .s true, .scal .s, .scal .s, .obj (.view1D .vec) .s false], .vmlvec_vecalo, [0, 1, 2, 3]⟩,
  ⟨.vml_alo, [.obj (.view1D .mat) .s true, .scal .s, .scal .s, .obj (.view1D .mat) .s false], .vmlvec_vecalo, [0, 1, 2, 3]⟩,
  ⟨.vml_alo, [.obj (.view1D .mat) .s true, .scal .s, .scal .s, .obj (.view1D .ten) .s false], .vmlvec_vecalo, [0, 1, 2, 3]⟩,
  ⟨.vml_alo, [.obj (.view1D .ten) .s true, .scal .s, .scal .s, .obj .vector .s false], .vmlvec_vecalo, [0, 1, 2, 3]⟩,
  ⟨.vml_alo, [.obj (.view1D .ten) .s true, .scal .s, .scal .s, .obj (.view1D .vec) .s false], .vmlvec_vecalo, [0, 1, 2, 3]⟩,
  ⟨.vml_alo, [.obj (.view1D .ten) .s true, .scal .s, .scal .s, .obj (.view1D .mat) .s false], .vmlvec_vecalo, [0, 1, 2, 3]⟩,
  ⟨.vml_alo, [.obj (.view1D .ten) .s true, .scal .s, .scal .s, .obj (.view1D .ten) .s false], .vmlvec_vecalo, [0, 1, 2, 3]⟩]

/-- the element-wise overloads of src/vml/vector/vector_vml.cpp (1600 of them) -/
def tVmlVec : List (List Overload) :=
  [tVmlVec_0, tVmlVec_1, tVmlVec_2, tVmlVec_3, tVmlVec_4, tVmlVec_5, tVmlVec_6, tVmlVec_7, tVmlVec_8, tVmlVec_9, tVmlVec_10, tVmlVec_11, tVmlVec_12, tVmlVec_13, tVmlVec_14, tVmlVec_15, tVmlVec_16, tVmlVec_17, tVmlVec_18, tVmlVec_19]

end Verif.Dispatch
