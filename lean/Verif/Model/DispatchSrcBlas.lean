import Verif.Model.DispatchApi

/-!
Generated by tools/dispatch_gen.py from /repo: public overloads of the element-wise functions. Do not edit.
-/

namespace Verif.Dispatch

/-- src/blas/vector/vector_blas.cpp:20-384 -/
def tBlasVec_0 : List Overload := [
  ⟨.blas_vecadd, [.obj .vector .d true, .obj .vector .d true, .obj .vector .d false], .vec_vecadd, [0, 1, 2]⟩,
  ⟨.blas_vecadd, [.obj .vector .d true, .obj .vector .d true, .obj (.view1D .vec) .d false], .vec_vecadd, [0, 1, 2]⟩,
  ⟨.blas_vecadd, [.obj .vector .d true, .obj .vector .d true, .obj (.view1D .mat) .d false], .vec_vecadd, [0, 1, 2]⟩,
  ⟨.blas_vecadd, [.obj .vector .d true, .obj .vector .d true, .obj (.view1D .ten) .d false], .vec_vecadd, [0, 1, 2]⟩,
  ⟨.blas_vecadd, [.obj .vector .d true, .obj (.view1D .vec) .d true, .obj .vector .d false], .vec_vecadd, [0, 1, 2]⟩,
  ⟨.blas_vecadd, [.obj .vector .d true, .obj (.view1D .vec) .d true, .obj (.view1D .vec) .d false], .vec_vecadd, [0, 1, 2]⟩,
  ⟨.blas_vecadd, [.obj .vector .d true, .obj (.view1D .vec) .d true, .obj (.view1D .mat) .d false], .vec_vecadd, [0, 1, 2]⟩,
  ⟨.blas_vecadd, [.obj .vector .d true, .obj (.view1D .vec) .d true, .obj (.view1D .ten) .d false], .vec_vecadd, [0, 1, 2]⟩,
  ⟨.blas_vecadd, [.obj .vector .d true, .obj (.view1D .mat) .d true, .obj .vector .d false], .vec_vecadd, [0, 1, 2]⟩,
  ⟨.blas_vecadd, [.obj .vector .d true, .obj (.view1D .mat) .d true, .obj (.view1D .vec) .d false], .vec_vecadd, [0, 1, 2]⟩,
  ⟨.blas_vecadd, [.obj .vector .d true, .obj (.view1D .mat) .d true, .obj (.view1D .mat) .d false], .vec_vecadd, [0, 1, 2]⟩,
  ⟨.blas_vecadd, [.obj .vector .d true, .obj (.view1D .mat) .d true, .obj (.view1D .ten) .d false], .vec_vecadd, [0, 1, 2]⟩,
  ⟨.blas_vecadd, [.obj .vector .d true, .obj (.view1D .ten) .d true, .obj .vector .d false], .vec_vecadd, [0, 1, 2]⟩,
  ⟨.blas_vecadd, [.obj .vector .d true, .obj (.view1D .ten) .d true, .obj (.view1D .vec) .d false], .vec_vecadd, [0, 1, 2]⟩,
  ⟨.blas_vecadd, [.obj .vector .d true, .obj (.view1D .ten) .d true, .obj (.view1D .mat) .d false], .vec_vecadd, [0, 1, 2]⟩,
  ⟨.blas_vecadd, [.obj .vector .d true, .obj (.view1D .ten) .d true, .obj (.view1D .ten) .d false], .vec_vecadd, [0, 1, 2]⟩,
  ⟨.blas_vecadd, [.obj (.view1D .vec) .d true, .obj .vector .d true, .obj .vector .d false], .vec_vecadd, [0, 1, 2]⟩,
  ⟨.blas_vecadd, [.obj (.view1D .vec) .d true, .obj .vector .d true, .obj (.view1D .vec) .d false], .vec_vecadd, [0, 1, 2]⟩,
  ⟨.blas_vecadd, [.obj (.view1D .vec) .d true, .obj .vector .d true, .obj (.view1D .mat) .d false], .vec_vecadd, [0, 1, 2]⟩,
  ⟨.blas_vecadd, [.obj (.view1D .vec) .d true, .obj .vector .d true, .obj (.view1D .ten) .d false], .vec_vecadd, [0, 1, 2]⟩,
  ⟨.blas_vecadd, [.obj (.view1D .vec) .d true, .obj (.view1D .vec) .d true, .obj .vector .d false], .vec_vecadd, [0, 1, 2]⟩,
  ⟨.blas_vecadd, [.obj (.view1D .vec) .d true, .obj (.view1D .vec) .d true, .obj (.view1D .vec) .d false], .vec_vecadd, [0, 1, 2]⟩,
  ⟨.blas_vecadd, [.obj (.view1D .vec) .d true, .obj (.view1D .vec) .d true, .obj (.view1D .mat) .d false], .vec_vecadd, [0, 1, 2]⟩,
  ⟨.blas_vecadd, [.obj (.view1D .vec) .d true, .obj (.view1D .vec) .d true, .obj (.view1D .ten) .d false], .vec_vecadd, [0, 1, 2]⟩,
  ⟨.blas_vecadd, [.obj (.view1D .vec) .d true, .obj (.view1D .mat) .d true, .obj .vector .d false], .vec_vecadd, [0, 1, 2]⟩,
  ⟨.blas_vecadd, [.obj (.view1D .vec) .d true, .obj (.view1D .mat) .d true, .obj (.view1D .vec) .d false], .vec_vecadd, [0, 1, 2]⟩,
  ⟨.blas_vecadd, [.obj (.view1D .vec) .d true, .obj (.view1D .mat) .d true, .obj (.view1D .mat) .d false], .vec_vecadd, [0, 1, 2]⟩,
  ⟨.blas_vecadd, [.obj (.view1D .vec) .d true, .obj (.view1D .mat) .d true, .obj (.view1D .ten) .d false], .vec_vecadd, [0, 1, 2]⟩,
  ⟨.blas_vecadd, [.obj (.view1D .vec) .d true, .obj (.view1D .ten) .d true, .obj .vector .d false], .vec_vecadd, [0, 1, 2]⟩,
  ⟨.blas_vecadd, [.obj (.view1D .vec) .d true, .obj (.view1D .ten) .d true, .obj (.view1D .vec) .d false], .vec_vecadd, [0, 1, 2]⟩,
  ⟨.blas_vecadd, [.obj (.view1D .vec) .d true, .obj (.view1D .ten) .d true, .obj (.view1D .mat) .d false], .vec_vecadd, [0, 1, 2]⟩,
  ⟨.blas_vecadd, [.obj (.view1D .vec) .d true, .obj (.view1D .ten) .d true, .obj (.view1D .ten) .d false], .vec_vecadd, [0, 1, 2]⟩,
  ⟨.blas_vecadd, [.obj (.view1D .mat) .d true, .obj .vector .d true, .obj .vector .d false], .vec_vecadd, [0, 1, 2]⟩,
  ⟨.blas_vecadd, [.obj (.view1D .mat) .d true, .obj .vector .d true, .obj (.view1D .vec) .d false], .vec_vecadd, [0, 1, 2]⟩,
  ⟨.blas_vecadd, [.obj (.view1D .mat) .d true, .obj .vector .d true, .obj (.view1D .mat) .d false], .vec_vecadd, [0, 1, 2]⟩,
  ⟨.blas_vecadd, [.obj (.view1D .mat) .d true, .obj .vector .d true, .obj (.view1D .ten) .d false], .vec_vecadd, [0, 1, 2]⟩,
  ⟨.blas_vecadd, [.obj (.view1D .mat) .d true, .obj (.view1D .vec) .d true, .obj .vector .d false], .vec_vecadd, [0, 1, 2]⟩,
  ⟨.blas_vecadd, [.obj (.view1D .mat) .d true, .obj (.view1D .vec) .d true, .obj (.view1D .vec) .d false], .vec_vecadd, [0, 1, 2]⟩,
  ⟨.blas_vecadd, [.obj (.view1D .mat) .d true, .obj (.view1D .vec) .d true, .obj (.view1D .mat) .d false], .vec_vecadd, [0, 1, 2]⟩,
  ⟨.blas_vecadd, [.obj (.view1D .mat) .d true, .obj (.view1D .vec) .d true, .obj (.view1D .ten) .d false], .vec_vecadd, [0, 1, 2]⟩,
  ⟨.blas_vecadd, [.obj (.view1D .mat) .d true, .obj (.view1D .mat) .d true, .obj .vector .d false], .vec_vecadd, [0, 1, 2]⟩,
  ⟨.blas_vecadd, [.obj (.view1D .mat) .d true, .obj (.view1D .mat) .d true, .obj (.view1D .vec) .d false], .vec_vecadd, [0, 1, 2]⟩,
  ⟨.blas_vecadd, [.obj (.view1D .mat) .d true, .obj (.view1D .mat) .d true, .obj (.view1D .mat) .d false], .vec_vecadd, [0, 1, 2]⟩,
  ⟨.blas_vecadd, [.obj (.view1D .mat) .d true, .obj (.view1D .mat) .d true, .obj (.view1D .ten) .d false], .vec_vecadd, [0, 1, 2]⟩,
  ⟨.blas_vecadd, [.obj (.view1D .mat) .d true, .obj (.view1D .ten) .d true, .obj .vector .d false], .vec_vecadd, [0, 1, 2]⟩,
  ⟨.blas_vecadd, [.obj (.view1D .mat) .d true, .obj (.view1D .ten) .d true, .obj (.view1D .vec) .d false], .vec_vecadd, [0, 1, 2]⟩,
  ⟨.blas_vecadd, [.obj (.view1D .mat) .d true, .obj (.view1D .ten) .d true, .obj (.view1D .mat) .d false], .vec_vecadd, [0, 1, 2]⟩,
  ⟨.blas_vecadd, [.obj (.view1D .mat) .d true, .obj (.view1D .ten) .d true, .obj (.view1D .ten) .d false], .vec_vecadd, [0, 1, 2]⟩,
  ⟨.blas_vecadd, [.obj (.view1D .ten) .d true, .obj .vector .d true, .obj .vector .d false], .vec_vecadd, [0, 1, 2]⟩,
  ⟨.blas_vecadd, [.obj (.view1D .ten) .d true, .obj .vector .d true, .obj (.view1D .vec) .d false], .vec_vecadd, [0, 1, 2]⟩,
  ⟨.blas_vecadd, [.obj (.view1D .ten) .d true, .obj .vector .d true, .obj (.view1D .mat) .d false], .vec_vecadd, [0, 1, 2]⟩,
  ⟨.blas_vecadd, [.obj (.view1D .ten) .d true, .obj .vector .d true, .obj (.view1D .ten) .d false], .vec_vecadd, [0, 1, 2]⟩,
  ⟨.blas_vecadd, [.obj (.view1D .ten) .d true, .obj (.view1D .vec) .d true, .obj .vector .d false], .vec_vecadd, [0, 1, 2]⟩,
  ⟨.blas_vecadd, [.obj (.view1D .ten) .d true, .obj (.view1D .vec) .d true, .obj (.view1D .vec) .d false], .vec_vecadd, [0, 1, 2]⟩,
  ⟨.blas_vecadd, [.obj (.view1D .ten) .d true, .obj (.view1D .vec) .d true, .obj (.view1D .mat) .d false], .vec_vecadd, [0, 1, 2]⟩,
  ⟨.blas_vecadd, [.obj (.view1D .ten) .d true, .obj (.view1D .vec) .d true, .obj (.view1D .ten) .d false], .vec_vecadd, [0, 1, 2]⟩,
  ⟨.blas_vecadd, [.obj (.view1D .ten) .d true, .obj (.view1D .mat) .d true, .obj .vector .d false], .vec_vecadd, [0, 1, 2]⟩,
  ⟨.blas_vecadd, [.obj (.view1D .ten) .d true, .obj (.view1D .mat) .d true, .obj (.view1D .vec) .d false], .vec_vecadd, [0, 1, 2]⟩,
  ⟨.blas_vecadd, [.obj (.view1D .ten) .d true, .obj (.view1D .mat) .d true, .obj (.view1D .mat) .d false], .vec_vecadd, [0, 1, 2]⟩,
  ⟨.blas_vecadd, [.obj (.view1D .ten) .d true, .obj (.view1D .mat) .d true, .obj (.view1D .ten) .d false], .vec_vecadd, [0, 1, 2]⟩,
  ⟨.blas_vecadd, [.obj (.view1D .ten) .d true, .obj (.view1D .ten) .d true, .obj .vector .d false], .vec_vecadd, [0, 1, 2]⟩,
  ⟨.blas_vecadd, [.obj (.view1D .ten) .d true, .obj (.view1D .ten) .d true, .obj (.view1D .vec) .d false], .vec_vecadd, [0, 1, 2]⟩,
  ⟨.blas_vecadd, [.obj (.view1D .ten) .d true, .obj (.view1D .ten) .d true, .obj (.view1D .mat) .d false], .vec_vecadd, [0, 1, 2]⟩,
  ⟨.blas_vecadd, [.obj (.view1D .ten) .d true, .obj (.view1D .ten) .d true, .obj (.view1D .ten) .d false], .vec_vecadd, [0, 1, 2]⟩,
  ⟨.blas_vecadd, [.obj .vector .s true, .obj .vector .s true, .obj .vector .s false], .vec_vecadd, [0, 1, 2]⟩,
  ⟨.blas_vecadd, [.obj .vector .s true, .obj .vector .s true, .obj (.view1D .vec) .s false], .vec_vecadd, [0, 1, 2]⟩,
  ⟨.blas_vecadd, [.obj .vector .s true, .obj .vector .s true, .obj (.view1D .mat) .s false], .vec_vecadd, [0, 1, 2]⟩,
  ⟨.blas_vecadd, [.obj .vector .s true, .obj .vector .s true, .obj (.view1D .ten) .s false], .vec_vecadd, [0, 1, 2]⟩,
  ⟨.blas_vecadd, [.obj .vector .s true, .obj (.view1D .vec) .s true, .obj .vector .s false], .vec_vecadd, [0, 1, 2]⟩,
  ⟨.blas_vecadd, [.obj .vector .s true, .obj (.view1D .vec) .s true, .obj (.view1D .vec) .s false], .vec_vecadd, [0, 1, 2]⟩,
  ⟨.blas_vecadd, [.obj .vector .s true, .obj (.view1D .vec) .s true, .obj (.view1D .mat) .s false], .vec_vecadd, [0, 1, 2]⟩,
  ⟨.blas_vecadd, [.obj .vector .s true, .obj (.view1D .vec) .s true, .obj (.view1D .ten) .s false], .vec_vecadd, [0, 1, 2]⟩,
  ⟨.blas_vecadd, [.obj .vector .s true, .obj (.view1D .mat) .s true, .obj .vector .s false], .vec_vecadd, [0, 1, 2]⟩,
  ⟨.blas_vecadd, [.obj .vector .s true, .obj (.view1D .mat) .s true, .obj (.view1D .vec) .s false], .vec_vecadd, [0, 1, 2]⟩,
  ⟨.blas_vecadd, [.obj .vector .s true, .obj (.view1D .mat) .s true, .obj (.view1D .mat) .s false], .vec_vecadd, [0, 1, 2]⟩,
  ⟨.blas_vecadd, [.obj .vector .s true, .obj (.view1D .mat) .s true, .obj (.view1D .ten) .s false], .vec_vecadd, [0, 1, 2]⟩,
  ⟨.blas_vecadd, [.obj .vector .s true, .obj (.view1D .ten) .s true, .obj .vector .s false], .vec_vecadd, [0, 1, 2]⟩,
  ⟨.blas_vecadd, [.obj .vector .s true, .obj (.view1D .ten) .s true, .obj (.view1D .vec) .s false], .vec_vecadd, [0, 1, 2]⟩,
  ⟨.blas_vecadd, [.obj .vector .s true, .obj (.view1D .ten) .s true, .obj (.view1D .mat) .s false], .vec_vecadd, [0, 1, 2]⟩,
  ⟨.blas_vecadd, [.obj .vector .s true, .obj (.view1D .ten) .s true, .obj (.view1D .ten) .s false], .vec_vecadd, [0, 1, 2]⟩]

/-- src/blas/vector/vector_blas.cpp:385-754 -/
def tBlasVec_1 : List Overload := [
  ⟨.blas_vecadd, [.obj (.view1D .vec) .s true, .obj .vector .s true, .obj .vector .s false], .vec_vecadd, [0, 1, 2]⟩,
  ⟨.blas_vecadd, [.obj (.view1D .vec) .s true, .obj .vector .s true, .obj (.view1D .vec) .s false], .vec_vecadd, [0, 1, 2]⟩,
  ⟨.blas_vecadd, [.obj (.view1D .vec) .s true, .obj .vector .s true, .obj (.view1D .mat) .s false], .vec_vecadd, [0, 1, 2]⟩,
  ⟨.blas_vecadd, [.obj (.view1D .vec) .s true, .obj .vector .s true, .obj (.view1D .ten) .s false], .vec_vecadd, [0, 1, 2]⟩,
  ⟨.blas_vecadd, [.obj (.view1D .vec) .s true, .obj (.view1D .vec) .s true, .obj .vector .s false], .vec_vecadd, [0, 1, 2]⟩,
  ⟨.blas_vecadd, [.obj (.view1D .vec) .s true, .obj (.view1D .vec) .s true, .obj (.view1D .vec) .s false], .vec_vecadd, [0, 1, 2]⟩,
  ⟨.blas_vecadd, [.obj (.view1D .vec) .s true, .obj (.view1D .vec) .s true, .obj (.view1D .mat) .s false], .vec_vecadd, [0, 1, 2]⟩,
  ⟨.blas_vecadd, [.obj (.view1D .vec) .s true, .obj (.view1D .vec) .s true, .obj (.view1D .ten) .s false], .vec_vecadd, [0, 1, 2]⟩,
  ⟨.blas_vecadd, [.obj (.view1D .vec) .s true, .obj (.view1D .mat) .s true, .obj .vector .s false], .vec_vecadd, [0, 1, 2]⟩,
  ⟨.blas_vecadd, [.obj (.view1D .vec) .s true, .obj (.view1D .mat) .s true, .obj (.view1D .vec) .s false], .vec_vecadd, [0, 1, 2]⟩,
  ⟨.blas_vecadd, [.obj (.view1D .vec) .s true, .obj (.view1D .mat) .s true, .obj (.view1D .mat) .s false], .vec_vecadd, [0, 1, 2]⟩,
  ⟨.blas_vecadd, [.obj (.view1D .vec) .s true, .obj (.view1D .mat) .s true, .obj (.view1D .ten) .s false], .vec_vecadd, [0, 1, 2]⟩,
  ⟨.blas_vecadd, [.obj (.view1D .vec) .s true, .obj (.view1D .ten) .s true, .obj .vector .s false], .vec_vecadd, [0, 1, 2]⟩,
  ⟨.blas_vecadd, [.obj (.view1D .vec) .s true, .obj (.view1D .ten) .s true, .obj (.view1D .vec) .s false], .vec_vecadd, [0, 1, 2]⟩,
  ⟨.blas_vecadd, [.obj (.view1D .vec) .s true, .obj (.view1D .ten) .s true, .obj (.view1D .mat) .s false], .vec_vecadd, [0, 1, 2]⟩,
  ⟨.blas_vecadd, [.obj (.view1D .vec) .s true, .obj (.view1D .ten) .s true, .obj (.view1D .ten) .s false], .vec_vecadd, [0, 1, 2]⟩,
  ⟨.blas_vecadd, [.obj (.view1D .mat) .s true, .obj .vector .s true, .obj .vector .s false], .vec_vecadd, [0, 1, 2]⟩,
  ⟨.blas_vecadd, [.obj (.view1D .mat) .s true, .obj .vector .s true, .obj (.view1D .vec) .s false], .vec_vecadd, [0, 1, 2]⟩,
  ⟨.blas_vecadd, [.obj (.view1D .mat) .s true, .obj .vector .s true, .obj (.view1D .mat) .s false], .vec_vecadd, [0, 1, 2]⟩,
  ⟨.blas_vecadd, [.obj (.view1D .mat) .s true, .obj .vector .s true, .obj (.view1D .ten) .s false], .vec_vecadd, [0, 1, 2]⟩,
  ⟨.blas_vecadd, [.obj (.view1D .mat) .s true, .obj (.view1D .vec) .s true, .obj .vector .s false], .vec_vecadd, [0, 1, 2]⟩,
  ⟨.blas_vecadd, [.obj (.view1D .mat) .s true, .obj (.view1D .vec) .s true, .obj (.view1D .vec) .s false], .vec_vecadd, [0, 1, 2]⟩,
  ⟨.blas_vecadd, [.obj (.view1D .mat) .s true, .obj (.view1D .vec) .s true, .obj (.view1D .mat) .s false], .vec_vecadd, [0, 1, 2]⟩,
  ⟨.blas_vecadd, [.obj (.view1D .mat) .s true, .obj (.view1D .vec) .s true, .obj (.view1D .ten) .s false], .vec_vecadd, [0, 1, 2]⟩,
  ⟨.blas_vecadd, [.obj (.view1D .mat) .s true, .obj (.view1D .mat) .s true, .obj .vector .s false], .vec_vecadd, [0, 1, 2]⟩,
  ⟨.blas_vecadd, [.obj (.view1D .mat) .s true, .obj (.view1D .mat) .s true, .obj (.view1D .vec) .s false], .vec_vecadd, [0, 1, 2]⟩,
  ⟨.blas_vecadd, [.obj (.view1D .mat) .s true, .obj (.view1D .mat) .s true, .obj (.view1D .mat) .s false], .vec_vecadd, [0, 1, 2]⟩,
  ⟨.blas_vecadd, [.obj (.view1D .mat) .s true, .obj (.view1D .mat) .s true, .obj (.view1D .ten) .s false], .vec_vecadd, [0, 1, 2]⟩,
  ⟨.blas_vecadd, [.obj (.view1D .mat) .s true, .obj (.view1D .ten) .s true, .obj .vector .s false], .vec_vecadd, [0, 1, 2]⟩,
  ⟨.blas_vecadd, [.obj (.view1D .mat) .s true, .obj (.view1D .ten) .s true, .obj (.view1D .vec) .s false], .vec_vecadd, [0, 1, 2]⟩,
  ⟨.blas_vecadd, [.obj (.view1D .mat) .s true, .obj (.view1D .ten) .s true, .obj (.view1D .mat) .s false], .vec_vecadd, [0, 1, 2]⟩,
  ⟨.blas_vecadd, [.obj (.view1D .mat) .s true, .obj (.view1D .ten) .s true, .obj (.view1D .ten) .s false], .vec_vecadd, [0, 1, 2]⟩,
  ⟨.blas_vecadd, [.obj (.view1D .ten) .s true, .obj .vector .s true, .obj .vector .s false], .vec_vecadd, [0, 1, 2]⟩,
  ⟨.blas_vecadd, [.obj (.view1D .ten) .s true, .obj .vector .s true, .obj (.view1D .vec) .s false], .vec_vecadd, [0, 1, 2]⟩,
  ⟨.blas_vecadd, [.obj (.view1D .ten) .s true, .obj .vector .s true, .obj (.view1D .mat) .s false], .vec_vecadd, [0, 1, 2]⟩,
  ⟨.blas_vecadd, [.obj (.view1D .ten) .s true, .obj .vector .s true, .obj (.view1D .ten) .s false], .vec_vecadd, [0, 1, 2]⟩,
  ⟨.blas_vecadd, [.obj (.view1D .ten) .s true, .obj (.view1D .vec) .s true, .obj .vector .s false], .vec_vecadd, [0, 1, 2]⟩,
  ⟨.blas_vecadd, [.obj (.view1D .ten) .s true, .obj (.view1D .vec) .s true, .obj (.view1D .vec) .s false], .vec_vecadd, [0, 1, 2]⟩,
  ⟨.blas_vecadd, [.obj (.view1D .ten) .s true, .obj (.view1D .vec) .s true, .obj (.view1D .mat) .s false], .vec_vecadd, [0, 1, 2]⟩,
  ⟨.blas_vecadd, [.obj (.view1D .ten) .s true, .obj (.view1D .vec) .s true, .obj (.view1D .ten) .s false], .vec_vecadd, [0, 1, 2]⟩,
  ⟨.blas_vecadd, [.obj (.view1D .ten) .s true, .obj (.view1D .mat) .s true, .obj .vector .s false], .vec_vecadd, [0, 1, 2]⟩,
  ⟨.blas_vecadd, [.obj (.view1D .ten) .s true, .obj (.view1D .mat) .s true, .obj (.view1D .vec) .s false], .vec_vecadd, [0, 1, 2]⟩,
  ⟨.blas_vecadd, [.obj (.view1D .ten) .s true, .obj (.view1D .mat) .s true, .obj (.view1D .mat) .s false], .vec_vecadd, [0, 1, 2]⟩,
  ⟨.blas_vecadd, [.obj (.view1D .ten) .s true, .obj (.view1D .mat) .s true, .obj (.view1D .ten) .s false], .vec_vecadd, [0, 1, 2]⟩,
  ⟨.blas_vecadd, [.obj (.view1D .ten) .s true, .obj (.view1D .ten) .s true, .obj .vector .s false], .vec_vecadd, [0, 1, 2]⟩,
  ⟨.blas_vecadd, [.obj (.view1D .ten) .s true, .obj (.view1D .ten) .s true, .obj (.view1D .vec) .s false], .vec_vecadd, [0, 1, 2]⟩,
  ⟨.blas_vecadd, [.obj (.view1D .ten) .s true, .obj (.view1D .ten) .s true, .obj (.view1D .mat) .s false], .vec_vecadd, [0, 1, 2]⟩,
  ⟨.blas_vecadd, [.obj (.view1D .ten) .s true, .obj (.view1D .ten) .s true, .obj (.view1D .ten) .s false], .vec_vecadd, [0, 1, 2]⟩,
  ⟨.blas_vecsub, [.obj .vector .d true, .obj .vector .d true, .obj .vector .d false], .vec_vecsub, [0, 1, 2]⟩,
  ⟨.blas_vecsub, [.obj .vector .d true, .obj .vector .d true, .obj (.view1D .vec) .d false], .vec_vecsub, [0, 1, 2]⟩,
  ⟨.blas_vecsub, [.obj .vector .d true, .obj .vector .d true, .obj (.view1D .mat) .d false], .vec_vecsub, [0, 1, 2]⟩,
  ⟨.blas_vecsub, [.obj .vector .d true, .obj .vector .d true, .obj (.view1D .ten) .d false], .vec_vecsub, [0, 1, 2]⟩,
  ⟨.blas_vecsub, [.obj .vector .d true, .obj (.view1D .vec) .d true, .obj .vector .d false], .vec_vecsub, [0, 1, 2]⟩,
  ⟨.blas_vecsub, [.obj .vector .d true, .obj (.view1D .vec) .d true, .obj (.view1D .vec) .d false], .vec_vecsub, [0, 1, 2]⟩,
  ⟨.blas_vecsub, [.obj .vector .d true, .obj (.view1D .vec) .d true, .obj (.view1D .mat) .d false], .vec_vecsub, [0, 1, 2]⟩,
  ⟨.blas_vecsub, [.obj .vector .d true, .obj (.view1D .vec) .d true, .obj (.view1D .ten) .d false], .vec_vecsub, [0, 1, 2]⟩,
  ⟨.blas_vecsub, [.obj .vector .d true, .obj (.view1D .mat) .d true, .obj .vector .d false], .vec_vecsub, [0, 1, 2]⟩,
  ⟨.blas_vecsub, [.obj .vector .d true, .obj (.view1D .mat) .d true, .obj (.view1D .vec) .d false], .vec_vecsub, [0, 1, 2]⟩,
  ⟨.blas_vecsub, [.obj .vector .d true, .obj (.view1D .mat) .d true, .obj (.view1D .mat) .d false], .vec_vecsub, [0, 1, 2]⟩,
  ⟨.blas_vecsub, [.obj .vector .d true, .obj (.view1D .mat) .d true, .obj (.view1D .ten) .d false], .vec_vecsub, [0, 1, 2]⟩,
  ⟨.blas_vecsub, [.obj .vector .d true, .obj (.view1D .ten) .d true, .obj .vector .d false], .vec_vecsub, [0, 1, 2]⟩,
  ⟨.blas_vecsub, [.obj .vector .d true, .obj (.view1D .ten) .d true, .obj (.view1D .vec) .d false], .vec_vecsub, [0, 1, 2]⟩,
  ⟨.blas_vecsub, [.obj .vector .d true, .obj (.view1D .ten) .d true, .obj (.view1D .mat) .d false], .vec_vecsub, [0, 1, 2]⟩,
  ⟨.blas_vecsub, [.obj .vector .d true, .obj (.view1D .ten) .d true, .obj (.view1D .ten) .d false], .vec_vecsub, [0, 1, 2]⟩,
  ⟨.blas_vecsub, [.obj (.view1D .vec) .d true, .obj .vector .d true, .obj .vector .d false], .vec_vecsub, [0, 1, 2]⟩,
  ⟨.blas_vecsub, [.obj (.view1D .vec) .d true, .obj .vector .d true, .obj (.view1D .vec) .d false], .vec_vecsub, [0, 1, 2]⟩,
  ⟨.blas_vecsub, [.obj (.view1D .vec) .d true, .obj .vector .d true, .obj (.view1D .mat) .d false], .vec_vecsub, [0, 1, 2]⟩,
  ⟨.blas_vecsub, [.obj (.view1D .vec) .d true, .obj .vector .d true, .obj (.view1D .ten) .d false], .vec_vecsub, [0, 1, 2]⟩,
  ⟨.blas_vecsub, [.obj (.view1D .vec) .d true, .obj (.view1D .vec) .d true, .obj .vector .d false], .vec_vecsub, [0, 1, 2]⟩,
  ⟨.blas_vecsub, [.obj (.view1D .vec) .d true, .obj (.view1D .vec) .d true, .obj (.view1D .vec) .d false], .vec_vecsub, [0, 1, 2]⟩,
  ⟨.blas_vecsub, [.obj (.view1D .vec) .d true, .obj (.view1D .vec) .d true, .obj (.view1D .mat) .d false], .vec_vecsub, [0, 1, 2]⟩,
  ⟨.blas_vecsub, [.obj (.view1D .vec) .d true, .obj (.view1D .vec) .d true, .obj (.view1D .ten) .d false], .vec_vecsub, [0, 1, 2]⟩,
  ⟨.blas_vecsub, [.obj (.view1D .vec) .d true, .obj (.view1D .mat) .d true, .obj .vector .d false], .vec_vecsub, [0, 1, 2]⟩,
  ⟨.blas_vecsub, [.obj (.view1D .vec) .d true, .obj (.view1D .mat) .d true, .obj (.view1D .vec) .d false], .vec_vecsub, [0, 1, 2]⟩,
  ⟨.blas_vecsub, [.obj (.view1D .vec) .d true, .obj (.view1D .mat) .d true, .obj (.view1D .mat) .d false], .vec_vecsub, [0, 1, 2]⟩,
  ⟨.blas_vecsub, [.obj (.view1D .vec) .d true, .obj (.view1D .mat) .d true, .obj (.view1D .ten) .d false], .vec_vecsub, [0, 1, 2]⟩,
  ⟨.blas_vecsub, [.obj (.view1D .vec) .d true, .obj (.view1D .ten) .d true, .obj .vector .d false], .vec_vecsub, [0, 1, 2]⟩,
  ⟨.blas_vecsub, [.obj (.view1D .vec) .d true, .obj (.view1D .ten) .d true, .obj (.view1D .vec) .d false], .vec_vecsub, [0, 1, 2]⟩,
  ⟨.blas_vecsub, [.obj (.view1D .vec) .d true, .obj (.view1D .ten) .d true, .obj (.view1D .mat) .d false], .vec_vecsub, [0, 1, 2]⟩,
  ⟨.blas_vecsub, [.obj (.view1D .vec) .d true, .obj (.view1D .ten) .d true, .obj (.view1D .ten) .d false], .vec_vecsub, [0, 1, 2]⟩]

/-- src/blas/vector/vector_blas.cpp:755-1123 -/
def tBlasVec_2 : List Overload := [
  ⟨.blas_vecsub, [.obj (.view1D .mat) .d true, .obj .vector .d true, .obj .vector .d false], .vec_vecsub, [0, 1, 2]⟩,
  ⟨.blas_vecsub, [.obj (.view1D .mat) .d true, .obj .vector .d true, .obj (.view1D .vec) .d false], .vec_vecsub, [0, 1, 2]⟩,
  ⟨.blas_vecsub, [.obj (.view1D .mat) .d true, .obj .vector .d true, .obj (.view1D .mat) .d false], .vec_vecsub, [0, 1, 2]⟩,
  ⟨.blas_vecsub, [.obj (.view1D .mat) .d true, .obj .vector .d true, .obj (.view1D .ten) .d false], .vec_vecsub, [0, 1, 2]⟩,
  ⟨.blas_vecsub, [.obj (.view1D .mat) .d true, .obj (.view1D .vec) .d true, .obj .vector .d false], .vec_vecsub, [0, 1, 2]⟩,
  ⟨.blas_vecsub, [.obj (.view1D .mat) .d true, .obj (.view1D .vec) .d true, .obj (.view1D .vec) .d false], .vec_vecsub, [0, 1, 2]⟩,
  ⟨.blas_vecsub, [.obj (.view1D .mat) .d true, .obj (.view1D .vec) .d true, .obj (.view1D .mat) .d false], .vec_vecsub, [0, 1, 2]⟩,
  ⟨.blas_vecsub, [.obj (.view1D .mat) .d true, .obj (.view1D .vec) .d true, .obj (.view1D .ten) .d false], .vec_vecsub, [0, 1, 2]⟩,
  ⟨.blas_vecsub, [.obj (.view1D .mat) .d true, .obj (.view1D .mat) .d true, .obj .vector .d false], .vec_vecsub, [0, 1, 2]⟩,
  ⟨.blas_vecsub, [.obj (.view1D .mat) .d true, .obj (.view1D .mat) .d true, .obj (.view1D .vec) .d false], .vec_vecsub, [0, 1, 2]⟩,
  ⟨.blas_vecsub, [.obj (.view1D .mat) .d true, .obj (.view1D .mat) .d true, .obj (.view1D .mat) .d false], .vec_vecsub, [0, 1, 2]⟩,
  ⟨.blas_vecsub, [.obj (.view1D .mat) .d true, .obj (.view1D .mat) .d true, .obj (.view1D .ten) .d false], .vec_vecsub, [0, 1, 2]⟩,
  ⟨.blas_vecsub, [.obj (.view1D .mat) .d true, .obj (.view1D .ten) .d true, .obj .vector .d false], .vec_vecsub, [0, 1, 2]⟩,
  ⟨.blas_vecsub, [.obj (.view1D .mat) .d true, .obj (.view1D .ten) .d true, .obj (.view1D .vec) .d false], .vec_vecsub, [0, 1, 2]⟩,
  ⟨.blas_vecsub, [.obj (.view1D .mat) .d true, .obj (.view1D .ten) .d true, .obj (.view1D .mat) .d false], .vec_vecsub, [0, 1, 2]⟩,
  ⟨.blas_vecsub, [.obj (.view1D .mat) .d true, .obj (.view1D .ten) .d true, .obj (.view1D .ten) .d false], .vec_vecsub, [0, 1, 2]⟩,
  ⟨.blas_vecsub, [.obj (.view1D .ten) .d true, .obj .vector .d true, .obj .vector .d false], .vec_vecsub, [0, 1, 2]⟩,
  ⟨.blas_vecsub, [.obj (.view1D .ten) .d true, .obj .vector .d true, .obj (.view1D .vec) .d false], .vec_vecsub, [0, 1, 2]⟩,
  ⟨.blas_vecsub, [.obj (.view1D .ten) .d true, .obj .vector .d true, .obj (.view1D .mat) .d false], .vec_vecsub, [0, 1, 2]⟩,
  ⟨.blas_vecsub, [.obj (.view1D .ten) .d true, .obj .vector .d true, .obj (.view1D .ten) .d false], .vec_vecsub, [0, 1, 2]⟩,
  ⟨.blas_vecsub, [.obj (.view1D .ten) .d true, .obj (.view1D .vec) .d true, .obj .vector .d false], .vec_vecsub, [0, 1, 2]⟩,
  ⟨.blas_vecsub, [.obj (.view1D .ten) .d true, .obj (.view1D .vec) .d true, .obj (.view1D .vec) .d false], .vec_vecsub, [0, 1, 2]⟩,
  ⟨.blas_vecsub, [.obj (.view1D .ten) .d true, .obj (.view1D .vec) .d true, .obj (.view1D .mat) .d false], .vec_vecsub, [0, 1, 2]⟩,
  ⟨.blas_vecsub, [.obj (.view1D .ten) .d true, .obj (.view1D .vec) .d true, .obj (.view1D .ten) .d false], .vec_vecsub, [0, 1, 2]⟩,
  ⟨.blas_vecsub, [.obj (.view1D .ten) .d true, .obj (.view1D .mat) .d true, .obj .vector .d false], .vec_vecsub, [0, 1, 2]⟩,
  ⟨.blas_vecsub, [.obj (.view1D .ten) .d true, .obj (.view1D .mat) .d true, .obj (.view1D .vec) .d false], .vec_vecsub, [0, 1, 2]⟩,
  ⟨.blas_vecsub, [.obj (.view1D .ten) .d true, .obj (.view1D .mat) .d true, .obj (.view1D .mat) .d false], .vec_vecsub, [0, 1, 2]⟩,
  ⟨.blas_vecsub, [.obj (.view1D .ten) .d true, .obj (.view1D .mat) .d true, .obj (.view1D .ten) .d false], .vec_vecsub, [0, 1, 2]⟩,
  ⟨.blas_vecsub, [.obj (.view1D .ten) .d true, .obj (.view1D .ten) .d true, .obj .vector .d false], .vec_vecsub, [0, 1, 2]⟩,
  ⟨.blas_vecsub, [.obj (.view1D .ten) .d true, .obj (.view1D .ten) .d true, .obj (.view1D .vec) .d false], .vec_vecsub, [0, 1, 2]⟩,
  ⟨.blas_vecsub, [.obj (.view1D .ten) .d true, .obj (.view1D .ten) .d true, .obj (.view1D .mat) .d false], .vec_vecsub, [0, 1, 2]⟩,
  ⟨.blas_vecsub, [.obj (.view1D .ten) .d true, .obj (.view1D .ten) .d true, .obj (.view1D .ten) .d false], .vec_vecsub, [0, 1, 2]⟩,
  ⟨.blas_vecsub, [.obj .vector .s true, .obj .vector .s true, .obj .vector .s false], .vec_vecsub, [0, 1, 2]⟩,
  ⟨.blas_vecsub, [.obj .vector .s true, .obj .vector .s true, .obj (.view1D .vec) .s false], .vec_vecsub, [0, 1, 2]⟩,
  ⟨.blas_vecsub, [.obj .vector .s true, .obj .vector .s true, .obj (.view1D .mat) .s false], .vec_vecsub, [0, 1, 2]⟩,
  ⟨.blas_vecsub, [.obj .vector .s true, .obj .vector .s true, .obj (.view1D .ten) .s false], .vec_vecsub, [0, 1, 2]⟩,
  ⟨.blas_vecsub, [.obj .vector .s true, .obj (.view1D .vec) .s true, .obj .vector .s false], .vec_vecsub, [0, 1, 2]⟩,
  ⟨.blas_vecsub, [.obj .vector .s true, .obj (.view1D .vec) .s true, .obj (.view1D .vec) .s false], .vec_vecsub, [0, 1, 2]⟩,
  ⟨.blas_vecsub, [.obj .vector .s true, .obj (.view1D .vec) .s true, .obj (.view1D .mat) .s false], .vec_vecsub, [0, 1, 2]⟩,
  ⟨.blas_vecsub, [.obj .vector .s true, .obj (.view1D .vec) .s true, .obj (.view1D .ten) .s false], .vec_vecsub, [0, 1, 2]⟩,
  ⟨.blas_vecsub, [.obj .vector .s true, .obj (.view1D .mat) .s true, .obj .vector .s false], .vec_vecsub, [0, 1, 2]⟩,
  ⟨.blas_vecsub, [.obj .vector .s true, .obj (.view1D .mat) .s true, .obj (.view1D .vec) .s false], .vec_vecsub, [0, 1, 2]⟩,
  ⟨.blas_vecsub, [.obj .vector .s true, .obj (.view1D .mat) .s true, .obj (.view1D .mat) .s false], .vec_vecsub, [0, 1, 2]⟩,
  ⟨.blas_vecsub, [.obj .vector .s true, .obj (.view1D .mat) .s true, .obj (.view1D .ten) .s false], .vec_vecsub, [0, 1, 2]⟩,
  ⟨.blas_vecsub, [.obj .vector .s true, .obj (.view1D .ten) .s true, .obj .vector .s false], .vec_vecsub, [0, 1, 2]⟩,
  ⟨.blas_vecsub, [.obj .vector .s true, .obj (.view1D .ten) .s true, .obj (.view1D .vec) .s false], .vec_vecsub, [0, 1, 2]⟩,
  ⟨.blas_vecsub, [.obj .vector .s true, .obj (.view1D .ten) .s true, .obj (.view1D .mat) .s false], .vec_vecsub, [0, 1, 2]⟩,
  ⟨.blas_vecsub, [.obj .vector .s true, .obj (.view1D .ten) .s true, .obj (.view1D .ten) .s false], .vec_vecsub, [0, 1, 2]⟩,
  ⟨.blas_vecsub, [.obj (.view1D .vec) .s true, .obj .vector .s true, .obj .vector .s false], .vec_vecsub, [0, 1, 2]⟩,
  ⟨.blas_vecsub, [.obj (.view1D .vec) .s true, .obj .vector .s true, .obj (.view1D .vec) .s false], .vec_vecsub, [0, 1, 2]⟩,
  ⟨.blas_vecsub, [.obj (.view1D .vec) .s true, .obj .vector .s true, .obj (.view1D .mat) .s false], .vec_vecsub, [0, 1, 2]⟩,
  ⟨.blas_vecsub, [.obj (.view1D .vec) .s true, .obj .vector .s true, .obj (.view1D .ten) .s false], .vec_vecsub, [0, 1, 2]⟩,
  ⟨.blas_vecsub, [.obj (.view1D .vec) .s true, .obj (.view1D .vec) .s true, .obj .vector .s false], .vec_vecsub, [0, 1, 2]⟩,
  ⟨.blas_vecsub, [.obj (.view1D .vec) .s true, .obj (.view1D .vec) .s true, .obj (.view1D .vec) .s false], .vec_vecsub, [0, 1, 2]⟩,
  ⟨.blas_vecsub, [.obj (.view1D .vec) .s true, .obj (.view1D .vec) .s true, .obj (.view1D .mat) .s false], .vec_vecsub, [0, 1, 2]⟩,
  ⟨.blas_vecsub, [.obj (.view1D .vec) .s true, .obj (.view1D .vec) .s true, .obj (.view1D .ten) .s false], .vec_vecsub, [0, 1, 2]⟩,
  ⟨.blas_vecsub, [.obj (.view1D .vec) .s true, .obj (.view1D .mat) .s true, .obj .vector .s false], .vec_vecsub, [0, 1, 2]⟩,
  ⟨.blas_vecsub, [.obj (.view1D .vec) .s true, .obj (.view1D .mat) .s true, .obj (.view1D .vec) .s false], .vec_vecsub, [0, 1, 2]⟩,
  ⟨.blas_vecsub, [.obj (.view1D .vec) .s true, .obj (.view1D .mat) .s true, .obj (.view1D .mat) .s false], .vec_vecsub, [0, 1, 2]⟩,
  ⟨.blas_vecsub, [.obj (.view1D .vec) .s true, .obj (.view1D .mat) .s true, .obj (.view1D .ten) .s false], .vec_vecsub, [0, 1, 2]⟩,
  ⟨.blas_vecsub, [.obj (.view1D .vec) .s true, .obj (.view1D .ten) .s true, .obj .vector .s false], .vec_vecsub, [0, 1, 2]⟩,
  ⟨.blas_vecsub, [.obj (.view1D .vec) .s true, .obj (.view1D .ten) .s true, .obj (.view1D .vec) .s false], .vec_vecsub, [0, 1, 2]⟩,
  ⟨.blas_vecsub, [.obj (.view1D .vec) .s true, .obj (.view1D .ten) .s true, .obj (.view1D .mat) .s false], .vec_vecsub, [0, 1, 2]⟩,
  ⟨.blas_vecsub, [.obj (.view1D .vec) .s true, .obj (.view1D .ten) .s true, .obj (.view1D .ten) .s false], .vec_vecsub, [0, 1, 2]⟩,
  ⟨.blas_vecsub, [.obj (.view1D .mat) .s true, .obj .vector .s true, .obj .vector .s false], .vec_vecsub, [0, 1, 2]⟩,
  ⟨.blas_vecsub, [.obj (.view1D .mat) .s true, .obj .vector .s true, .obj (.view1D .vec) .s false], .vec_vecsub, [0, 1, 2]⟩,
  ⟨.blas_vecsub, [.obj (.view1D .mat) .s true, .obj .vector .s true, .obj (.view1D .mat) .s false], .vec_vecsub, [0, 1, 2]⟩,
  ⟨.blas_vecsub, [.obj (.view1D .mat) .s true, .obj .vector .s true, .obj (.view1D .ten) .s false], .vec_vecsub, [0, 1, 2]⟩,
  ⟨.blas_vecsub, [.obj (.view1D .mat) .s true, .obj (.view1D .vec) .s true, .obj .vector .s false], .vec_vecsub, [0, 1, 2]⟩,
  ⟨.blas_vecsub, [.obj (.view1D .mat) .s true, .obj (.view1D .vec) .s true, .obj (.view1D .vec) .s false], .vec_vecsub, [0, 1, 2]⟩,
  ⟨.blas_vecsub, [.obj (.view1D .mat) .s true, .obj (.view1D .vec) .s true, .obj (.view1D .mat) .s false], .vec_vecsub, [0, 1, 2]⟩,
  ⟨.blas_vecsub, [.obj (.view1D .mat) .s true, .obj (.view1D .vec) .s true, .obj (.view1D .ten) .s false], .vec_vecsub, [0, 1, 2]⟩,
  ⟨.blas_vecsub, [.obj (.view1D .mat) .s true, .obj (.view1D .mat) .s true, .obj .vector .s false], .vec_vecsub, [0, 1, 2]⟩,
  ⟨.blas_vecsub, [.obj (.view1D .mat) .s true, .obj (.view1D .mat) .s true, .obj (.view1D .vec) .s false], .vec_vecsub, [0, 1, 2]⟩,
  ⟨.blas_vecsub, [.obj (.view1D .mat) .s true, .obj (.view1D .mat) .s true, .obj (.view1D .mat) .s false], .vec_vecsub, [0, 1, 2]⟩,
  ⟨.blas_vecsub, [.obj (.view1D .mat) .s true, .obj (.view1D .mat) .s true, .obj (.view1D .ten) .s false], .vec_vecsub, [0, 1, 2]⟩,
  ⟨.blas_vecsub, [.obj (.view1D .mat) .s true, .obj (.view1D .ten) .s true, .obj .vector .s false], .vec_vecsub, [0, 1, 2]⟩,
  ⟨.blas_vecsub, [.obj (.view1D .mat) .s true, .obj (.view1D .ten) .s true, .obj (.view1D .vec) .s false], .vec_vecsub, [0, 1, 2]⟩,
  ⟨.blas_vecsub, [.obj (.view1D .mat) .s true, .obj (.view1D .ten) .s true, .obj (.view1D .mat) .s false], .vec_vecsub, [0, 1, 2]⟩,
  ⟨.blas_vecsub, [.obj (.view1D .mat) .s true, .obj (.view1D .ten) .s true, .obj (.view1D .ten) .s false], .vec_vecsub, [0, 1, 2]⟩]

/-- src/blas/vector/vector_blas.cpp:1124-1479 -/
def tBlasVec_3 : List Overload := [
  ⟨.blas_vecsub, [.obj (.view1D .ten) .s true, .obj .vector .s true, .obj .vector .s false], .vec_vecsub, [0, 1, 2]⟩,
  ⟨.blas_vecsub, [.obj (.view1D .ten) .s true, .obj .vector .s true, .obj (.view1D .vec) .s false], .vec_vecsub, [0, 1, 2]⟩,
  ⟨.blas_vecsub, [.obj (.view1D .ten) .s true, .obj .vector .s true, .obj (.view1D .mat) .s false], .vec_vecsub, [0, 1, 2]⟩,
  ⟨.blas_vecsub, [.obj (.view1D .ten) .s true, .obj .vector .s true, .obj (.view1D .ten) .s false], .vec_vecsub, [0, 1, 2]⟩,
  ⟨.blas_vecsub, [.obj (.view1D .ten) .s true, .obj (.view1D .vec) .s true, .obj .vector .s false], .vec_vecsub, [0, 1, 2]⟩,
  ⟨.blas_vecsub, [.obj (.view1D .ten) .s true, .obj (.view1D .vec) .s true, .obj (.view1D .vec) .s false], .vec_vecsub, [0, 1, 2]⟩,
  ⟨.blas_vecsub, [.obj (.view1D .ten) .s true, .obj (.view1D .vec) .s true, .obj (.view1D .mat) .s false], .vec_vecsub, [0, 1, 2]⟩,
  ⟨.blas_vecsub, [.obj (.view1D .ten) .s true, .obj (.view1D .vec) .s true, .obj (.view1D .ten) .s false], .vec_vecsub, [0, 1, 2]⟩,
  ⟨.blas_vecsub, [.obj (.view1D .ten) .s true, .obj (.view1D .mat) .s true, .obj .vector .s false], .vec_vecsub, [0, 1, 2]⟩,
  ⟨.blas_vecsub, [.obj (.view1D .ten) .s true, .obj (.view1D .mat) .s true, .obj (.view1D .vec) .s false], .vec_vecsub, [0, 1, 2]⟩,
  ⟨.blas_vecsub, [.obj (.view1D .ten) .s true, .obj (.view1D .mat) .s true, .obj (.view1D .mat) .s false], .vec_vecsub, [0, 1, 2]⟩,
  ⟨.blas_vecsub, [.obj (.view1D .ten) .s true, .obj (.view1D .mat) .s true, .obj (.view1D .ten) .s false], .vec_vecsub, [0, 1, 2]⟩,
  ⟨.blas_vecsub, [.obj (.view1D .ten) .s true, .obj (.view1D .ten) .s true, .obj .vector .s false], .vec_vecsub, [0, 1, 2]⟩,
  ⟨.blas_vecsub, [.obj (.view1D .ten) .s true, .obj (.view1D .ten) .s true, .obj (.view1D .vec) .s false], .vec_vecsub, [0, 1, 2]⟩,
  ⟨.blas_vecsub, [.obj (.view1D .ten) .s true, .obj (.view1D .ten) .s true, .obj (.view1D .mat) .s false], .vec_vecsub, [0, 1, 2]⟩,
  ⟨.blas_vecsub, [.obj (.view1D .ten) .s true, .obj (.view1D .ten) .s true, .obj (.view1D .ten) .s false], .vec_vecsub, [0, 1, 2]⟩,
  ⟨.blas_times, [.scal .d, .obj .vector .d true, .obj .vector .d false], .vec_times_scalar, [0, 1, 2]⟩,
  ⟨.blas_times, [.scal .d, .obj .vector .d true, .obj (.view1D .vec) .d false], .vec_times_scalar, [0, 1, 2]⟩,
  ⟨.blas_times, [.scal .d, .obj .vector .d true, .obj (.view1D .mat) .d false], .vec_times_scalar, [0, 1, 2]⟩,
  ⟨.blas_times, [.scal .d, .obj .vector .d true, .obj (.view1D .ten) .d false], .vec_times_scalar, [0, 1, 2]⟩,
  ⟨.blas_times, [.scal .d, .obj (.view1D .vec) .d true, .obj .vector .d false], .vec_times_scalar, [0, 1, 2]⟩,
  ⟨.blas_times, [.scal .d, .obj (.view1D .vec) .d true, .obj (.view1D .vec) .d false], .vec_times_scalar, [0, 1, 2]⟩,
  ⟨.blas_times, [.scal .d, .obj (.view1D .vec) .d true, .obj (.view1D .mat) .d false], .vec_times_scalar, [0, 1, 2]⟩,
  ⟨.blas_times, [.scal .d, .obj (.view1D .vec) .d true, .obj (.view1D .ten) .d false], .vec_times_scalar, [0, 1, 2]⟩,
  ⟨.blas_times, [.scal .d, .obj (.view1D .mat) .d true, .obj .vector .d false], .vec_times_scalar, [0, 1, 2]⟩,
  ⟨.blas_times, [.scal .d, .obj (.view1D .mat) .d true, .obj (.view1D .vec) .d false], .vec_times_scalar, [0, 1, 2]⟩,
  ⟨.blas_times, [.scal .d, .obj (.view1D .mat) .d true, .obj (.view1D .mat) .d false], .vec_times_scalar, [0, 1, 2]⟩,
  ⟨.blas_times, [.scal .d, .obj (.view1D .mat) .d true, .obj (.view1D .ten) .d false], .vec_times_scalar, [0, 1, 2]⟩,
  ⟨.blas_times, [.scal .d, .obj (.view1D .ten) .d true, .obj .vector .d false], .vec_times_scalar, [0, 1, 2]⟩,
  ⟨.blas_times, [.scal .d, .obj (.view1D .ten) .d true, .obj (.view1D .vec) .d false], .vec_times_scalar, [0, 1, 2]⟩,
  ⟨.blas_times, [.scal .d, .obj (.view1D .ten) .d true, .obj (.view1D .mat) .d false], .vec_times_scalar, [0, 1, 2]⟩,
  ⟨.blas_times, [.scal .d, .obj (.view1D .ten) .d true, .obj (.view1D .ten) .d false], .vec_times_scalar, [0, 1, 2]⟩,
  ⟨.blas_times, [.scal .s, .obj .vector .s true, .obj .vector .s false], .vec_times_scalar, [0, 1, 2]⟩,
  ⟨.blas_times, [.scal .s, .obj .vector .s true, .obj (.view1D .vec) .s false], .vec_times_scalar, [0, 1, 2]⟩,
  ⟨.blas_times, [.scal .s, .obj .vector .s true, .obj (.view1D .mat) .s false], .vec_times_scalar, [0, 1, 2]⟩,
  ⟨.blas_times, [.scal .s, .obj .vector .s true, .obj (.view1D .ten) .s false], .vec_times_scalar, [0, 1, 2]⟩,
  ⟨.blas_times, [.scal .s, .obj (.view1D .vec) .s true, .obj .vector .s false], .vec_times_scalar, [0, 1, 2]⟩,
  ⟨.blas_times, [.scal .s, .obj (.view1D .vec) .s true, .obj (.view1D .vec) .s false], .vec_times_scalar, [0, 1, 2]⟩,
  ⟨.blas_times, [.scal .s, .obj (.view1D .vec) .s true, .obj (.view1D .mat) .s false], .vec_times_scalar, [0, 1, 2]⟩,
  ⟨.blas_times, [.scal .s, .obj (.view1D .vec) .s true, .obj (.view1D .ten) .s false], .vec_times_scalar, [0, 1, 2]⟩,
  ⟨.blas_times, [.scal .s, .obj (.view1D .mat) .s true, .obj .vector .s false], .vec_times_scalar, [0, 1, 2]⟩,
  ⟨.blas_times, [.scal .s, .obj (.view1D .mat) .s true, .obj (.view1D .vec) .s false], .vec_times_scalar, [0, 1, 2]⟩,
  ⟨.blas_times, [.scal .s, .obj (.view1D .mat) .s true, .obj (.view1D .mat) .s false], .vec_times_scalar, [0, 1, 2]⟩,
  ⟨.blas_times, [.scal .s, .obj (.view1D .mat) .s true, .obj (.view1D .ten) .s false], .vec_times_scalar, [0, 1, 2]⟩,
  ⟨.blas_times, [.scal .s, .obj (.view1D .ten) .s true, .obj .vector .s false], .vec_times_scalar, [0, 1, 2]⟩,
  ⟨.blas_times, [.scal .s, .obj (.view1D .ten) .s true, .obj (.view1D .vec) .s false], .vec_times_scalar, [0, 1, 2]⟩,
  ⟨.blas_times, [.scal .s, .obj (.view1D .ten) .s true, .obj (.view1D .mat) .s false], .vec_times_scalar, [0, 1, 2]⟩,
  ⟨.blas_times, [.scal .s, .obj (.view1D .ten) .s true, .obj (.view1D .ten) .s false], .vec_times_scalar, [0, 1, 2]⟩,
  ⟨.blas_times, [.obj .vector .d true, .obj .vector .d true, .obj .vector .d false], .vec_times_vector, [0, 1, 2]⟩,
  ⟨.blas_times, [.obj .vector .d true, .obj .vector .d true, .obj (.view1D .vec) .d false], .vec_times_vector, [0, 1, 2]⟩,
  ⟨.blas_times, [.obj .vector .d true, .obj .vector .d true, .obj (.view1D .mat) .d false], .vec_times_vector, [0, 1, 2]⟩,
  ⟨.blas_times, [.obj .vector .d true, .obj .vector .d true, .obj (.view1D .ten) .d false], .vec_times_vector, [0, 1, 2]⟩,
  ⟨.blas_times, [.obj .vector .d true, .obj (.view1D .vec) .d true, .obj .vector .d false], .vec_times_vector, [0, 1, 2]⟩,
  ⟨.blas_times, [.obj .vector .d true, .obj (.view1D .vec) .d true, .obj (.view1D .vec) .d false], .vec_times_vector, [0, 1, 2]⟩,
  ⟨.blas_times, [.obj .vector .d true, .obj (.view1D .vec) .d true, .obj (.view1D .mat) .d false], .vec_times_vector, [0, 1, 2]⟩,
  ⟨.blas_times, [.obj .vector .d true, .obj (.view1D .vec) .d true, .obj (.view1D .ten) .d false], .vec_times_vector, [0, 1, 2]⟩,
  ⟨.blas_times, [.obj .vector .d true, .obj (.view1D .mat) .d true, .obj .vector .d false], .vec_times_vector, [0, 1, 2]⟩,
  ⟨.blas_times, [.obj .vector .d true, .obj (.view1D .mat) .d true, .obj (.view1D .vec) .d false], .vec_times_vector, [0, 1, 2]⟩,
  ⟨.blas_times, [.obj .vector .d true, .obj (.view1D .mat) .d true, .obj (.view1D .mat) .d false], .vec_times_vector, [0, 1, 2]⟩,
  ⟨.blas_times, [.obj .vector .d true, .obj (.view1D .mat) .d true, .obj (.view1D .ten) .d false], .vec_times_vector, [0, 1, 2]⟩,
  ⟨.blas_times, [.obj .vector .d true, .obj (.view1D .ten) .d true, .obj .vector .d false], .vec_times_vector, [0, 1, 2]⟩,
  ⟨.blas_times, [.obj .vector .d true, .obj (.view1D .ten) .d true, .obj (.view1D .vec) .d false], .vec_times_vector, [0, 1, 2]⟩,
  ⟨.blas_times, [.obj .vector .d true, .obj (.view1D .ten) .d true, .obj (.view1D .mat) .d false], .vec_times_vector, [0, 1, 2]⟩,
  ⟨.blas_times, [.obj .vector .d true, .obj (.view1D .ten) .d true, .obj (.view1D .ten) .d false], .vec_times_vector, [0, 1, 2]⟩,
  ⟨.blas_times, [.obj (.view1D .vec) .d true, .obj .vector .d true, .obj .vector .d false], .vec_times_vector, [0, 1, 2]⟩,
  ⟨.blas_times, [.obj (.view1D .vec) .d true, .obj .vector .d true, .obj (.view1D .vec) .d false], .vec_times_vector, [0, 1, 2]⟩,
  ⟨.blas_times, [.obj (.view1D .vec) .d true, .obj .vector .d true, .obj (.view1D .mat) .d false], .vec_times_vector, [0, 1, 2]⟩,
  ⟨.blas_times, [.obj (.view1D .vec) .d true, .obj .vector .d true, .obj (.view1D .ten) .d false], .vec_times_vector, [0, 1, 2]⟩,
  ⟨.blas_times, [.obj (.view1D .vec) .d true, .obj (.view1D .vec) .d true, .obj .vector .d false], .vec_times_vector, [0, 1, 2]⟩,
  ⟨.blas_times, [.obj (.view1D .vec) .d true, .obj (.view1D .vec) .d true, .obj (.view1D .vec) .d false], .vec_times_vector, [0, 1, 2]⟩,
  ⟨.blas_times, [.obj (.view1D .vec) .d true, .obj (.view1D .vec) .d true, .obj (.view1D .mat) .d false], .vec_times_vector, [0, 1, 2]⟩,
  ⟨.blas_times, [.obj (.view1D .vec) .d true, .obj (.view1D .vec) .d true, .obj (.view1D .ten) .d false], .vec_times_vector, [0, 1, 2]⟩,
  ⟨.blas_times, [.obj (.view1D .vec) .d true, .obj (.view1D .mat) .d true, .obj .vector .d false], .vec_times_vector, [0, 1, 2]⟩,
  ⟨.blas_times, [.obj (.view1D .vec) .d true, .obj (.view1D .mat) .d true, .obj (.view1D .vec) .d false], .vec_times_vector, [0, 1, 2]⟩,
  ⟨.blas_times, [.obj (.view1D .vec) .d true, .obj (.view1D .mat) .d true, .obj (.view1D .mat) .d false], .vec_times_vector, [0, 1, 2]⟩,
  ⟨.blas_times, [.obj (.view1D .vec) .d true, .obj (.view1D .mat) .d true, .obj (.view1D .ten) .d false], .vec_times_vector, [0, 1, 2]⟩,
  ⟨.blas_times, [.obj (.view1D .vec) .d true, .obj (.view1D .ten) .d true, .obj .vector .d false], .vec_times_vector, [0, 1, 2]⟩,
  ⟨.blas_times, [.obj (.view1D .vec) .d true, .obj (.view1D .ten) .d true, .obj (.view1D .vec) .d false], .vec_times_vector, [0, 1, 2]⟩,
  ⟨.blas_times, [.obj (.view1D .vec) .d true, .obj (.view1D .ten) .d true, .obj (.view1D .mat) .d false], .vec_times_vector, [0, 1, 2]⟩,
  ⟨.blas_times, [.obj (.view1D .vec) .d true, .obj (.view1D .ten) .d true, .obj (.view1D .ten) .d false], .vec_times_vector, [0, 1, 2]⟩]

/-- src/blas/vector/vector_blas.cpp:1480-1844 -/
def tBlasVec_4 : List Overload := [
  ⟨.blas_times, [.obj (.view1D .mat) .d true, .obj .vector .d true, .obj .vector .d false], .vec_times_vector, [0, 1, 2]⟩,
  ⟨.blas_times, [.obj (.view1D .mat) .d true, .obj .vector .d true, .obj (.view1D .vec) .d false], .vec_times_vector, [0, 1, 2]⟩,
  ⟨.blas_times, [.obj (.view1D .mat) .d true, .obj .vector .d true, .obj (.view1D .mat) .d false], .vec_times_vector, [0, 1, 2]⟩,
  ⟨.blas_times, [.obj (.view1D .mat) .d true, .obj .vector .d true, .obj (.view1D .ten) .d false], .vec_times_vector, [0, 1, 2]⟩,
  ⟨.blas_times, [.obj (.view1D .mat) .d true, .obj (.view1D .vec) .d true, .obj .vector .d false], .vec_times_vector, [0, 1, 2]⟩,
  ⟨.blas_times, [.obj (.view1D .mat) .d true, .obj (.view1D .vec) .d true, .obj (.view1D .vec) .d false], .vec_times_vector, [0, 1, 2]⟩,
  ⟨.blas_times, [.obj (.view1D .mat) .d true, .obj (.view1D .vec) .d true, .obj (.view1D .mat) .d false], .vec_times_vector, [0, 1, 2]⟩,
  ⟨.blas_times, [.obj (.view1D .mat) .d true, .obj (.view1D .vec) .d true, .obj (.view1D .ten) .d false], .vec_times_vector, [0, 1, 2]⟩,
  ⟨.blas_times, [.obj (.view1D .mat) .d true, .obj (.view1D .mat) .d true, .obj .vector .d false], .vec_times_vector, [0, 1, 2]⟩,
  ⟨.blas_times, [.obj (.view1D .mat) .d true, .obj (.view1D .mat) .d true, .obj (.view1D .vec) .d false], .vec_times_vector, [0, 1, 2]⟩,
  ⟨.blas_times, [.obj (.view1D .mat) .d true, .obj (.view1D .mat) .d true, .obj (.view1D .mat) .d false], .vec_times_vector, [0, 1, 2]⟩,
  ⟨.blas_times, [.obj (.view1D .mat) .d true, .obj (.view1D .mat) .d true, .obj (.view1D .ten) .d false], .vec_times_vector, [0, 1, 2]⟩,
  ⟨.blas_times, [.obj (.view1D .mat) .d true, .obj (.view1D .ten) .d true, .obj .vector .d false], .vec_times_vector, [0, 1, 2]⟩,
  ⟨.blas_times, [.obj (.view1D .mat) .d true, .obj (.view1D .ten) .d true, .obj (.view1D .vec) .d false], .vec_times_vector, [0, 1, 2]⟩,
  ⟨.blas_times, [.obj (.view1D .mat) .d true, .obj (.view1D .ten) .d true, .obj (.view1D .mat) .d false], .vec_times_vector, [0, 1, 2]⟩,
  ⟨.blas_times, [.obj (.view1D .mat) .d true, .obj (.view1D .ten) .d true, .obj (.view1D .ten) .d false], .vec_times_vector, [0, 1, 2]⟩,
  ⟨.blas_times, [.obj (.view1D .ten) .d true, .obj .vector .d true, .obj .vector .d false], .vec_times_vector, [0, 1, 2]⟩,
  ⟨.blas_times, [.obj (.view1D .ten) .d true, .obj .vector .d true, .obj (.view1D .vec) .d false], .vec_times_vector, [0, 1, 2]⟩,
  ⟨.blas_times, [.obj (.view1D .ten) .d true, .obj .vector .d true, .obj (.view1D .mat) .d false], .vec_times_vector, [0, 1, 2]⟩,
  ⟨.blas_times, [.obj (.view1D .ten) .d true, .obj .vector .d true, .obj (.view1D .ten) .d false], .vec_times_vector, [0, 1, 2]⟩,
  ⟨.blas_times, [.obj (.view1D .ten) .d true, .obj (.view1D .vec) .d true, .obj .vector .d false], .vec_times_vector, [0, 1, 2]⟩,
  ⟨.blas_times, [.obj (.view1D .ten) .d true, .obj (.view1D .vec) .d true, .obj (.view1D .vec) .d false], .vec_times_vector, [0, 1, 2]⟩,
  ⟨.blas_times, [.obj (.view1D .ten) .d true, .obj (.view1D .vec) .d true, .obj (.view1D .mat) .d false], .vec_times_vector, [0, 1, 2]⟩,
  ⟨.blas_times, [.obj (.view1D .ten) .d true, .obj (.view1D .vec) .d true, .obj (.view1D .ten) .d false], .vec_times_vector, [0, 1, 2]⟩,
  ⟨.blas_times, [.obj (.view1D .ten) .d true, .obj (.view1D .mat) .d true, .obj .vector .d false], .vec_times_vector, [0, 1, 2]⟩,
  ⟨.blas_times, [.obj (.view1D .ten) .d true, .obj (.view1D .mat) .d true, .obj (.view1D .vec) .d false], .vec_times_vector, [0, 1, 2]⟩,
  ⟨.blas_times, [.obj (.view1D .ten) .d true, .obj (.view1D .mat) .d true, .obj (.view1D .mat) .d false], .vec_times_vector, [0, 1, 2]⟩,
  ⟨.blas_times, [.obj (.view1D .ten) .d true, .obj (.view1D .mat) .d true, .obj (.view1D .ten) .d false], .vec_times_vector, [0, 1, 2]⟩,
  ⟨.blas_times, [.obj (.view1D .ten) .d true, .obj (.view1D .ten) .d true, .obj .vector .d false], .vec_times_vector, [0, 1, 2]⟩,
  ⟨.blas_times, [.obj (.view1D .ten) .d true, .obj (.view1D .ten) .d true, .obj (.view1D .vec) .d false], .vec_times_vector, [0, 1, 2]⟩,
  ⟨.blas_times, [.obj (.view1D .ten) .d true, .obj (.view1D .ten) .d true, .obj (.view1D .mat) .d false], .vec_times_vector, [0, 1, 2]⟩,
  ⟨.blas_times, [.obj (.view1D .ten) .d true, .obj (.view1D .ten) .d true, .obj (.view1D .ten) .d false], .vec_times_vector, [0, 1, 2]⟩,
  ⟨.blas_times, [.obj .vector .s true, .obj .vector .s true, .obj .vector .s false], .vec_times_vector, [0, 1, 2]⟩,
  ⟨.blas_times, [.obj .vector .s true, .obj .vector .s true, .obj (.view1D .vec) .s false], .vec_times_vector, [0, 1, 2]⟩,
  ⟨.blas_times, [.obj .vector .s true, .obj .vector .s true, .obj (.view1D .mat) .s false], .vec_times_vector, [0, 1, 2]⟩,
  ⟨.blas_times, [.obj .vector .s true, .obj .vector .s true, .obj (.view1D .ten) .s false], .vec_times_vector, [0, 1, 2]⟩,
  ⟨.blas_times, [.obj .vector .s true, .obj (.view1D .vec) .s true, .obj .vector .s false], .vec_times_vector, [0, 1, 2]⟩,
  ⟨.blas_times, [.obj .vector .s true, .obj (.view1D .vec) .s true, .obj (.view1D .vec) .s false], .vec_times_vector, [0, 1, 2]⟩,
  ⟨.blas_times, [.obj .vector .s true, .obj (.view1D .vec) .s true, .obj (.view1D .mat) .s false], .vec_times_vector, [0, 1, 2]⟩,
  ⟨.blas_times, [.obj .vector .s true, .obj (.view1D .vec) .s true, .obj (.view1D .ten) .s false], .vec_times_vector, [0, 1, 2]⟩,
  ⟨.blas_times, [.obj .vector .s true, .obj (.view1D .mat) .s true, .obj .vector .s false], .vec_times_vector, [0, 1, 2]⟩,
  ⟨.blas_times, [.obj .vector .s true, .obj (.view1D .mat) .s true, .obj (.view1D .vec) .s false], .vec_times_vector, [0, 1, 2]⟩,
  ⟨.blas_times, [.obj .vector .s true, .obj (.view1D .mat) .s true, .obj (.view1D .mat) .s false], .vec_times_vector, [0, 1, 2]⟩,
  ⟨.blas_times, [.obj .vector .s true, .obj (.view1D .mat) .s true, .obj (.view1D .ten) .s false], .vec_times_vector, [0, 1, 2]⟩,
  ⟨.blas_times, [.obj .vector .s true, .obj (.view1D .ten) .s true, .obj .vector .s false], .vec_times_vector, [0, 1, 2]⟩,
  ⟨.blas_times, [.obj .vector .s true, .obj (.view1D .ten) .s true, .obj (.view1D .vec) .s false], .vec_times_vector, [0, 1, 2]⟩,
  ⟨.blas_times, [.obj .vector .s true, .obj (.view1D .ten) .s true, .obj (.view1D .mat) .s false], .vec_times_vector, [0, 1, 2]⟩,
  ⟨.blas_times, [.obj .vector .s true, .obj (.view1D .ten) .s true, .obj (.view1D .ten) .s false], .vec_times_vector, [0, 1, 2]⟩,
  ⟨.blas_times, [.obj (.view1D .vec) .s true, .obj .vector .s true, .obj .vector .s false], .vec_times_vector, [0, 1, 2]⟩,
  ⟨.blas_times, [.obj (.view1D .vec) .s true, .obj .vector .s true, .obj (.view1D .vec) .s false], .vec_times_vector, [0, 1, 2]⟩,
  ⟨.blas_times, [.obj (.view1D .vec) .s true, .obj .vector .s true, .obj (.view1D .mat) .s false], .vec_times_vector, [0, 1, 2]⟩,
  ⟨.blas_times, [.obj (.view1D .vec) .s true, .obj .vector .s true, .obj (.view1D .ten) .s false], .vec_times_vector, [0, 1, 2]⟩,
  ⟨.blas_times, [.obj (.view1D .vec) .s true, .obj (.view1D .vec) .s true, .obj .vector .s false], .vec_times_vector, [0, 1, 2]⟩,
  ⟨.blas_times, [.obj (.view1D .vec) .s true, .obj (.view1D .vec) .s true, .obj (.view1D .vec) .s false], .vec_times_vector, [0, 1, 2]⟩,
  ⟨.blas_times, [.obj (.view1D .vec) .s true, .obj (.view1D .vec) .s true, .obj (.view1D .mat) .s false], .vec_times_vector, [0, 1, 2]⟩,
  ⟨.blas_times, [.obj (.view1D .vec) .s true, .obj (.view1D .vec) .s true, .obj (.view1D .ten) .s false], .vec_times_vector, [0, 1, 2]⟩,
  ⟨.blas_times, [.obj (.view1D .vec) .s true, .obj (.view1D .mat) .s true, .obj .vector .s false], .vec_times_vector, [0, 1, 2]⟩,
  ⟨.blas_times, [.obj (.view1D .vec) .s true, .obj (.view1D .mat) .s true, .obj (.view1D .vec) .s false], .vec_times_vector, [0, 1, 2]⟩,
  ⟨.blas_times, [.obj (.view1D .vec) .s true, .obj (.view1D .mat) .s true, .obj (.view1D .mat) .s false], .vec_times_vector, [0, 1, 2]⟩,
  ⟨.blas_times, [.obj (.view1D .vec) .s true, .obj (.view1D .mat) .s true, .obj (.view1D .ten) .s false], .vec_times_vector, [0, 1, 2]⟩,
  ⟨.blas_times, [.obj (.view1D .vec) .s true, .obj (.view1D .ten) .s true, .obj .vector .s false], .vec_times_vector, [0, 1, 2]⟩,
  ⟨.blas_times, [.obj (.view1D .vec) .s true, .obj (.view1D .ten) .s true, .obj (.view1D .vec) .s false], .vec_times_vector, [0, 1, 2]⟩,
  ⟨.blas_times, [.obj (.view1D .vec) .s true, .obj (.view1D .ten) .s true, .obj (.view1D .mat) .s false], .vec_times_vector, [0, 1, 2]⟩,
  ⟨.blas_times, [.obj (.view1D .vec) .s true, .obj (.view1D .ten) .s true, .obj (.view1D .ten) .s false], .vec_times_vector, [0, 1, 2]⟩,
  ⟨.blas_times, [.obj (.view1D .mat) .s true, .obj .vector .s true, .obj .vector .s false], .vec_times_vector, [0, 1, 2]⟩,
  ⟨.blas_times, [.obj (.view1D .mat) .s true, .obj .vector .s true, .obj (.view1D .vec) .s false], .vec_times_vector, [0, 1, 2]⟩,
  ⟨.blas_times, [.obj (.view1D .mat) .s true, .obj .vector .s true, .obj (.view1D .mat) .s false], .vec_times_vector, [0, 1, 2]⟩,
  ⟨.blas_times, [.obj (.view1D .mat) .s true, .obj .vector .s true, .obj (.view1D .ten) .s false], .vec_times_vector, [0, 1, 2]⟩,
  ⟨.blas_times, [.obj (.view1D .mat) .s true, .obj (.view1D .vec) .s true, .obj .vector .s false], .vec_times_vector, [0, 1, 2]⟩,
  ⟨.blas_times, [.obj (.view1D .mat) .s true, .obj (.view1D .vec) .s true, .obj (.view1D .vec) .s false], .vec_times_vector, [0, 1, 2]⟩,
  ⟨.blas_times, [.obj (.view1D .mat) .s true, .obj (.view1D .vec) .s true, .obj (.view1D .mat) .s false], .vec_times_vector, [0, 1, 2]⟩,
  ⟨.blas_times, [.obj (.view1D .mat) .s true, .obj (.view1D .vec) .s true, .obj (.view1D .ten) .s false], .vec_times_vector, [0, 1, 2]⟩,
  ⟨.blas_times, [.obj (.view1D .mat) .s true, .obj (.view1D .mat) .s true, .obj .vector .s false], .vec_times_vector, [0, 1, 2]⟩,
  ⟨.blas_times, [.obj (.view1D .mat) .s true, .obj (.view1D .mat) .s true, .obj (.view1D .vec) .s false], .vec_times_vector, [0, 1, 2]⟩,
  ⟨.blas_times, [.obj (.view1D .mat) .s true, .obj (.view1D .mat) .s true, .obj (.view1D .mat) .s false], .vec_times_vector, [0, 1, 2]⟩,
  ⟨.blas_times, [.obj (.view1D .mat) .s true, .obj (.view1D .mat) .s true, .obj (.view1D .ten) .s false], .vec_times_vector, [0, 1, 2]⟩,
  ⟨.blas_times, [.obj (.view1D .mat) .s true, .obj (.view1D .ten) .s true, .obj .vector .s false], .vec_times_vector, [0, 1, 2]⟩,
  ⟨.blas_times, [.obj (.view1D .mat) .s true, .obj (.view1D .ten) .s true, .obj (.view1D .vec) .s false], .vec_times_vector, [0, 1, 2]⟩,
  ⟨.blas_times, [.obj (.view1D .mat) .s true, .obj (.view1D .ten) .s true, .obj (.view1D .mat) .s false], .vec_times_vector, [0, 1, 2]⟩,
  ⟨.blas_times, [.obj (.view1D .mat) .s true, .obj (.view1D .ten) .s true, .obj (.view1D .ten) .s false], .vec_times_vector, [0, 1, 2]⟩]

/-- src/blas/vector/vector_blas.cpp:1845-2237 -/
def tBlasVec_5 : List Overload := [
  ⟨.blas_times, [.obj (.view1D .ten) .s true, .obj .vector .s true, .obj .vector .s false], .vec_times_vector, [0, 1, 2]⟩,
  ⟨.blas_times, [.obj (.view1D .ten) .s true, .obj .vector .s true, .obj (.view1D .vec) .s false], .vec_times_vector, [0, 1, 2]⟩,
  ⟨.blas_times, [.obj (.view1D .ten) .s true, .obj .vector .s true, .obj (.view1D .mat) .s false], .vec_times_vector, [0, 1, 2]⟩,
  ⟨.blas_times, [.obj (.view1D .ten) .s true, .obj .vector .s true, .obj (.view1D .ten) .s false], .vec_times_vector, [0, 1, 2]⟩,
  ⟨.blas_times, [.obj (.view1D .ten) .s true, .obj (.view1D .vec) .s true, .obj .vector .s false], .vec_times_vector, [0, 1, 2]⟩,
  ⟨.blas_times, [.obj (.view1D .ten) .s true, .obj (.view1D .vec) .s true, .obj (.view1D .vec) .s false], .vec_times_vector, [0, 1, 2]⟩,
  ⟨.blas_times, [.obj (.view1D .ten) .s true, .obj (.view1D .vec) .s true, .obj (.view1D .mat) .s false], .vec_times_vector, [0, 1, 2]⟩,
  ⟨.blas_times, [.obj (.view1D .ten) .s true, .obj (.view1D .vec) .s true, .obj (.view1D .ten) .s false], .vec_times_vector, [0, 1, 2]⟩,
  ⟨.blas_times, [.obj (.view1D .ten) .s true, .obj (.view1D .mat) .s true, .obj .vector .s false], .vec_times_vector, [0, 1, 2]⟩,
  ⟨.blas_times, [.obj (.view1D .ten) .s true, .obj (.view1D .mat) .s true, .obj (.view1D .vec) .s false], .vec_times_vector, [0, 1, 2]⟩,
  ⟨.blas_times, [.obj (.view1D .ten) .s true, .obj (.view1D .mat) .s true, .obj (.view1D .mat) .s false], .vec_times_vector, [0, 1, 2]⟩,
  ⟨.blas_times, [.obj (.view1D .ten) .s true, .obj (.view1D .mat) .s true, .obj (.view1D .ten) .s false], .vec_times_vector, [0, 1, 2]⟩,
  ⟨.blas_times, [.obj (.view1D .ten) .s true, .obj (.view1D .ten) .s true, .obj .vector .s false], .vec_times_vector, [0, 1, 2]⟩,
  ⟨.blas_times, [.obj (.view1D .ten) .s true, .obj (.view1D .ten) .s true, .obj (.view1D .vec) .s false], .vec_times_vector, [0, 1, 2]⟩,
  ⟨.blas_times, [.obj (.view1D .ten) .s true, .obj (.view1D .ten) .s true, .obj (.view1D .mat) .s false], .vec_times_vector, [0, 1, 2]⟩,
  ⟨.blas_times, [.obj (.view1D .ten) .s true, .obj (.view1D .ten) .s true, .obj (.view1D .ten) .s false], .vec_times_vector, [0, 1, 2]⟩,
  ⟨.blas_copy, [.obj .vector .d true, .obj .vector .d false], .vec_copy, [0, 1]⟩,
  ⟨.blas_copy, [.obj .vector .d true, .obj (.view1D .vec) .d false], .vec_copy, [0, 1]⟩,
  ⟨.blas_copy, [.obj .vector .d true, .obj (.view1D .mat) .d false], .vec_copy, [0, 1]⟩,
  ⟨.blas_copy, [.obj .vector .d true, .obj (.view1D .ten) .d false], .vec_copy, [0, 1]⟩,
  ⟨.blas_copy, [.obj (.view1D .vec) .d true, .obj .vector .d false], .vec_copy, [0, 1]⟩,
  ⟨.blas_copy, [.obj (.view1D .vec) .d true, .obj (.view1D .vec) .d false], .vec_copy, [0, 1]⟩,
  ⟨.blas_copy, [.obj (.view1D .vec) .d true, .obj (.view1D .mat) .d false], .vec_copy, [0, 1]⟩,
  ⟨.blas_copy, [.obj (.view1D .vec) .d true, .obj (.view1D .ten) .d false], .vec_copy, [0, 1]⟩,
  ⟨.blas_copy, [.obj (.view1D .mat) .d true, .obj .vector .d false], .vec_copy, [0, 1]⟩,
  ⟨.blas_copy, [.obj (.view1D .mat) .d true, .obj (.view1D .vec) .d false], .vec_copy, [0, 1]⟩,
  ⟨.blas_copy, [.obj (.view1D .mat) .d true, .obj (.view1D .mat) .d false], .vec_copy, [0, 1]⟩,
  ⟨.blas_copy, [.obj (.view1D .mat) .d true, .obj (.view1D .ten) .d false], .vec_copy, [0, 1]⟩,
  ⟨.blas_copy, [.obj (.view1D .ten) .d true, .obj .vector .d false], .vec_copy, [0, 1]⟩,
  ⟨.blas_copy, [.obj (.view1D .ten) .d true, .obj (.view1D .vec) .d false], .vec_copy, [0, 1]⟩,
  ⟨.blas_copy, [.obj (.view1D .ten) .d true, .obj (.view1D .mat) .d false], .vec_copy, [0, 1]⟩,
  ⟨.blas_copy, [.obj (.view1D .ten) .d true, .obj (.view1D .ten) .d false], .vec_copy, [0, 1]⟩,
  ⟨.blas_copy, [.obj .vector .s true, .obj .vector .s false], .vec_copy, [0, 1]⟩,
  ⟨.blas_copy, [.obj .vector .s true, .obj (.view1D .vec) .s false], .vec_copy, [0, 1]⟩,
  ⟨.blas_copy, [.obj .vector .s true, .obj (.view1D .mat) .s false], .vec_copy, [0, 1]⟩,
  ⟨.blas_copy, [.obj .vector .s true, .obj (.view1D .ten) .s false], .vec_copy, [0, 1]⟩,
  ⟨.blas_copy, [.obj (.view1D .vec) .s true, .obj .vector .s false], .vec_copy, [0, 1]⟩,
  ⟨.blas_copy, [.obj (.view1D .vec) .s true, .obj (.view1D .vec) .s false], .vec_copy, [0, 1]⟩,
  ⟨.blas_copy, [.obj (.view1D .vec) .s true, .obj (.view1D .mat) .s false], .vec_copy, [0, 1]⟩,
  ⟨.blas_copy, [.obj (.view1D .vec) .s true, .obj (.view1D .ten) .s false], .vec_copy, [0, 1]⟩,
  ⟨.blas_copy, [.obj (.view1D .mat) .s true, .obj .vector .s false], .vec_copy, [0, 1]⟩,
  ⟨.blas_copy, [.obj (.view1D .mat) .s true, .obj (.view1D .vec) .s false], .vec_copy, [0, 1]⟩,
  ⟨.blas_copy, [.obj (.view1D .mat) .s true, .obj (.view1D .mat) .s false], .vec_copy, [0, 1]⟩,
  ⟨.blas_copy, [.obj (.view1D .mat) .s true, .obj (.view1D .ten) .s false], .vec_copy, [0, 1]⟩,
  ⟨.blas_copy, [.obj (.view1D .ten) .s true, .obj .vector .s false], .vec_copy, [0, 1]⟩,
  ⟨.blas_copy, [.obj (.view1D .ten) .s true, .obj (.view1D .vec) .s false], .vec_copy, [0, 1]⟩,
  ⟨.blas_copy, [.obj (.view1D .ten) .s true, .obj (.view1D .mat) .s false], .vec_copy, [0, 1]⟩,
  ⟨.blas_copy, [.obj (.view1D .ten) .s true, .obj (.view1D .ten) .s false], .vec_copy, [0, 1]⟩,
  ⟨.blas_axpy, [.scal .d, .obj .vector .d true, .obj .vector .d false], .vec_Daxpy, [0, 1, 2]⟩,
  ⟨.blas_axpy, [.scal .d, .obj .vector .d true, .obj (.view1D .vec) .d false], .vec_Daxpy, [0, 1, 2]⟩,
  ⟨.blas_axpy, [.scal .d, .obj .vector .d true, .obj (.view1D .mat) .d false], .vec_Daxpy, [0, 1, 2]⟩,
  ⟨.blas_axpy, [.scal .d, .obj .vector .d true, .obj (.view1D .ten) .d false], .vec_Daxpy, [0, 1, 2]⟩,
  ⟨.blas_axpy, [.scal .d, .obj (.view1D .vec) .d true, .obj .vector .d false], .vec_Daxpy, [0, 1, 2]⟩,
  ⟨.blas_axpy, [.scal .d, .obj (.view1D .vec) .d true, .obj (.view1D .vec) .d false], .vec_Daxpy, [0, 1, 2]⟩,
  ⟨.blas_axpy, [.scal .d, .obj (.view1D .vec) .d true, .obj (.view1D .mat) .d false], .vec_Daxpy, [0, 1, 2]⟩,
  ⟨.blas_axpy, [.scal .d, .obj (.view1D .vec) .d true, .obj (.view1D .ten) .d false], .vec_Daxpy, [0, 1, 2]⟩,
  ⟨.blas_axpy, [.scal .d, .obj (.view1D .mat) .d true, .obj .vector .d false], .vec_Daxpy, [0, 1, 2]⟩,
  ⟨.blas_axpy, [.scal .d, .obj (.view1D .mat) .d true, .obj (.view1D .vec) .d false], .vec_Daxpy, [0, 1, 2]⟩,
  ⟨.blas_axpy, [.scal .d, .obj (.view1D .mat) .d true, .obj (.view1D .mat) .d false], .vec_Daxpy, [0, 1, 2]⟩,
  ⟨.blas_axpy, [.scal .d, .obj (.view1D .mat) .d true, .obj (.view1D .ten) .d false], .vec_Daxpy, [0, 1, 2]⟩,
  ⟨.blas_axpy, [.scal .d, .obj (.view1D .ten) .d true, .obj .vector .d false], .vec_Daxpy, [0, 1, 2]⟩,
  ⟨.blas_axpy, [.scal .d, .obj (.view1D .ten) .d true, .obj (.view1D .vec) .d false], .vec_Daxpy, [0, 1, 2]⟩,
  ⟨.blas_axpy, [.scal .d, .obj (.view1D .ten) .d true, .obj (.view1D .mat) .d false], .vec_Daxpy, [0, 1, 2]⟩,
  ⟨.blas_axpy, [.scal .d, .obj (.view1D .ten) .d true, .obj (.view1D .ten) .d false], .vec_Daxpy, [0, 1, 2]⟩,
  ⟨.blas_axpy, [.scal .s, .obj .vector .s true, .obj .vector .s false], .vec_Saxpy, [0, 1, 2]⟩,
  ⟨.blas_axpy, [.scal .s, .obj .vector .s true, .obj (.view1D .vec) .s false], .vec_Saxpy, [0, 1, 2]⟩,
  ⟨.blas_axpy, [.scal .s, .obj .vector .s true, .obj (.view1D .mat) .s false], .vec_Saxpy, [0, 1, 2]⟩,
  ⟨.blas_axpy, [.scal .s, .obj .vector .s true, .obj (.view1D .ten) .s false], .vec_Saxpy, [0, 1, 2]⟩,
  ⟨.blas_axpy, [.scal .s, .obj (.view1D .vec) .s true, .obj .vector .s false], .vec_Saxpy, [0, 1, 2]⟩,
  ⟨.blas_axpy, [.scal .s, .obj (.view1D .vec) .s true, .obj (.view1D .vec) .s false], .vec_Saxpy, [0, 1, 2]⟩,
  ⟨.blas_axpy, [.scal .s, .obj (.view1D .vec) .s true, .obj (.view1D .mat) .s false], .vec_Saxpy, [0, 1, 2]⟩,
  ⟨.blas_axpy, [.scal .s, .obj (.view1D .vec) .s true, .obj (.view1D .ten) .s false], .vec_Saxpy, [0, 1, 2]⟩,
  ⟨.blas_axpy, [.scal .s, .obj (.view1D .mat) .s true, .obj .vector .s false], .vec_Saxpy, [0, 1, 2]⟩,
  ⟨.blas_axpy, [.scal .s, .obj (.view1D .mat) .s true, .obj (.view1D .vec) .s false], .vec_Saxpy, [0, 1, 2]⟩,
  ⟨.blas_axpy, [.scal .s, .obj (.view1D .mat) .s true, .obj (.view1D .mat) .s false], .vec_Saxpy, [0, 1, 2]⟩,
  ⟨.blas_axpy, [.scal .s, .obj (.view1D .mat) .s true, .obj (.view1D .ten) .s false], .vec_Saxpy, [0, 1, 2]⟩,
  ⟨.blas_axpy, [.scal .s, .obj (.view1D .ten) .s true, .obj .vector .s false], .vec_Saxpy, [0, 1, 2]⟩,
  ⟨.blas_axpy, [.scal .s, .obj (.view1D .ten) .s true, .obj (.view1D .vec) .s false], .vec_Saxpy, [0, 1, 2]⟩,
  ⟨.blas_axpy, [.scal .s, .obj (.view1D .ten) .s true, .obj (.view1D .mat) .s false], .vec_Saxpy, [0, 1, 2]⟩,
  ⟨.blas_axpy, [.scal .s, .obj (.view1D .ten) .s true, .obj (.view1D .ten) .s false], .vec_Saxpy, [0, 1, 2]⟩]

/-- src/blas/vector/vector_blas.cpp:2239-2627 -/
def tBlasVec_6 : List Overload := [
  ⟨.blas_axpyz, [.scal .d, .obj .vector .d true, .obj .vector .d true, .obj .vector .d false], .vec_Daxpyz, [0, 1, 2, 3]⟩,
  ⟨.blas_axpyz, [.scal .d, .obj .vector .d true, .obj .vector .d true, .obj (.view1D .vec) .d false], .vec_Daxpyz, [0, 1, 2, 3]⟩,
  ⟨.blas_axpyz, [.scal .d, .obj .vector .d true, .obj .vector .d true, .obj (.view1D .mat) .d false], .vec_Daxpyz, [0, 1, 2, 3]⟩,
  ⟨.blas_axpyz, [.scal .d, .obj .vector .d true, .obj .vector .d true, .obj (.view1D .ten) .d false], .vec_Daxpyz, [0, 1, 2, 3]⟩,
  ⟨.blas_axpyz, [.scal .d, .obj .vector .d true, .obj (.view1D .vec) .d true, .obj .vector .d false], .vec_Daxpyz, [0, 1, 2, 3]⟩,
  ⟨.blas_axpyz, [.scal .d, .obj .vector .d true, .obj (.view1D .vec) .d true, .obj (.view1D .vec) .d false], .vec_Daxpyz, [0, 1, 2, 3]⟩,
  ⟨.blas_axpyz, [.scal .d, .obj .vector .d true, .obj (.view1D .vec) .d true, .obj (.view1D .mat) .d false], .vec_Daxpyz, [0, 1, 2, 3]⟩,
  ⟨.blas_axpyz, [.scal .d, .obj .vector .d true, .obj (.view1D .vec) .d true, .obj (.view1D .ten) .d false], .vec_Daxpyz, [0, 1, 2, 3]⟩,
  ⟨.blas_axpyz, [.scal .d, .obj .vector .d true, .obj (.view1D .mat) .d true, .obj .vector .d false], .vec_Daxpyz, [0, 1, 2, 3]⟩,
  ⟨.blas_axpyz, [.scal .d, .obj .vector .d true, .obj (.view1D .mat) .d true, .obj (.view1D .vec) .d false], .vec_Daxpyz, [0, 1, 2, 3]⟩,
  ⟨.blas_axpyz, [.scal .d, .obj .vector .d true, .obj (.view1D .mat) .d true, .obj (.view1D .mat) .d false], .vec_Daxpyz, [0, 1, 2, 3]⟩,
  ⟨.blas_axpyz, [.scal .d, .obj .vector .d true, .obj (.view1D .mat) .d true, .obj (.view1D .ten) .d false], .vec_Daxpyz, [0, 1, 2, 3]⟩,
  ⟨.blas_axpyz, [.scal .d, .obj .vector .d true, .obj (.view1D .ten) .d true, .obj .vector .d false], .vec_Daxpyz, [0, 1, 2, 3]⟩,
  ⟨.blas_axpyz, [.scal .d, .obj .vector .d true, .obj (.view1D .ten) .d true, .obj (.view1D .vec) .d false], .vec_Daxpyz, [0, 1, 2, 3]⟩,
  ⟨.blas_axpyz, [.scal .d, .obj .vector .d true, .obj (.view1D .ten) .d true, .obj (.view1D .mat) .d false], .vec_Daxpyz, [0, 1, 2, 3]⟩,
  ⟨.blas_axpyz, [.scal .d, .obj .vector .d true, .obj (.view1D .ten) .d true, .obj (.view1D .ten) .d false], .vec_Daxpyz, [0, 1, 2, 3]⟩,
  ⟨.blas_axpyz, [.scal .d, .obj (.view1D .vec) .d true, .obj .vector .d true, .obj .vector .d false], .vec_Daxpyz, [0, 1, 2, 3]⟩,
  ⟨.blas_axpyz, [.scal .d, .obj (.view1D .vec) .d true, .obj .vector .d true, .obj (.view1D .vec) .d false], .vec_Daxpyz, [0, 1, 2, 3]⟩,
  ⟨.blas_axpyz, [.scal .d, .obj (.view1D .vec) .d true, .obj .vector .d true, .obj (.view1D .mat) .d false], .vec_Daxpyz, [0, 1, 2, 3]⟩,
  ⟨.blas_axpyz, [.scal .d, .obj (.view1D .vec) .d true, .obj .vector .d true, .obj (.view1D .ten) .d false], .vec_Daxpyz, [0, 1, 2, 3]⟩,
  ⟨.blas_axpyz, [.scal .d, .obj (.view1D .vec) .d true, .obj (.view1D .vec) .d true, .obj .vector .d false], .vec_Daxpyz, [0, 1, 2, 3]⟩,
  ⟨.blas_axpyz, [.scal .d, .obj (.view1D .vec) .d true, .obj (.view1D .vec) .d true, .obj (.view1D .vec) .d false], .vec_Daxpyz, [0, 1, 2, 3]⟩,
  ⟨.blas_axpyz, [.scal .d, .obj (.view1D .vec) .d true, .obj (.view1D .vec) .d true, .obj (.view1D .mat) .d false], .vec_Daxpyz, [0, 1, 2, 3]⟩,
  ⟨.blas_axpyz, [.scal .d, .obj (.view1D .vec) .d true, .obj (.view1D .vec) .d true, .obj (.view1D .ten) .d false], .vec_Daxpyz, [0, 1, 2, 3]⟩,
  ⟨.blas_axpyz, [.scal .d, .obj (.view1D .vec) .d true, .obj (.view1D .mat) .d true, .obj .vector .d false], .vec_Daxpyz, [0, 1, 2, 3]⟩,
  ⟨.blas_axpyz, [.scal .d, .obj (.view1D .vec) .d true, .obj (.view1D .mat) .d true, .obj (.view1D .vec) .d false], .vec_Daxpyz, [0, 1, 2, 3]⟩,
  ⟨.blas_axpyz, [.scal .d, .obj (.view1D .vec) .d true, .obj (.view1D .mat) .d true, .obj (.view1D .mat) .d false], .vec_Daxpyz, [0, 1, 2, 3]⟩,
  ⟨.blas_axpyz, [.scal .d, .obj (.view1D .vec) .d true, .obj (.view1D .mat) .d true, .obj (.view1D .ten) .d false], .vec_Daxpyz, [0, 1, 2, 3]⟩,
  ⟨.blas_axpyz, [.scal .d, .obj (.view1D .vec) .d true, .obj (.view1D .ten) .d true, .obj .vector .d false], .vec_Daxpyz, [0, 1, 2, 3]⟩,
  ⟨.blas_axpyz, [.scal .d, .obj (.view1D .vec) .d true, .obj (.view1D .ten) .d true, .obj (.view1D .vec) .d false], .vec_Daxpyz, [0, 1, 2, 3]⟩,
  ⟨.blas_axpyz, [.scal .d, .obj (.view1D .vec) .d true, .obj (.view1D .ten) .d true, .obj (.view1D .mat) .d false], .vec_Daxpyz, [0, 1, 2, 3]⟩,
  ⟨.blas_axpyz, [.scal .d, .obj (.view1D .vec) .d true, .obj (.view1D .ten) .d true, .obj (.view1D .ten) .d false], .vec_Daxpyz, [0, 1, 2, 3]⟩,
  ⟨.blas_axpyz, [.scal .d, .obj (.view1D .mat) .d true, .obj .vector .d true, .obj .vector .d false], .vec_Daxpyz, [0, 1, 2, 3]⟩,
  ⟨.blas_axpyz, [.scal .d, .obj (.view1D .mat) .d true, .obj .vector .d true, .obj (.view1D .vec) .d false], .vec_Daxpyz, [0, 1, 2, 3]⟩,
  ⟨.blas_axpyz, [.scal .d, .obj (.view1D .mat) .d true, .obj .vector .d true, .obj (.view1D .mat) .d false], .vec_Daxpyz, [0, 1, 2, 3]⟩,
  ⟨.blas_axpyz, [.scal .d, .obj (.view1D .mat) .d true, .obj .vector .d true, .obj (.view1D .ten) .d false], .vec_Daxpyz, [0, 1, 2, 3]⟩,
  ⟨.blas_axpyz, [.scal .d, .obj (.view1D .mat) .d true, .obj (.view1D .vec) .d true, .obj .vector .d false], .vec_Daxpyz, [0, 1, 2, 3]⟩,
  ⟨.blas_axpyz, [.scal .d, .obj (.view1D .mat) .d true, .obj (.view1D .vec) .d true, .obj (.view1D .vec) .d false], .vec_Daxpyz, [0, 1, 2, 3]⟩,
  ⟨.blas_axpyz, [.scal .d, .obj (.view1D .mat) .d true, .obj (.view1D .vec) .d true, .obj (.view1D .mat) .d false], .vec_Daxpyz, [0, 1, 2, 3]⟩,
  ⟨.blas_axpyz, [.scal .d, .obj (.view1D .mat) .d true, .obj (.view1D .vec) .d true, .obj (.view1D .ten) .d false], .vec_Daxpyz, [0, 1, 2, 3]⟩,
  ⟨.blas_axpyz, [.scal .d, .obj (.view1D .mat) .d true, .obj (.view1D .mat) .d true, .obj .vector .d false], .vec_Daxpyz, [0, 1, 2, 3]⟩,
  ⟨.blas_axpyz, [.scal .d, .obj (.view1D .mat) .d true, .obj (.view1D .mat) .d true, .obj (.view1D .vec) .d false], .vec_Daxpyz, [0, 1, 2, 3]⟩,
  ⟨.blas_axpyz, [.scal .d, .obj (.view1D .mat) .d true, .obj (.view1D .mat) .d true, .obj (.view1D .mat) .d false], .vec_Daxpyz, [0, 1, 2, 3]⟩,
  ⟨.blas_axpyz, [.scal .d, .obj (.view1D .mat) .d true, .obj (.view1D .mat) .d true, .obj (.view1D .ten) .d false], .vec_Daxpyz, [0, 1, 2, 3]⟩,
  ⟨.blas_axpyz, [.scal .d, .obj (.view1D .mat) .d true, .obj (.view1D .ten) .d true, .obj .vector .d false], .vec_Daxpyz, [0, 1, 2, 3]⟩,
  ⟨.blas_axpyz, [.scal .d, .obj (.view1D .mat) .d true, .obj (.view1D .ten) .d true, .obj (.view1D .vec) .d false], .vec_Daxpyz, [0, 1, 2, 3]⟩,
  ⟨.blas_axpyz, [.scal .d, .obj (.view1D .mat) .d true, .obj (.view1D .ten) .d true, .obj (.view1D .mat) .d false], .vec_Daxpyz, [0, 1, 2, 3]⟩,
  ⟨.blas_axpyz, [.scal .d, .obj (.view1D .mat) .d true, .obj (.view1D .ten) .d true, .obj (.view1D .ten) .d false], .vec_Daxpyz, [0, 1, 2, 3]⟩,
  ⟨.blas_axpyz, [.scal .d, .obj (.view1D .ten) .d true, .obj .vector .d true, .obj .vector .d false], .vec_Daxpyz, [0, 1, 2, 3]⟩,
  ⟨.blas_axpyz, [.scal .d, .obj (.view1D .ten) .d true, .obj .vector .d true, .obj (.view1D .vec) .d false], .vec_Daxpyz, [0, 1, 2, 3]⟩,
  ⟨.blas_axpyz, [.scal .d, .obj (.view1D .ten) .d true, .obj .vector .d true, .obj (.view1D .mat) .d false], .vec_Daxpyz, [0, 1, 2, 3]⟩,
  ⟨.blas_axpyz, [.scal .d, .obj (.view1D .ten) .d true, .obj .vector .d true, .obj (.view1D .ten) .d false], .vec_Daxpyz, [0, 1, 2, 3]⟩,
  ⟨.blas_axpyz, [.scal .d, .obj (.view1D .ten) .d true, .obj (.view1D .vec) .d true, .obj .vector .d false], .vec_Daxpyz, [0, 1, 2, 3]⟩,
  ⟨.blas_axpyz, [.scal .d, .obj (.view1D .ten) .d true, .obj (.view1D .vec) .d true, .obj (.view1D .vec) .d false], .vec_Daxpyz, [0, 1, 2, 3]⟩,
  ⟨.blas_axpyz, [.scal .d, .obj (.view1D .ten) .d true, .obj (.view1D .vec) .d true, .obj (.view1D .mat) .d false], .vec_Daxpyz, [0, 1, 2, 3]⟩,
  ⟨.blas_axpyz, [.scal .d, .obj (.view1D .ten) .d true, .obj (.view1D .vec) .d true, .obj (.view1D .ten) .d false], .vec_Daxpyz, [0, 1, 2, 3]⟩,
  ⟨.blas_axpyz, [.scal .d, .obj (.view1D .ten) .d true, .obj (.view1D .mat) .d true, .obj .vector .d false], .vec_Daxpyz, [0, 1, 2, 3]⟩,
  ⟨.blas_axpyz, [.scal .d, .obj (.view1D .ten) .d true, .obj (.view1D .mat) .d true, .obj (.view1D .vec) .d false], .vec_Daxpyz, [0, 1, 2, 3]⟩,
  ⟨.blas_axpyz, [.scal .d, .obj (.view1D .ten) .d true, .obj (.view1D .mat) .d true, .obj (.view1D .mat) .d false], .vec_Daxpyz, [0, 1, 2, 3]⟩,
  ⟨.blas_axpyz, [.scal .d, .obj (.view1D .ten) .d true, .obj (.view1D .mat) .d true, .obj (.view1D .ten) .d false], .vec_Daxpyz, [0, 1, 2, 3]⟩,
  ⟨.blas_axpyz, [.scal .d, .obj (.view1D .ten) .d true, .obj (.view1D .ten) .d true, .obj .vector .d false], .vec_Daxpyz, [0, 1, 2, 3]⟩,
  ⟨.blas_axpyz, [.scal .d, .obj (.view1D .ten) .d true, .obj (.view1D .ten) .d true, .obj (.view1D .vec) .d false], .vec_Daxpyz, [0, 1, 2, 3]⟩,
  ⟨.blas_axpyz, [.scal .d, .obj (.view1D .ten) .d true, .obj (.view1D .ten) .d true, .obj (.view1D .mat) .d false], .vec_Daxpyz, [0, 1, 2, 3]⟩,
  ⟨.blas_axpyz, [.scal .d, .obj (.view1D .ten) .d true, .obj (.view1D .ten) .d true, .obj (.view1D .ten) .d false], .vec_Daxpyz, [0, 1, 2, 3]⟩,
  ⟨.blas_axpyz, [.scal .s, .obj .vector .s true, .obj .vector .s true, .obj .vector .s false], .vec_Saxpyz, [0, 1, 2, 3]⟩,
  ⟨.blas_axpyz, [.scal .s, .obj .vector .s true, .obj .vector .s true, .obj (.view1D .vec) .s false], .vec_Saxpyz, [0, 1, 2, 3]⟩,
  ⟨.blas_axpyz, [.scal .s, .obj .vector .s true, .obj .vector .s true, .obj (.view1D .mat) .s false], .vec_Saxpyz, [0, 1, 2, 3]⟩,
  ⟨.blas_axpyz, [.scal .s, .obj .vector .s true, .obj .vector .s true, .obj (.view1D .ten) .s false], .vec_Saxpyz, [0, 1, 2, 3]⟩,
  ⟨.blas_axpyz, [.scal .s, .obj .vector .s true, .obj (.view1D .vec) .s true, .obj .vector .s false], .vec_Saxpyz, [0, 1, 2, 3]⟩,
  ⟨.blas_axpyz, [.scal .s, .obj .vector .s true, .obj (.view1D .vec) .s true, .obj (.view1D .vec) .s false], .vec_Saxpyz, [0, 1, 2, 3]⟩,
  ⟨.blas_axpyz, [.scal .s, .obj .vector .s true, .obj (.view1D .vec) .s true, .obj (.view1D .mat) .s false], .vec_Saxpyz, [0, 1, 2, 3]⟩,
  ⟨.blas_axpyz, [.scal .s, .obj .vector .s true, .obj (.view1D .vec) .s true, .obj (.view1D .ten) .s false], .vec_Saxpyz, [0, 1, 2, 3]⟩,
  ⟨.blas_axpyz, [.scal .s, .obj .vector .s true, .obj (.view1D .mat) .s true, .obj .vector .s false], .vec_Saxpyz, [0, 1, 2, 3]⟩,
  ⟨.blas_axpyz, [.scal .s, .obj .vector .s true, .obj (.view1D .mat) .s true, .obj (.view1D .vec) .s false], .vec_Saxpyz, [0, 1, 2, 3]⟩,
  ⟨.blas_axpyz, [.scal .s, .obj .vector .s true, .obj (.view1D .mat) .s true, .obj (.view1D .mat) .s false], .vec_Saxpyz, [0, 1, 2, 3]⟩,
  ⟨.blas_axpyz, [.scal .s, .obj .vector .s true, .obj (.view1D .mat) .s true, .obj (.view1D .ten) .s false], .vec_Saxpyz, [0, 1, 2, 3]⟩,
  ⟨.blas_axpyz, [.scal .s, .obj .vector .s true, .obj (.view1D .ten) .s true, .obj .vector .s false], .vec_Saxpyz, [0, 1, 2, 3]⟩,
  ⟨.blas_axpyz, [.scal .s, .obj .vector .s true, .obj (.view1D .ten) .s true, .obj (.view1D .vec) .s false], .vec_Saxpyz, [0, 1, 2, 3]⟩,
  ⟨.blas_axpyz, [.scal .s, .obj .vector .s true, .obj (.view1D .ten) .s true, .obj (.view1D .mat) .s false], .vec_Saxpyz, [0, 1, 2, 3]⟩,
  ⟨.blas_axpyz, [.scal .s, .obj .vector .s true, .obj (.view1D .ten) .s true, .obj (.view1D .ten) .s false], .vec_Saxpyz, [0, 1, 2, 3]⟩]

/-- src/blas/vector/vector_blas.cpp:2628-3310 -/
def tBlasVec_7 : List Overload := [
  ⟨.blas_axpyz, [.scal .s, .obj (.view1D .vec) .s true, .obj .vector .s true, .obj .vector .s false], .vec_Saxpyz, [0, 1, 2, 3]⟩,
  ⟨.blas_axpyz, [.scal .s, .obj (.view1D .vec) .s true, .obj .vector .s true, .obj (.view1D .vec) .s false], .vec_Saxpyz, [0, 1, 2, 3]⟩,
  ⟨.blas_axpyz, [.scal .s, .obj (.view1D .vec) .s true, .obj .vector .s true, .obj (.view1D .mat) .s false], .vec_Saxpyz, [0, 1, 2, 3]⟩,
  ⟨.blas_axpyz, [.scal .s, .obj (.view1D .vec) .s true, .obj .vector .s true, .obj (.view1D .ten) .s false], .vec_Saxpyz, [0, 1, 2, 3]⟩,
  ⟨.blas_axpyz, [.scal .s, .obj (.view1D .vec) .s true, .obj (.view1D .vec) .s true, .obj .vector .s false], .vec_Saxpyz, [0, 1, 2, 3]⟩,
  ⟨.blas_axpyz, [.scal .s, .obj (.view1D .vec) .s true, .obj (.view1D .vec) .s true, .obj (.view1D .vec) .s false], .vec_Saxpyz, [0, 1, 2, 3]⟩,
  ⟨.blas_axpyz, [.scal .s, .obj (.view1D .vec) .s true, .obj (.view1D .vec) .s true, .obj (.view1D .mat) .s false], .vec_Saxpyz, [0, 1, 2, 3]⟩,
  ⟨.blas_axpyz, [.scal .s, .obj (.view1D .vec) .s true, .obj (.view1D .vec) .s true, .obj (.view1D .ten) .s false], .vec_Saxpyz, [0, 1, 2, 3]⟩,
  ⟨.blas_axpyz, [.scal .s, .obj (.view1D .vec) .s true, .obj (.view1D .mat) .s true, .obj .vector .s false], .vec_Saxpyz, [0, 1, 2, 3]⟩,
  ⟨.blas_axpyz, [.scal .s, .obj (.view1D .vec) .s true, .obj (.view1D .mat) .s true, .obj (.view1D .vec) .s false], .vec_Saxpyz, [0, 1, 2, 3]⟩,
  ⟨.blas_axpyz, [.scal .s, .obj (.view1D .vec) .s true, .obj (.view1D .mat) .s true, .obj (.view1D .mat) .s false], .vec_Saxpyz, [0, 1, 2, 3]⟩,
  ⟨.blas_axpyz, [.scal .s, .obj (.view1D .vec) .s true, .obj (.view1D .mat) .s true, .obj (.view1D .ten) .s false], .vec_Saxpyz, [0, 1, 2, 3]⟩,
  ⟨.blas_axpyz, [.scal .s, .obj (.view1D .vec) .s true, .obj (.view1D .ten) .s true, .obj .vector .s false], .vec_Saxpyz, [0, 1, 2, 3]⟩,
  ⟨.blas_axpyz, [.scal .s, .obj (.view1D .vec) .s true, .obj (.view1D .ten) .s true, .obj (.view1D .vec) .s false], .vec_Saxpyz, [0, 1, 2, 3]⟩,
  ⟨.blas_axpyz, [.scal .s, .obj (.view1D .vec) .s true, .obj (.view1D .ten) .s true, .obj (.view1D .mat) .s false], .vec_Saxpyz, [0, 1, 2, 3]⟩,
  ⟨.blas_axpyz, [.scal .s, .obj (.view1D .vec) .s true, .obj (.view1D .ten) .s true, .obj (.view1D .ten) .s false], .vec_Saxpyz, [0, 1, 2, 3]⟩,
  ⟨.blas_axpyz, [.scal .s, .obj (.view1D .mat) .s true, .obj .vector .s true, .obj .vector .s false], .vec_Saxpyz, [0, 1, 2, 3]⟩,
  ⟨.blas_axpyz, [.scal .s, .obj (.view1D .mat) .s true, .obj .vector .s true, .obj (.view1D .vec) .s false], .vec_Saxpyz, [0, 1, 2, 3]⟩,
  ⟨.blas_axpyz, [.scal .s, .obj (.view1D .mat) .s true, .obj .vector .s true, .obj (.view1D .mat) .s false], .vec_Saxpyz, [0, 1, 2, 3]⟩,
  ⟨.blas_axpyz, [.scal .s, .obj (.view1D .mat) .s true, .obj .vector .s true, .obj (.view1D .ten) .s false], .vec_Saxpyz, [0, 1, 2, 3]⟩,
  ⟨.blas_axpyz, [.scal .s, .obj (.view1D .mat) .s true, .obj (.view1D .vec) .s true, .obj .vector .s false], .vec_Saxpyz, [0, 1, 2, 3]⟩,
  ⟨.blas_axpyz, [.scal .s, .obj (.view1D .mat) .s true, .obj (.view1D .vec) .s true, .obj (.view1D .vec) .s false], .vec_Saxpyz, [0, 1, 2, 3]⟩,
  ⟨.blas_axpyz, [.scal .s, .obj (.view1D .mat) .s true, .obj (.view1D .vec) .s true, .obj (.view1D .mat) .s false], .vec_Saxpyz, [0, 1, 2, 3]⟩,
  ⟨.blas_axpyz, [.scal .s, .obj (.view1D .mat) .s true, .obj (.view1D .vec) .s true, .obj (.view1D .ten) .s false], .vec_Saxpyz, [0, 1, 2, 3]⟩,
  ⟨.blas_axpyz, [.scal .s, .obj (.view1D .mat) .s true, .obj (.view1D .mat) .s true, .obj .vector .s false], .vec_Saxpyz, [0, 1, 2, 3]⟩,
  ⟨.blas_axpyz, [.scal .s, .obj (.view1D .mat) .s true, .obj (.view1D .mat) .s true, .obj (.view1D .vec) .s false], .vec_Saxpyz, [0, 1, 2, 3]⟩,
  ⟨.blas_axpyz, [.scal .s, .obj (.view1D .mat) .s true, .obj (.view1D .mat) .s true, .obj (.view1D .mat) .s false], .vec_Saxpyz, [0, 1, 2, 3]⟩,
  ⟨.blas_axpyz, [.scal .s, .obj (.view1D .mat) .s true, .obj (.view1D .mat) .s true, .obj (.view1D .ten) .s false], .vec_Saxpyz, [0, 1, 2, 3]⟩,
  ⟨.blas_axpyz, [.scal .s, .obj (.view1D .mat) .s true, .obj (.view1D .ten) .s true, .obj .vector .s false], .vec_Saxpyz, [0, 1, 2, 3]⟩,
  ⟨.blas_axpyz, [.scal .s, .obj (.view1D .mat) .s true, .obj (.view1D .ten) .s true, .obj (.view1D .vec) .s false], .vec_Saxpyz, [0, 1, 2, 3]⟩,
  ⟨.blas_axpyz, [.scal .s, .obj (.view1D .mat) .s true, .obj (.view1D .ten) .s true, .obj (.view1D .mat) .s false], .vec_Saxpyz, [0, 1, 2, 3]⟩,
  ⟨.blas_axpyz, [.scal .s, .obj (.view1D .mat) .s true, .obj (.view1D .ten) .s true, .obj (.view1D .ten) .s false], .vec_Saxpyz, [0, 1, 2, 3]⟩,
  ⟨.blas_axpyz, [.scal .s, .obj (.view1D .ten) .s true, .obj .vector .s true, .obj .vector .s false], .vec_Saxpyz, [0, 1, 2, 3]⟩,
  ⟨.blas_axpyz, [.scal .s, .obj (.view1D .ten) .s true, .obj .vector .s true, .obj (.view1D .vec) .s false], .vec_Saxpyz, [0, 1, 2, 3]⟩,
  ⟨.blas_axpyz, [.scal .s, .obj (.view1D .ten) .s true, .obj .vector .s true, .obj (.view1D .mat) .s false], .vec_Saxpyz, [0, 1, 2, 3]⟩,
  ⟨.blas_axpyz, [.scal .s, .obj (.view1D .ten) .s true, .obj .vector .s true, .obj (.view1D .ten) .s false], .vec_Saxpyz, [0, 1, 2, 3]⟩,
  ⟨.blas_axpyz, [.scal .s, .obj (.view1D .ten) .s true, .obj (.view1D .vec) .s true, .obj .vector .s false], .vec_Saxpyz, [0, 1, 2, 3]⟩,
  ⟨.blas_axpyz, [.scal .s, .obj (.view1D .ten) .s true, .obj (.view1D .vec) .s true, .obj (.view1D .vec) .s false], .vec_Saxpyz, [0, 1, 2, 3]⟩,
  ⟨.blas_axpyz, [.scal .s, .obj (.view1D .ten) .s true, .obj (.view1D .vec) .s true, .obj (.view1D .mat) .s false], .vec_Saxpyz, [0, 1, 2, 3]⟩,
  ⟨.blas_axpyz, [.scal .s, .obj (.view1D .ten) .s true, .obj (.view1D .vec) .s true, .obj (.view1D .ten) .s false], .vec_Saxpyz, [0, 1, 2, 3]⟩,
  ⟨.blas_axpyz, [.scal .s, .obj (.view1D .ten) .s true, .obj (.view1D .mat) .s true, .obj .vector .s false], .vec_Saxpyz, [0, 1, 2, 3]⟩,
  ⟨.blas_axpyz, [.scal .s, .obj (.view1D .ten) .s true, .obj (.view1D .mat) .s true, .obj (.view1D .vec) .s false], .vec_Saxpyz, [0, 1, 2, 3]⟩,
  ⟨.blas_axpyz, [.scal .s, .obj (.view1D .ten) .s true, .obj (.view1D .mat) .s true, .obj (.view1D .mat) .s false], .vec_Saxpyz, [0, 1, 2, 3]⟩,
  ⟨.blas_axpyz, [.scal .s, .obj (.view1D .ten) .s true, .obj (.view1D .mat) .s true, .obj (.view1D .ten) .s false], .vec_Saxpyz, [0, 1, 2, 3]⟩,
  ⟨.blas_axpyz, [.scal .s, .obj (.view1D .ten) .s true, .obj (.view1D .ten) .s true, .obj .vector .s false], .vec_Saxpyz, [0, 1, 2, 3]⟩,
  ⟨.blas_axpyz, [.scal .s, .obj (.view1D .ten) .s true, .obj (.view1D .ten) .s true, .obj (.view1D .vec) .s false], .vec_Saxpyz, [0, 1, 2, 3]⟩,
  ⟨.blas_axpyz, [.scal .s, .obj (.view1D .ten) .s true, .obj (.view1D .ten) .s true, .obj (.view1D .mat) .s false], .vec_Saxpyz, [0, 1, 2, 3]⟩,
  ⟨.blas_axpyz, [.scal .s, .obj (.view1D .ten) .s true, .obj (.view1D .ten) .s true, .obj (.view1D .ten) .s false], .vec_Saxpyz, [0, 1, 2, 3]⟩,
  ⟨.blas_scal, [.scal .d, .obj .vector .d false], .vec_Dscal, [0, 1]⟩,
  ⟨.blas_scal, [.scal .d, .obj (.view1D .vec) .d false], .vec_Dscal, [0, 1]⟩,
  ⟨.blas_scal, [.scal .d, .obj (.view1D .mat) .d false], .vec_Dscal, [0, 1]⟩,
  ⟨.blas_scal, [.scal .d, .obj (.view1D .ten) .d false], .vec_Dscal, [0, 1]⟩,
  ⟨.blas_scal, [.scal .s, .obj .vector .s false], .vec_Sscal, [0, 1]⟩,
  ⟨.blas_scal, [.scal .s, .obj (.view1D .vec) .s false], .vec_Sscal, [0, 1]⟩,
  ⟨.blas_scal, [.scal .s, .obj (.view1D .mat) .s false], .vec_Sscal, [0, 1]⟩,
  ⟨.blas_scal, [.scal .s, .obj (.view1D .ten) .s false], .vec_Sscal, [0, 1]⟩,
  ⟨.blas_xpay, [.scal .d, .obj .vector .d true, .obj .vector .d false], .vec_Dxpay, [0, 1, 2]⟩,
  ⟨.blas_xpay, [.scal .d, .obj .vector .d true, .obj (.view1D .vec) .d false], .vec_Dxpay, [0, 1, 2]⟩,
  ⟨.blas_xpay, [.scal .d, .obj .vector .d true, .obj (.view1D .mat) .d false], .vec_Dxpay, [0, 1, 2]⟩,
  ⟨.blas_xpay, [.scal .d, .obj .vector .d true, .obj (.view1D .ten) .d false], .vec_Dxpay, [0, 1, 2]⟩,
  ⟨.blas_xpay, [.scal .d, .obj (.view1D .vec) .d true, .obj .vector .d false], .vec_Dxpay, [0, 1, 2]⟩,
  ⟨.blas_xpay, [.scal .d, .obj (.view1D .vec) .d true, .obj (.view1D .vec) .d false], .vec_Dxpay, [0, 1, 2]⟩,
  ⟨.blas_xpay, [.scal .d, .obj (.view1D .vec) .d true, .obj (.view1D .mat) .d false], .vec_Dxpay, [0, 1, 2]⟩,
  ⟨.blas_xpay, [.scal .d, .obj (.view1D .vec) .d true, .obj (.view1D .ten) .d false], .vec_Dxpay, [0, 1, 2]⟩,
  ⟨.blas_xpay, [.scal .d, .obj (.view1D .mat) .d true, .obj .vector .d false], .vec_Dxpay, [0, 1, 2]⟩,
  ⟨.blas_xpay, [.scal .d, .obj (.view1D .mat) .d true, .obj (.view1D .vec) .d false], .vec_Dxpay, [0, 1, 2]⟩,
  ⟨.blas_xpay, [.scal .d, .obj (.view1D .mat) .d true, .obj (.view1D .mat) .d false], .vec_Dxpay, [0, 1, 2]⟩,
  ⟨.blas_xpay, [.scal .d, .obj (.view1D .mat) .d true, .obj (.view1D .ten) .d false], .vec_Dxpay, [0, 1, 2]⟩,
  ⟨.blas_xpay, [.scal .d, .obj (.view1D .ten) .d true, .obj .vector .d false], .vec_Dxpay, [0, 1, 2]⟩,
  ⟨.blas_xpay, [.scal .d, .obj (.view1D .ten) .d true, .obj (.view1D .vec) .d false], .vec_Dxpay, [0, 1, 2]⟩,
  ⟨.blas_xpay, [.scal .d, .obj (.view1D .ten) .d true, .obj (.view1D .mat) .d false], .vec_Dxpay, [0, 1, 2]⟩,
  ⟨.blas_xpay, [.scal .d, .obj (.view1D .ten) .d true, .obj (.view1D .ten) .d false], .vec_Dxpay, [0, 1, 2]⟩,
  ⟨.blas_xpay, [.scal .s, .obj .vector .s true, .obj .vector .s false], .vec_Sxpay, [0, 1, 2]⟩,
  ⟨.blas_xpay, [.scal .s, .obj .vector .s true, .obj (.view1D .vec) .s false], .vec_Sxpay, [0, 1, 2]⟩,
  ⟨.blas_xpay, [.scal .s, .obj .vector .s true, .obj (.view1D .mat) .s false], .vec_Sxpay, [0, 1, 2]⟩,
  ⟨.blas_xpay, [.scal .s, .obj .vector .s true, .obj (.view1D .ten) .s false], .vec_Sxpay, [0, 1, 2]⟩,
  ⟨.blas_xpay, [.scal .s, .obj (.view1D .vec) .s true, .obj .vector .s false], .vec_Sxpay, [0, 1, 2]⟩,
  ⟨.blas_xpay, [.scal .s, .obj (.view1D .vec) .s true, .obj (.view1D .vec) .s false], .vec_Sxpay, [0, 1, 2]⟩,
  ⟨.blas_xpay, [.scal .s, .obj (.view1D .vec) .s true, .obj (.view1D .mat) .s false], .vec_Sxpay, [0, 1, 2]⟩,
  ⟨.blas_xpay, [.scal .s, .obj (.view1D .vec) .s true, .obj (.view1D .ten) .s false], .vec_Sxpay, [0, 1, 2]⟩]

/-- src/blas/vector/vector_blas.cpp:3311-3346 -/
def tBlasVec_8 : List Overload := [
  ⟨.blas_xpay, [.scal .s, .obj (.view1D .mat) .s true, .obj .vector .s false], .vec_Sxpay, [0, 1, 2]⟩,
  ⟨.blas_xpay, [.scal .s, .obj (.view1D .mat) .s true, .obj (.view1D .vec) .s false], .vec_Sxpay, [0, 1, 2]⟩,
  ⟨.blas_xpay, [.scal .s, .obj (.view1D .mat) .s true, .obj (.view1D .mat) .s false], .vec_Sxpay, [0, 1, 2]⟩,
  ⟨.blas_xpay, [.scal .s, .obj (.view1D .mat) .s true, .obj (.view1D .ten) .s false], .vec_Sxpay, [0, 1, 2]⟩,
  ⟨.blas_xpay, [.scal .s, .obj (.view1D .ten) .s true, .obj .vector .s false], .vec_Sxpay, [0, 1, 2]⟩,
  ⟨.blas_xpay, [.scal .s, .obj (.view1D .ten) .s true, .obj (.view1D .vec) .s false], .vec_Sxpay, [0, 1, 2]⟩,
  ⟨.blas_xpay, [.scal .s, .obj (.view1D .ten) .s true, .obj (.view1D .mat) .s false], .vec_Sxpay, [0, 1, 2]⟩,
  ⟨.blas_xpay, [.scal .s, .obj (.view1D .ten) .s true, .obj (.view1D .ten) .s false], .vec_Sxpay, [0, 1, 2]⟩]

/-- the element-wise overloads of src/blas/vector/vector_blas.cpp (648 of them) -/
def tBlasVec : List (List Overload) :=
  [tBlasVec_0, tBlasVec_1, tBlasVec_2, tBlasVec_3, tBlasVec_4, tBlasVec_5, tBlasVec_6, tBlasVec_7, tBlasVec_8]

/-- src/blas/matrix/mataddsub/mataddsub.cpp:8-396 -/
def tBlasMatAddSub_0 : List Overload := [
  ⟨.blas_matadd, [.obj .dense .d true, .obj .dense .d true, .obj .dense .d false], .mat_matadd, [0, 1, 2]⟩,
  ⟨.blas_matadd, [.obj .dense .d true, .obj .dense .d true, .obj (.viewDense .vec) .d false], .mat_matadd, [0, 1, 2]⟩,
  ⟨.blas_matadd, [.obj .dense .d true, .obj .dense .d true, .obj (.viewDense .mat) .d false], .mat_matadd, [0, 1, 2]⟩,
  ⟨.blas_matadd, [.obj .dense .d true, .obj .dense .d true, .obj (.viewDense .ten) .d false], .mat_matadd, [0, 1, 2]⟩,
  ⟨.blas_matadd, [.obj .dense .d true, .obj (.viewDense .vec) .d true, .obj .dense .d false], .mat_matadd, [0, 1, 2]⟩,
  ⟨.blas_matadd, [.obj .dense .d true, .obj (.viewDense .vec) .d true, .obj (.viewDense .vec) .d false], .mat_matadd, [0, 1, 2]⟩,
  ⟨.blas_matadd, [.obj .dense .d true, .obj (.viewDense .vec) .d true, .obj (.viewDense .mat) .d false], .mat_matadd, [0, 1, 2]⟩,
  ⟨.blas_matadd, [.obj .dense .d true, .obj (.viewDense .vec) .d true, .obj (.viewDense .ten) .d false], .mat_matadd, [0, 1, 2]⟩,
  ⟨.blas_matadd, [.obj .dense .d true, .obj (.viewDense .mat) .d true, .obj .dense .d false], .mat_matadd, [0, 1, 2]⟩,
  ⟨.blas_matadd, [.obj .dense .d true, .obj (.viewDense .mat) .d true, .obj (.viewDense .vec) .d false], .mat_matadd, [0, 1, 2]⟩,
  ⟨.blas_matadd, [.obj .dense .d true, .obj (.viewDense .mat) .d true, .obj (.viewDense .mat) .d false], .mat_matadd, [0, 1, 2]⟩,
  ⟨.blas_matadd, [.obj .dense .d true, .obj (.viewDense .mat) .d true, .obj (.viewDense .ten) .d false], .mat_matadd, [0, 1, 2]⟩,
  ⟨.blas_matadd, [.obj .dense .d true, .obj (.viewDense .ten) .d true, .obj .dense .d false], .mat_matadd, [0, 1, 2]⟩,
  ⟨.blas_matadd, [.obj .dense .d true, .obj (.viewDense .ten) .d true, .obj (.viewDense .vec) .d false], .mat_matadd, [0, 1, 2]⟩,
  ⟨.blas_matadd, [.obj .dense .d true, .obj (.viewDense .ten) .d true, .obj (.viewDense .mat) .d false], .mat_matadd, [0, 1, 2]⟩,
  ⟨.blas_matadd, [.obj .dense .d true, .obj (.viewDense .ten) .d true, .obj (.viewDense .ten) .d false], .mat_matadd, [0, 1, 2]⟩,
  ⟨.blas_matadd, [.obj (.viewDense .vec) .d true, .obj .dense .d true, .obj .dense .d false], .mat_matadd, [0, 1, 2]⟩,
  ⟨.blas_matadd, [.obj (.viewDense .vec) .d true, .obj .dense .d true, .obj (.viewDense .vec) .d false], .mat_matadd, [0, 1, 2]⟩,
  ⟨.blas_matadd, [.obj (.viewDense .vec) .d true, .obj .dense .d true, .obj (.viewDense .mat) .d false], .mat_matadd, [0, 1, 2]⟩,
  ⟨.blas_matadd, [.obj (.viewDense .vec) .d true, .obj .dense .d true, .obj (.viewDense .ten) .d false], .mat_matadd, [0, 1, 2]⟩,
  ⟨.blas_matadd, [.obj (.viewDense .vec) .d true, .obj (.viewDense .vec) .d true, .obj .dense .d false], .mat_matadd, [0, 1, 2]⟩,
  ⟨.blas_matadd, [.obj (.viewDense .vec) .d true, .obj (.viewDense .vec) .d true, .obj (.viewDense .vec) .d false], .mat_matadd, [0, 1, 2]⟩,
  ⟨.blas_matadd, [.obj (.viewDense .vec) .d true, .obj (.viewDense .vec) .d true, .obj (.viewDense .mat) .d false], .mat_matadd, [0, 1, 2]⟩,
  ⟨.blas_matadd, [.obj (.viewDense .vec) .d true, .obj (.viewDense .vec) .d true, .obj (.viewDense .ten) .d false], .mat_matadd, [0, 1, 2]⟩,
  ⟨.blas_matadd, [.obj (.viewDense .vec) .d true, .obj (.viewDense .mat) .d true, .obj .dense .d false], .mat_matadd, [0, 1, 2]⟩,
  ⟨.blas_matadd, [.obj (.viewDense .vec) .d true, .obj (.viewDense .mat) .d true, .obj (.viewDense .vec) .d false], .mat_matadd, [0, 1, 2]⟩,
  ⟨.blas_matadd, [.obj (.viewDense .vec) .d true, .obj (.viewDense .mat) .d true, .obj (.viewDense .mat) .d false], .mat_matadd, [0, 1, 2]⟩,
  ⟨.blas_matadd, [.obj (.viewDense .vec) .d true, .obj (.viewDense .mat) .d true, .obj (.viewDense .ten) .d false], .mat_matadd, [0, 1, 2]⟩,
  ⟨.blas_matadd, [.obj (.viewDense .vec) .d true, .obj (.viewDense .ten) .d true, .obj .dense .d false], .mat_matadd, [0, 1, 2]⟩,
  ⟨.blas_matadd, [.obj (.viewDense .vec) .d true, .obj (.viewDense .ten) .d true, .obj (.viewDense .vec) .d false], .mat_matadd, [0, 1, 2]⟩,
  ⟨.blas_matadd, [.obj (.viewDense .vec) .d true, .obj (.viewDense .ten) .d true, .obj (.viewDense .mat) .d false], .mat_matadd, [0, 1, 2]⟩,
  ⟨.blas_matadd, [.obj (.viewDense .vec) .d true, .obj (.viewDense .ten) .d true, .obj (.viewDense .ten) .d false], .mat_matadd, [0, 1, 2]⟩,
  ⟨.blas_matadd, [.obj (.viewDense .mat) .d true, .obj .dense .d true, .obj .dense .d false], .mat_matadd, [0, 1, 2]⟩,
  ⟨.blas_matadd, [.obj (.viewDense .mat) .d true, .obj .dense .d true, .obj (.viewDense .vec) .d false], .mat_matadd, [0, 1, 2]⟩,
  ⟨.blas_matadd, [.obj (.viewDense .mat) .d true, .obj .dense .d true, .obj (.viewDense .mat) .d false], .mat_matadd, [0, 1, 2]⟩,
  ⟨.blas_matadd, [.obj (.viewDense .mat) .d true, .obj .dense .d true, .obj (.viewDense .ten) .d false], .mat_matadd, [0, 1, 2]⟩,
  ⟨.blas_matadd, [.obj (.viewDense .mat) .d true, .obj (.viewDense .vec) .d true, .obj .dense .d false], .mat_matadd, [0, 1, 2]⟩,
  ⟨.blas_matadd, [.obj (.viewDense .mat) .d true, .obj (.viewDense .vec) .d true, .obj (.viewDense .vec) .d false], .mat_matadd, [0, 1, 2]⟩,
  ⟨.blas_matadd, [.obj (.viewDense .mat) .d true, .obj (.viewDense .vec) .d true, .obj (.viewDense .mat) .d false], .mat_matadd, [0, 1, 2]⟩,
  ⟨.blas_matadd, [.obj (.viewDense .mat) .d true, .obj (.viewDense .vec) .d true, .obj (.viewDense .ten) .d false], .mat_matadd, [0, 1, 2]⟩,
  ⟨.blas_matadd, [.obj (.viewDense .mat) .d true, .obj (.viewDense .mat) .d true, .obj .dense .d false], .mat_matadd, [0, 1, 2]⟩,
  ⟨.blas_matadd, [.obj (.viewDense .mat) .d true, .obj (.viewDense .mat) .d true, .obj (.viewDense .vec) .d false], .mat_matadd, [0, 1, 2]⟩,
  ⟨.blas_matadd, [.obj (.viewDense .mat) .d true, .obj (.viewDense .mat) .d true, .obj (.viewDense .mat) .d false], .mat_matadd, [0, 1, 2]⟩,
  ⟨.blas_matadd, [.obj (.viewDense .mat) .d true, .obj (.viewDense .mat) .d true, .obj (.viewDense .ten) .d false], .mat_matadd, [0, 1, 2]⟩,
  ⟨.blas_matadd, [.obj (.viewDense .mat) .d true, .obj (.viewDense .ten) .d true, .obj .dense .d false], .mat_matadd, [0, 1, 2]⟩,
  ⟨.blas_matadd, [.obj (.viewDense .mat) .d true, .obj (.viewDense .ten) .d true, .obj (.viewDense .vec) .d false], .mat_matadd, [0, 1, 2]⟩,
  ⟨.blas_matadd, [.obj (.viewDense .mat) .d true, .obj (.viewDense .ten) .d true, .obj (.viewDense .mat) .d false], .mat_matadd, [0, 1, 2]⟩,
  ⟨.blas_matadd, [.obj (.viewDense .mat) .d true, .obj (.viewDense .ten) .d true, .obj (.viewDense .ten) .d false], .mat_matadd, [0, 1, 2]⟩,
  ⟨.blas_matadd, [.obj (.viewDense .ten) .d true, .obj .dense .d true, .obj .dense .d false], .mat_matadd, [0, 1, 2]⟩,
  ⟨.blas_matadd, [.obj (.viewDense .ten) .d true, .obj .dense .d true, .obj (.viewDense .vec) .d false], .mat_matadd, [0, 1, 2]⟩,
  ⟨.blas_matadd, [.obj (.viewDense .ten) .d true, .obj .dense .d true, .obj (.viewDense .mat) .d false], .mat_matadd, [0, 1, 2]⟩,
  ⟨.blas_matadd, [.obj (.viewDense .ten) .d true, .obj .dense .d true, .obj (.viewDense .ten) .d false], .mat_matadd, [0, 1, 2]⟩,
  ⟨.blas_matadd, [.obj (.viewDense .ten) .d true, .obj (.viewDense .vec) .d true, .obj .dense .d false], .mat_matadd, [0, 1, 2]⟩,
  ⟨.blas_matadd, [.obj (.viewDense .ten) .d true, .obj (.viewDense .vec) .d true, .obj (.viewDense .vec) .d false], .mat_matadd, [0, 1, 2]⟩,
  ⟨.blas_matadd, [.obj (.viewDense .ten) .d true, .obj (.viewDense .vec) .d true, .obj (.viewDense .mat) .d false], .mat_matadd, [0, 1, 2]⟩,
  ⟨.blas_matadd, [.obj (.viewDense .ten) .d true, .obj (.viewDense .vec) .d true, .obj (.viewDense .ten) .d false], .mat_matadd, [0, 1, 2]⟩,
  ⟨.blas_matadd, [.obj (.viewDense .ten) .d true, .obj (.viewDense .mat) .d true, .obj .dense .d false], .mat_matadd, [0, 1, 2]⟩,
  ⟨.blas_matadd, [.obj (.viewDense .ten) .d true, .obj (.viewDense .mat) .d true, .obj (.viewDense .vec) .d false], .mat_matadd, [0, 1, 2]⟩,
  ⟨.blas_matadd, [.obj (.viewDense .ten) .d true, .obj (.viewDense .mat) .d true, .obj (.viewDense .mat) .d false], .mat_matadd, [0, 1, 2]⟩,
  ⟨.blas_matadd, [.obj (.viewDense .ten) .d true, .obj (.viewDense .mat) .d true, .obj (.viewDense .ten) .d false], .mat_matadd, [0, 1, 2]⟩,
  ⟨.blas_matadd, [.obj (.viewDense .ten) .d true, .obj (.viewDense .ten) .d true, .obj .dense .d false], .mat_matadd, [0, 1, 2]⟩,
  ⟨.blas_matadd, [.obj (.viewDense .ten) .d true, .obj (.viewDense .ten) .d true, .obj (.viewDense .vec) .d false], .mat_matadd, [0, 1, 2]⟩,
  ⟨.blas_matadd, [.obj (.viewDense .ten) .d true, .obj (.viewDense .ten) .d true, .obj (.viewDense .mat) .d false], .mat_matadd, [0, 1, 2]⟩,
  ⟨.blas_matadd, [.obj (.viewDense .ten) .d true, .obj (.viewDense .ten) .d true, .obj (.viewDense .ten) .d false], .mat_matadd, [0, 1, 2]⟩,
  ⟨.blas_matadd, [.obj .dense .s true, .obj .dense .s true, .obj .dense .s false], .mat_matadd, [0, 1, 2]⟩,
  ⟨.blas_matadd, [.obj .dense .s true, .obj .dense .s true, .obj (.viewDense .vec) .s false], .mat_matadd, [0, 1, 2]⟩,
  ⟨.blas_matadd, [.obj .dense .s true, .obj .dense .s true, .obj (.viewDense .mat) .s false], .mat_matadd, [0, 1, 2]⟩,
  ⟨.blas_matadd, [.obj .dense .s true, .obj .dense .s true, .obj (.viewDense .ten) .s false], .mat_matadd, [0, 1, 2]⟩,
  ⟨.blas_matadd, [.obj .dense .s true, .obj (.viewDense .vec) .s true, .obj .dense .s false], .mat_matadd, [0, 1, 2]⟩,
  ⟨.blas_matadd, [.obj .dense .s true, .obj (.viewDense .vec) .s true, .obj (.viewDense .vec) .s false], .mat_matadd, [0, 1, 2]⟩,
  ⟨.blas_matadd, [.obj .dense .s true, .obj (.viewDense .vec) .s true, .obj (.viewDense .mat) .s false], .mat_matadd, [0, 1, 2]⟩,
  ⟨.blas_matadd, [.obj .dense .s true, .obj (.viewDense .vec) .s true, .obj (.viewDense .ten) .s false], .mat_matadd, [0, 1, 2]⟩,
  ⟨.blas_matadd, [.obj .dense .s true, .obj (.viewDense .mat) .s true, .obj .dense .s false], .mat_matadd, [0, 1, 2]⟩,
  ⟨.blas_matadd, [.obj .dense .s true, .obj (.viewDense .mat) .s true, .obj (.viewDense .vec) .s false], .mat_matadd, [0, 1, 2]⟩,
  ⟨.blas_matadd, [.obj .dense .s true, .obj (.viewDense .mat) .s true, .obj (.viewDense .mat) .s false], .mat_matadd, [0, 1, 2]⟩,
  ⟨.blas_matadd, [.obj .dense .s true, .obj (.viewDense .mat) .s true, .obj (.viewDense .ten) .s false], .mat_matadd, [0, 1, 2]⟩,
  ⟨.blas_matadd, [.obj .dense .s true, .obj (.viewDense .ten) .s true, .obj .dense .s false], .mat_matadd, [0, 1, 2]⟩,
  ⟨.blas_matadd, [.obj .dense .s true, .obj (.viewDense .ten) .s true, .obj (.viewDense .vec) .s false], .mat_matadd, [0, 1, 2]⟩,
  ⟨.blas_matadd, [.obj .dense .s true, .obj (.viewDense .ten) .s true, .obj (.viewDense .mat) .s false], .mat_matadd, [0, 1, 2]⟩,
  ⟨.blas_matadd, [.obj .dense .s true, .obj (.viewDense .ten) .s true, .obj (.viewDense .ten) .s false], .mat_matadd, [0, 1, 2]⟩]

/-- src/blas/matrix/mataddsub/mataddsub.cpp:397-799 -/
def tBlasMatAddSub_1 : List Overload := [
  ⟨.blas_matadd, [.obj (.viewDense .vec) .s true, .obj .dense .s true, .obj .dense .s false], .mat_matadd, [0, 1, 2]⟩,
  ⟨.blas_matadd, [.obj (.viewDense .vec) .s true, .obj .dense .s true, .obj (.viewDense .vec) .s false], .mat_matadd, [0, 1, 2]⟩,
  ⟨.blas_matadd, [.obj (.viewDense .vec) .s true, .obj .dense .s true, .obj (.viewDense .mat) .s false], .mat_matadd, [0, 1, 2]⟩,
  ⟨.blas_matadd, [.obj (.viewDense .vec) .s true, .obj .dense .s true, .obj (.viewDense .ten) .s false], .mat_matadd, [0, 1, 2]⟩,
  ⟨.blas_matadd, [.obj (.viewDense .vec) .s true, .obj (.viewDense .vec) .s true, .obj .dense .s false], .mat_matadd, [0, 1, 2]⟩,
  ⟨.blas_matadd, [.obj (.viewDense .vec) .s true, .obj (.viewDense .vec) .s true, .obj (.viewDense .vec) .s false], .mat_matadd, [0, 1, 2]⟩,
  ⟨.blas_matadd, [.obj (.viewDense .vec) .s true, .obj (.viewDense .vec) .s true, .obj (.viewDense .mat) .s false], .mat_matadd, [0, 1, 2]⟩,
  ⟨.blas_matadd, [.obj (.viewDense .vec) .s true, .obj (.viewDense .vec) .s true, .obj (.viewDense .ten) .s false], .mat_matadd, [0, 1, 2]⟩,
  ⟨.blas_matadd, [.obj (.viewDense .vec) .s true, .obj (.viewDense .mat) .s true, .obj .dense .s false], .mat_matadd, [0, 1, 2]⟩,
  ⟨.blas_matadd, [.obj (.viewDense .vec) .s true, .obj (.viewDense .mat) .s true, .obj (.viewDense .vec) .s false], .mat_matadd, [0, 1, 2]⟩,
  ⟨.blas_matadd, [.obj (.viewDense .vec) .s true, .obj (.viewDense .mat) .s true, .obj (.viewDense .mat) .s false], .mat_matadd, [0, 1, 2]⟩,
  ⟨.blas_matadd, [.obj (.viewDense .vec) .s true, .obj (.viewDense .mat) .s true, .obj (.viewDense .ten) .s false], .mat_matadd, [0, 1, 2]⟩,
  ⟨.blas_matadd, [.obj (.viewDense .vec) .s true, .obj (.viewDense .ten) .s true, .obj .dense .s false], .mat_matadd, [0, 1, 2]⟩,
  ⟨.blas_matadd, [.obj (.viewDense .vec) .s true, .obj (.viewDense .ten) .s true, .obj (.viewDense .vec) .s false], .mat_matadd, [0, 1, 2]⟩,
  ⟨.blas_matadd, [.obj (.viewDense .vec) .s true, .obj (.viewDense .ten) .s true, .obj (.viewDense .mat) .s false], .mat_matadd, [0, 1, 2]⟩,
  ⟨.blas_matadd, [.obj (.viewDense .vec) .s true, .obj (.viewDense .ten) .s true, .obj (.viewDense .ten) .s false], .mat_matadd, [0, 1, 2]⟩,
  ⟨.blas_matadd, [.obj (.viewDense .mat) .s true, .obj .dense .s true, .obj .dense .s false], .mat_matadd, [0, 1, 2]⟩,
  ⟨.blas_matadd, [.obj (.viewDense .mat) .s true, .obj .dense .s true, .obj (.viewDense .vec) .s false], .mat_matadd, [0, 1, 2]⟩,
  ⟨.blas_matadd, [.obj (.viewDense .mat) .s true, .obj .dense .s true, .obj (.viewDense .mat) .s false], .mat_matadd, [0, 1, 2]⟩,
  ⟨.blas_matadd, [.obj (.viewDense .mat) .s true, .obj .dense .s true, .obj (.viewDense .ten) .s false], .mat_matadd, [0, 1, 2]⟩,
  ⟨.blas_matadd, [.obj (.viewDense .mat) .s true, .obj (.viewDense .vec) .s true, .obj .dense .s false], .mat_matadd, [0, 1, 2]⟩,
  ⟨.blas_matadd, [.obj (.viewDense .mat) .s true, .obj (.viewDense .vec) .s true, .obj (.viewDense .vec) .s false], .mat_matadd, [0, 1, 2]⟩,
  ⟨.blas_matadd, [.obj (.viewDense .mat) .s true, .obj (.viewDense .vec) .s true, .obj (.viewDense .mat) .s false], .mat_matadd, [0, 1, 2]⟩,
  ⟨.blas_matadd, [.obj (.viewDense .mat) .s true, .obj (.viewDense .vec) .s true, .obj (.viewDense .ten) .s false], .mat_matadd, [0, 1, 2]⟩,
  ⟨.blas_matadd, [.obj (.viewDense .mat) .s true, .obj (.viewDense .mat) .s true, .obj .dense .s false], .mat_matadd, [0, 1, 2]⟩,
  ⟨.blas_matadd, [.obj (.viewDense .mat) .s true, .obj (.viewDense .mat) .s true, .obj (.viewDense .vec) .s false], .mat_matadd, [0, 1, 2]⟩,
  ⟨.blas_matadd, [.obj (.viewDense .mat) .s true, .obj (.viewDense .mat) .s true, .obj (.viewDense .mat) .s false], .mat_matadd, [0, 1, 2]⟩,
  ⟨.blas_matadd, [.obj (.viewDense .mat) .s true, .obj (.viewDense .mat) .s true, .obj (.viewDense .ten) .s false], .mat_matadd, [0, 1, 2]⟩,
  ⟨.blas_matadd, [.obj (.viewDense .mat) .s true, .obj (.viewDense .ten) .s true, .obj .dense .s false], .mat_matadd, [0, 1, 2]⟩,
  ⟨.blas_matadd, [.obj (.viewDense .mat) .s true, .obj (.viewDense .ten) .s true, .obj (.viewDense .vec) .s false], .mat_matadd, [0, 1, 2]⟩,
  ⟨.blas_matadd, [.obj (.viewDense .mat) .s true, .obj (.viewDense .ten) .s true, .obj (.viewDense .mat) .s false], .mat_matadd, [0, 1, 2]⟩,
  ⟨.blas_matadd, [.obj (.viewDense .mat) .s true, .obj (.viewDense .ten) .s true, .obj (.viewDense .ten) .s false], .mat_matadd, [0, 1, 2]⟩,
  ⟨.blas_matadd, [.obj (.viewDense .ten) .s true, .obj .dense .s true, .obj .dense .s false], .mat_matadd, [0, 1, 2]⟩,
  ⟨.blas_matadd, [.obj (.viewDense .ten) .s true, .obj .dense .s true, .obj (.viewDense .vec) .s false], .mat_matadd, [0, 1, 2]⟩,
  ⟨.blas_matadd, [.obj (.viewDense .ten) .s true, .obj .dense .s true, .obj (.viewDense .mat) .s false], .mat_matadd, [0, 1, 2]⟩,
  ⟨.blas_matadd, [.obj (.viewDense .ten) .s true, .obj .dense .s true, .obj (.viewDense .ten) .s false], .mat_matadd, [0, 1, 2]⟩,
  ⟨.blas_matadd, [.obj (.viewDense .ten) .s true, .obj (.viewDense .vec) .s true, .obj .dense .s false], .mat_matadd, [0, 1, 2]⟩,
  ⟨.blas_matadd, [.obj (.viewDense .ten) .s true, .obj (.viewDense .vec) .s true, .obj (.viewDense .vec) .s false], .mat_matadd, [0, 1, 2]⟩,
  ⟨.blas_matadd, [.obj (.viewDense .ten) .s true, .obj (.viewDense .vec) .s true, .obj (.viewDense .mat) .s false], .mat_matadd, [0, 1, 2]⟩,
  ⟨.blas_matadd, [.obj (.viewDense .ten) .s true, .obj (.viewDense .vec) .s true, .obj (.viewDense .ten) .s false], .mat_matadd, [0, 1, 2]⟩,
  ⟨.blas_matadd, [.obj (.viewDense .ten) .s true, .obj (.viewDense .mat) .s true, .obj .dense .s false], .mat_matadd, [0, 1, 2]⟩,
  ⟨.blas_matadd, [.obj (.viewDense .ten) .s true, .obj (.viewDense .mat) .s true, .obj (.viewDense .vec) .s false], .mat_matadd, [0, 1, 2]⟩,
  ⟨.blas_matadd, [.obj (.viewDense .ten) .s true, .obj (.viewDense .mat) .s true, .obj (.viewDense .mat) .s false], .mat_matadd, [0, 1, 2]⟩,
  ⟨.blas_matadd, [.obj (.viewDense .ten) .s true, .obj (.viewDense .mat) .s true, .obj (.viewDense .ten) .s false], .mat_matadd, [0, 1, 2]⟩,
  ⟨.blas_matadd, [.obj (.viewDense .ten) .s true, .obj (.viewDense .ten) .s true, .obj .dense .s false], .mat_matadd, [0, 1, 2]⟩,
  ⟨.blas_matadd, [.obj (.viewDense .ten) .s true, .obj (.viewDense .ten) .s true, .obj (.viewDense .vec) .s false], .mat_matadd, [0, 1, 2]⟩,
  ⟨.blas_matadd, [.obj (.viewDense .ten) .s true, .obj (.viewDense .ten) .s true, .obj (.viewDense .mat) .s false], .mat_matadd, [0, 1, 2]⟩,
  ⟨.blas_matadd, [.obj (.viewDense .ten) .s true, .obj (.viewDense .ten) .s true, .obj (.viewDense .ten) .s false], .mat_matadd, [0, 1, 2]⟩,
  ⟨.blas_matadd, [.obj .crs .d true, .obj .crs .d true, .obj .crs .d false], .mat_matadd, [0, 1, 2]⟩,
  ⟨.blas_matadd, [.obj .crs .s true, .obj .crs .s true, .obj .crs .s false], .mat_matadd, [0, 1, 2]⟩,
  ⟨.blas_matsub, [.obj .dense .d true, .obj .dense .d true, .obj .dense .d false], .mat_matsub, [0, 1, 2]⟩,
  ⟨.blas_matsub, [.obj .dense .d true, .obj .dense .d true, .obj (.viewDense .vec) .d false], .mat_matsub, [0, 1, 2]⟩,
  ⟨.blas_matsub, [.obj .dense .d true, .obj .dense .d true, .obj (.viewDense .mat) .d false], .mat_matsub, [0, 1, 2]⟩,
  ⟨.blas_matsub, [.obj .dense .d true, .obj .dense .d true, .obj (.viewDense .ten) .d false], .mat_matsub, [0, 1, 2]⟩,
  ⟨.blas_matsub, [.obj .dense .d true, .obj (.viewDense .vec) .d true, .obj .dense .d false], .mat_matsub, [0, 1, 2]⟩,
  ⟨.blas_matsub, [.obj .dense .d true, .obj (.viewDense .vec) .d true, .obj (.viewDense .vec) .d false], .mat_matsub, [0, 1, 2]⟩,
  ⟨.blas_matsub, [.obj .dense .d true, .obj (.viewDense .vec) .d true, .obj (.viewDense .mat) .d false], .mat_matsub, [0, 1, 2]⟩,
  ⟨.blas_matsub, [.obj .dense .d true, .obj (.viewDense .vec) .d true, .obj (.viewDense .ten) .d false], .mat_matsub, [0, 1, 2]⟩,
  ⟨.blas_matsub, [.obj .dense .d true, .obj (.viewDense .mat) .d true, .obj .dense .d false], .mat_matsub, [0, 1, 2]⟩,
  ⟨.blas_matsub, [.obj .dense .d true, .obj (.viewDense .mat) .d true, .obj (.viewDense .vec) .d false], .mat_matsub, [0, 1, 2]⟩,
  ⟨.blas_matsub, [.obj .dense .d true, .obj (.viewDense .mat) .d true, .obj (.viewDense .mat) .d false], .mat_matsub, [0, 1, 2]⟩,
  ⟨.blas_matsub, [.obj .dense .d true, .obj (.viewDense .mat) .d true, .obj (.viewDense .ten) .d false], .mat_matsub, [0, 1, 2]⟩,
  ⟨.blas_matsub, [.obj .dense .d true, .obj (.viewDense .ten) .d true, .obj .dense .d false], .mat_matsub, [0, 1, 2]⟩,
  ⟨.blas_matsub, [.obj .dense .d true, .obj (.viewDense .ten) .d true, .obj (.viewDense .vec) .d false], .mat_matsub, [0, 1, 2]⟩,
  ⟨.blas_matsub, [.obj .dense .d true, .obj (.viewDense .ten) .d true, .obj (.viewDense .mat) .d false], .mat_matsub, [0, 1, 2]⟩,
  ⟨.blas_matsub, [.obj .dense .d true, .obj (.viewDense .ten) .d true, .obj (.viewDense .ten) .d false], .mat_matsub, [0, 1, 2]⟩,
  ⟨.blas_matsub, [.obj (.viewDense .vec) .d true, .obj .dense .d true, .obj .dense .d false], .mat_matsub, [0, 1, 2]⟩,
  ⟨.blas_matsub, [.obj (.viewDense .vec) .d true, .obj .dense .d true, .obj (.viewDense .vec) .d false], .mat_matsub, [0, 1, 2]⟩,
  ⟨.blas_matsub, [.obj (.viewDense .vec) .d true, .obj .dense .d true, .obj (.viewDense .mat) .d false], .mat_matsub, [0, 1, 2]⟩,
  ⟨.blas_matsub, [.obj (.viewDense .vec) .d true, .obj .dense .d true, .obj (.viewDense .ten) .d false], .mat_matsub, [0, 1, 2]⟩,
  ⟨.blas_matsub, [.obj (.viewDense .vec) .d true, .obj (.viewDense .vec) .d true, .obj .dense .d false], .mat_matsub, [0, 1, 2]⟩,
  ⟨.blas_matsub, [.obj (.viewDense .vec) .d true, .obj (.viewDense .vec) .d true, .obj (.viewDense .vec) .d false], .mat_matsub, [0, 1, 2]⟩,
  ⟨.blas_matsub, [.obj (.viewDense .vec) .d true, .obj (.viewDense .vec) .d true, .obj (.viewDense .mat) .d false], .mat_matsub, [0, 1, 2]⟩,
  ⟨.blas_matsub, [.obj (.viewDense .vec) .d true, .obj (.viewDense .vec) .d true, .obj (.viewDense .ten) .d false], .mat_matsub, [0, 1, 2]⟩,
  ⟨.blas_matsub, [.obj (.viewDense .vec) .d true, .obj (.viewDense .mat) .d true, .obj .dense .d false], .mat_matsub, [0, 1, 2]⟩,
  ⟨.blas_matsub, [.obj (.viewDense .vec) .d true, .obj (.viewDense .mat) .d true, .obj (.viewDense .vec) .d false], .mat_matsub, [0, 1, 2]⟩,
  ⟨.blas_matsub, [.obj (.viewDense .vec) .d true, .obj (.viewDense .mat) .d true, .obj (.viewDense .mat) .d false], .mat_matsub, [0, 1, 2]⟩,
  ⟨.blas_matsub, [.obj (.viewDense .vec) .d true, .obj (.viewDense .mat) .d true, .obj (.viewDense .ten) .d false], .mat_matsub, [0, 1, 2]⟩,
  ⟨.blas_matsub, [.obj (.viewDense .vec) .d true, .obj (.viewDense .ten) .d true, .obj .dense .d false], .mat_matsub, [0, 1, 2]⟩,
  ⟨.blas_matsub, [.obj (.viewDense .vec) .d true, .obj (.viewDense .ten) .d true, .obj (.viewDense .vec) .d false], .mat_matsub, [0, 1, 2]⟩]

/-- src/blas/matrix/mataddsub/mataddsub.cpp:800-1191 -/
def tBlasMatAddSub_2 : List Overload := [
  ⟨.blas_matsub, [.obj (.viewDense .vec) .d true, .obj (.viewDense .ten) .d true, .obj (.viewDense .mat) .d false], .mat_matsub, [0, 1, 2]⟩,
  ⟨.blas_matsub, [.obj (.viewDense .vec) .d true, .obj (.viewDense .ten) .d true, .obj (.viewDense .ten) .d false], .mat_matsub, [0, 1, 2]⟩,
  ⟨.blas_matsub, [.obj (.viewDense .mat) .d true, .obj .dense .d true, .obj .dense .d false], .mat_matsub, [0, 1, 2]⟩,
  ⟨.blas_matsub, [.obj (.viewDense .mat) .d true, .obj .dense .d true, .obj (.viewDense .vec) .d false], .mat_matsub, [0, 1, 2]⟩,
  ⟨.blas_matsub, [.obj (.viewDense .mat) .d true, .obj .dense .d true, .obj (.viewDense .mat) .d false], .mat_matsub, [0, 1, 2]⟩,
  ⟨.blas_matsub, [.obj (.viewDense .mat) .d true, .obj .dense .d true, .obj (.viewDense .ten) .d false], .mat_matsub, [0, 1, 2]⟩,
  ⟨.blas_matsub, [.obj (.viewDense .mat) .d true, .obj (.viewDense .vec) .d true, .obj .dense .d false], .mat_matsub, [0, 1, 2]⟩,
  ⟨.blas_matsub, [.obj (.viewDense .mat) .d true, .obj (.viewDense .vec) .d true, .obj (.viewDense .vec) .d false], .mat_matsub, [0, 1, 2]⟩,
  ⟨.blas_matsub, [.obj (.viewDense .mat) .d true, .obj (.viewDense .vec) .d true, .obj (.viewDense .mat) .d false], .mat_matsub, [0, 1, 2]⟩,
  ⟨.blas_matsub, [.obj (.viewDense .mat) .d true, .obj (.viewDense .vec) .d true, .obj (.viewDense .ten) .d false], .mat_matsub, [0, 1, 2]⟩,
  ⟨.blas_matsub, [.obj (.viewDense .mat) .d true, .obj (.viewDense .mat) .d true, .obj .dense .d false], .mat_matsub, [0, 1, 2]⟩,
  ⟨.blas_matsub, [.obj (.viewDense .mat) .d true, .obj (.viewDense .mat) .d true, .obj (.viewDense .vec) .d false], .mat_matsub, [0, 1, 2]⟩,
  ⟨.blas_matsub, [.obj (.viewDense .mat) .d true, .obj (.viewDense .mat) .d true, .obj (.viewDense .mat) .d false], .mat_matsub, [0, 1, 2]⟩,
  ⟨.blas_matsub, [.obj (.viewDense .mat) .d true, .obj (.viewDense .mat) .d true, .obj (.viewDense .ten) .d false], .mat_matsub, [0, 1, 2]⟩,
  ⟨.blas_matsub, [.obj (.viewDense .mat) .d true, .obj (.viewDense .ten) .d true, .obj .dense .d false], .mat_matsub, [0, 1, 2]⟩,
  ⟨.blas_matsub, [.obj (.viewDense .mat) .d true, .obj (.viewDense .ten) .d true, .obj (.viewDense .vec) .d false], .mat_matsub, [0, 1, 2]⟩,
  ⟨.blas_matsub, [.obj (.viewDense .mat) .d true, .obj (.viewDense .ten) .d true, .obj (.viewDense .mat) .d false], .mat_matsub, [0, 1, 2]⟩,
  ⟨.blas_matsub, [.obj (.viewDense .mat) .d true, .obj (.viewDense .ten) .d true, .obj (.viewDense .ten) .d false], .mat_matsub, [0, 1, 2]⟩,
  ⟨.blas_matsub, [.obj (.viewDense .ten) .d true, .obj .dense .d true, .obj .dense .d false], .mat_matsub, [0, 1, 2]⟩,
  ⟨.blas_matsub, [.obj (.viewDense .ten) .d true, .obj .dense .d true, .obj (.viewDense .vec) .d false], .mat_matsub, [0, 1, 2]⟩,
  ⟨.blas_matsub, [.obj (.viewDense .ten) .d true, .obj .dense .d true, .obj (.viewDense .mat) .d false], .mat_matsub, [0, 1, 2]⟩,
  ⟨.blas_matsub, [.obj (.viewDense .ten) .d true, .obj .dense .d true, .obj (.viewDense .ten) .d false], .mat_matsub, [0, 1, 2]⟩,
  ⟨.blas_matsub, [.obj (.viewDense .ten) .d true, .obj (.viewDense .vec) .d true, .obj .dense .d false], .mat_matsub, [0, 1, 2]⟩,
  ⟨.blas_matsub, [.obj (.viewDense .ten) .d true, .obj (.viewDense .vec) .d true, .obj (.viewDense .vec) .d false], .mat_matsub, [0, 1, 2]⟩,
  ⟨.blas_matsub, [.obj (.viewDense .ten) .d true, .obj (.viewDense .vec) .d true, .obj (.viewDense .mat) .d false], .mat_matsub, [0, 1, 2]⟩,
  ⟨.blas_matsub, [.obj (.viewDense .ten) .d true, .obj (.viewDense .vec) .d true, .obj (.viewDense .ten) .d false], .mat_matsub, [0, 1, 2]⟩,
  ⟨.blas_matsub, [.obj (.viewDense .ten) .d true, .obj (.viewDense .mat) .d true, .obj .dense .d false], .mat_matsub, [0, 1, 2]⟩,
  ⟨.blas_matsub, [.obj (.viewDense .ten) .d true, .obj (.viewDense .mat) .d true, .obj (.viewDense .vec) .d false], .mat_matsub, [0, 1, 2]⟩,
  ⟨.blas_matsub, [.obj (.viewDense .ten) .d true, .obj (.viewDense .mat) .d true, .obj (.viewDense .mat) .d false], .mat_matsub, [0, 1, 2]⟩,
  ⟨.blas_matsub, [.obj (.viewDense .ten) .d true, .obj (.viewDense .mat) .d true, .obj (.viewDense .ten) .d false], .mat_matsub, [0, 1, 2]⟩,
  ⟨.blas_matsub, [.obj (.viewDense .ten) .d true, .obj (.viewDense .ten) .d true, .obj .dense .d false], .mat_matsub, [0, 1, 2]⟩,
  ⟨.blas_matsub, [.obj (.viewDense .ten) .d true, .obj (.viewDense .ten) .d true, .obj (.viewDense .vec) .d false], .mat_matsub, [0, 1, 2]⟩,
  ⟨.blas_matsub, [.obj (.viewDense .ten) .d true, .obj (.viewDense .ten) .d true, .obj (.viewDense .mat) .d false], .mat_matsub, [0, 1, 2]⟩,
  ⟨.blas_matsub, [.obj (.viewDense .ten) .d true, .obj (.viewDense .ten) .d true, .obj (.viewDense .ten) .d false], .mat_matsub, [0, 1, 2]⟩,
  ⟨.blas_matsub, [.obj .dense .s true, .obj .dense .s true, .obj .dense .s false], .mat_matsub, [0, 1, 2]⟩,
  ⟨.blas_matsub, [.obj .dense .s true, .obj .dense .s true, .obj (.viewDense .vec) .s false], .mat_matsub, [0, 1, 2]⟩,
  ⟨.blas_matsub, [.obj .dense .s true, .obj .dense .s true, .obj (.viewDense .mat) .s false], .mat_matsub, [0, 1, 2]⟩,
  ⟨.blas_matsub, [.obj .dense .s true, .obj .dense .s true, .obj (.viewDense .ten) .s false], .mat_matsub, [0, 1, 2]⟩,
  ⟨.blas_matsub, [.obj .dense .s true, .obj (.viewDense .vec) .s true, .obj .dense .s false], .mat_matsub, [0, 1, 2]⟩,
  ⟨.blas_matsub, [.obj .dense .s true, .obj (.viewDense .vec) .s true, .obj (.viewDense .vec) .s false], .mat_matsub, [0, 1, 2]⟩,
  ⟨.blas_matsub, [.obj .dense .s true, .obj (.viewDense .vec) .s true, .obj (.viewDense .mat) .s false], .mat_matsub, [0, 1, 2]⟩,
  ⟨.blas_matsub, [.obj .dense .s true, .obj (.viewDense .vec) .s true, .obj (.viewDense .ten) .s false], .mat_matsub, [0, 1, 2]⟩,
  ⟨.blas_matsub, [.obj .dense .s true, .obj (.viewDense .mat) .s true, .obj .dense .s false], .mat_matsub, [0, 1, 2]⟩,
  ⟨.blas_matsub, [.obj .dense .s true, .obj (.viewDense .mat) .s true, .obj (.viewDense .vec) .s false], .mat_matsub, [0, 1, 2]⟩,
  ⟨.blas_matsub, [.obj .dense .s true, .obj (.viewDense .mat) .s true, .obj (.viewDense .mat) .s false], .mat_matsub, [0, 1, 2]⟩,
  ⟨.blas_matsub, [.obj .dense .s true, .obj (.viewDense .mat) .s true, .obj (.viewDense .ten) .s false], .mat_matsub, [0, 1, 2]⟩,
  ⟨.blas_matsub, [.obj .dense .s true, .obj (.viewDense .ten) .s true, .obj .dense .s false], .mat_matsub, [0, 1, 2]⟩,
  ⟨.blas_matsub, [.obj .dense .s true, .obj (.viewDense .ten) .s true, .obj (.viewDense .vec) .s false], .mat_matsub, [0, 1, 2]⟩,
  ⟨.blas_matsub, [.obj .dense .s true, .obj (.viewDense .ten) .s true, .obj (.viewDense .mat) .s false], .mat_matsub, [0, 1, 2]⟩,
  ⟨.blas_matsub, [.obj .dense .s true, .obj (.viewDense .ten) .s true, .obj (.viewDense .ten) .s false], .mat_matsub, [0, 1, 2]⟩,
  ⟨.blas_matsub, [.obj (.viewDense .vec) .s true, .obj .dense .s true, .obj .dense .s false], .mat_matsub, [0, 1, 2]⟩,
  ⟨.blas_matsub, [.obj (.viewDense .vec) .s true, .obj .dense .s true, .obj (.viewDense .vec) .s false], .mat_matsub, [0, 1, 2]⟩,
  ⟨.blas_matsub, [.obj (.viewDense .vec) .s true, .obj .dense .s true, .obj (.viewDense .mat) .s false], .mat_matsub, [0, 1, 2]⟩,
  ⟨.blas_matsub, [.obj (.viewDense .vec) .s true, .obj .dense .s true, .obj (.viewDense .ten) .s false], .mat_matsub, [0, 1, 2]⟩,
  ⟨.blas_matsub, [.obj (.viewDense .vec) .s true, .obj (.viewDense .vec) .s true, .obj .dense .s false], .mat_matsub, [0, 1, 2]⟩,
  ⟨.blas_matsub, [.obj (.viewDense .vec) .s true, .obj (.viewDense .vec) .s true, .obj (.viewDense .vec) .s false], .mat_matsub, [0, 1, 2]⟩,
  ⟨.blas_matsub, [.obj (.viewDense .vec) .s true, .obj (.viewDense .vec) .s true, .obj (.viewDense .mat) .s false], .mat_matsub, [0, 1, 2]⟩,
  ⟨.blas_matsub, [.obj (.viewDense .vec) .s true, .obj (.viewDense .vec) .s true, .obj (.viewDense .ten) .s false], .mat_matsub, [0, 1, 2]⟩,
  ⟨.blas_matsub, [.obj (.viewDense .vec) .s true, .obj (.viewDense .mat) .s true, .obj .dense .s false], .mat_matsub, [0, 1, 2]⟩,
  ⟨.blas_matsub, [.obj (.viewDense .vec) .s true, .obj (.viewDense .mat) .s true, .obj (.viewDense .vec) .s false], .mat_matsub, [0, 1, 2]⟩,
  ⟨.blas_matsub, [.obj (.viewDense .vec) .s true, .obj (.viewDense .mat) .s true, .obj (.viewDense .mat) .s false], .mat_matsub, [0, 1, 2]⟩,
  ⟨.blas_matsub, [.obj (.viewDense .vec) .s true, .obj (.viewDense .mat) .s true, .obj (.viewDense .ten) .s false], .mat_matsub, [0, 1, 2]⟩,
  ⟨.blas_matsub, [.obj (.viewDense .vec) .s true, .obj (.viewDense .ten) .s true, .obj .dense .s false], .mat_matsub, [0, 1, 2]⟩,
  ⟨.blas_matsub, [.obj (.viewDense .vec) .s true, .obj (.viewDense .ten) .s true, .obj (.viewDense .vec) .s false], .mat_matsub, [0, 1, 2]⟩,
  ⟨.blas_matsub, [.obj (.viewDense .vec) .s true, .obj (.viewDense .ten) .s true, .obj (.viewDense .mat) .s false], .mat_matsub, [0, 1, 2]⟩,
  ⟨.blas_matsub, [.obj (.viewDense .vec) .s true, .obj (.viewDense .ten) .s true, .obj (.viewDense .ten) .s false], .mat_matsub, [0, 1, 2]⟩,
  ⟨.blas_matsub, [.obj (.viewDense .mat) .s true, .obj .dense .s true, .obj .dense .s false], .mat_matsub, [0, 1, 2]⟩,
  ⟨.blas_matsub, [.obj (.viewDense .mat) .s true, .obj .dense .s true, .obj (.viewDense .vec) .s false], .mat_matsub, [0, 1, 2]⟩,
  ⟨.blas_matsub, [.obj (.viewDense .mat) .s true, .obj .dense .s true, .obj (.viewDense .mat) .s false], .mat_matsub, [0, 1, 2]⟩,
  ⟨.blas_matsub, [.obj (.viewDense .mat) .s true, .obj .dense .s true, .obj (.viewDense .ten) .s false], .mat_matsub, [0, 1, 2]⟩,
  ⟨.blas_matsub, [.obj (.viewDense .mat) .s true, .obj (.viewDense .vec) .s true, .obj .dense .s false], .mat_matsub, [0, 1, 2]⟩,
  ⟨.blas_matsub, [.obj (.viewDense .mat) .s true, .obj (.viewDense .vec) .s true, .obj (.viewDense .vec) .s false], .mat_matsub, [0, 1, 2]⟩,
  ⟨.blas_matsub, [.obj (.viewDense .mat) .s true, .obj (.viewDense .vec) .s true, .obj (.viewDense .mat) .s false], .mat_matsub, [0, 1, 2]⟩,
  ⟨.blas_matsub, [.obj (.viewDense .mat) .s true, .obj (.viewDense .vec) .s true, .obj (.viewDense .ten) .s false], .mat_matsub, [0, 1, 2]⟩,
  ⟨.blas_matsub, [.obj (.viewDense .mat) .s true, .obj (.viewDense .mat) .s true, .obj .dense .s false], .mat_matsub, [0, 1, 2]⟩,
  ⟨.blas_matsub, [.obj (.viewDense .mat) .s true, .obj (.viewDense .mat) .s true, .obj (.viewDense .vec) .s false], .mat_matsub, [0, 1, 2]⟩,
  ⟨.blas_matsub, [.obj (.viewDense .mat) .s true, .obj (.viewDense .mat) .s true, .obj (.viewDense .mat) .s false], .mat_matsub, [0, 1, 2]⟩,
  ⟨.blas_matsub, [.obj (.viewDense .mat) .s true, .obj (.viewDense .mat) .s true, .obj (.viewDense .ten) .s false], .mat_matsub, [0, 1, 2]⟩,
  ⟨.blas_matsub, [.obj (.viewDense .mat) .s true, .obj (.viewDense .ten) .s true, .obj .dense .s false], .mat_matsub, [0, 1, 2]⟩,
  ⟨.blas_matsub, [.obj (.viewDense .mat) .s true, .obj (.viewDense .ten) .s true, .obj (.viewDense .vec) .s false], .mat_matsub, [0, 1, 2]⟩]

/-- src/blas/matrix/mataddsub/mataddsub.cpp:1192-1289 -/
def tBlasMatAddSub_3 : List Overload := [
  ⟨.blas_matsub, [.obj (.viewDense .mat) .s true, .obj (.viewDense .ten) .s true, .obj (.viewDense .mat) .s false], .mat_matsub, [0, 1, 2]⟩,
  ⟨.blas_matsub, [.obj (.viewDense .mat) .s true, .obj (.viewDense .ten) .s true, .obj (.viewDense .ten) .s false], .mat_matsub, [0, 1, 2]⟩,
  ⟨.blas_matsub, [.obj (.viewDense .ten) .s true, .obj .dense .s true, .obj .dense .s false], .mat_matsub, [0, 1, 2]⟩,
  ⟨.blas_matsub, [.obj (.viewDense .ten) .s true, .obj .dense .s true, .obj (.viewDense .vec) .s false], .mat_matsub, [0, 1, 2]⟩,
  ⟨.blas_matsub, [.obj (.viewDense .ten) .s true, .obj .dense .s true, .obj (.viewDense .mat) .s false], .mat_matsub, [0, 1, 2]⟩,
  ⟨.blas_matsub, [.obj (.viewDense .ten) .s true, .obj .dense .s true, .obj (.viewDense .ten) .s false], .mat_matsub, [0, 1, 2]⟩,
  ⟨.blas_matsub, [.obj (.viewDense .ten) .s true, .obj (.viewDense .vec) .s true, .obj .dense .s false], .mat_matsub, [0, 1, 2]⟩,
  ⟨.blas_matsub, [.obj (.viewDense .ten) .s true, .obj (.viewDense .vec) .s true, .obj (.viewDense .vec) .s false], .mat_matsub, [0, 1, 2]⟩,
  ⟨.blas_matsub, [.obj (.viewDense .ten) .s true, .obj (.viewDense .vec) .s true, .obj (.viewDense .mat) .s false], .mat_matsub, [0, 1, 2]⟩,
  ⟨.blas_matsub, [.obj (.viewDense .ten) .s true, .obj (.viewDense .vec) .s true, .obj (.viewDense .ten) .s false], .mat_matsub, [0, 1, 2]⟩,
  ⟨.blas_matsub, [.obj (.viewDense .ten) .s true, .obj (.viewDense .mat) .s true, .obj .dense .s false], .mat_matsub, [0, 1, 2]⟩,
  ⟨.blas_matsub, [.obj (.viewDense .ten) .s true, .obj (.viewDense .mat) .s true, .obj (.viewDense .vec) .s false], .mat_matsub, [0, 1, 2]⟩,
  ⟨.blas_matsub, [.obj (.viewDense .ten) .s true, .obj (.viewDense .mat) .s true, .obj (.viewDense .mat) .s false], .mat_matsub, [0, 1, 2]⟩,
  ⟨.blas_matsub, [.obj (.viewDense .ten) .s true, .obj (.viewDense .mat) .s true, .obj (.viewDense .ten) .s false], .mat_matsub, [0, 1, 2]⟩,
  ⟨.blas_matsub, [.obj (.viewDense .ten) .s true, .obj (.viewDense .ten) .s true, .obj .dense .s false], .mat_matsub, [0, 1, 2]⟩,
  ⟨.blas_matsub, [.obj (.viewDense .ten) .s true, .obj (.viewDense .ten) .s true, .obj (.viewDense .vec) .s false], .mat_matsub, [0, 1, 2]⟩,
  ⟨.blas_matsub, [.obj (.viewDense .ten) .s true, .obj (.viewDense .ten) .s true, .obj (.viewDense .mat) .s false], .mat_matsub, [0, 1, 2]⟩,
  ⟨.blas_matsub, [.obj (.viewDense .ten) .s true, .obj (.viewDense .ten) .s true, .obj (.viewDense .ten) .s false], .mat_matsub, [0, 1, 2]⟩,
  ⟨.blas_matsub, [.obj .crs .d true, .obj .crs .d true, .obj .crs .d false], .mat_matsub, [0, 1, 2]⟩,
  ⟨.blas_matsub, [.obj .crs .s true, .obj .crs .s true, .obj .crs .s false], .mat_matsub, [0, 1, 2]⟩]

/-- the element-wise overloads of src/blas/matrix/mataddsub/mataddsub.cpp (260 of them) -/
def tBlasMatAddSub : List (List Overload) :=
  [tBlasMatAddSub_0, tBlasMatAddSub_1, tBlasMatAddSub_2, tBlasMatAddSub_3]

/-- src/blas/matrix/times/times.cpp:9-156 -/
def tBlasMatTimes_0 : List Overload := [
  ⟨.blas_times, [.scal .d, .obj .dense .d true, .obj .dense .d false], .mat_times, [0, 1, 2]⟩,
  ⟨.blas_times, [.scal .d, .obj .dense .d true, .obj (.viewDense .vec) .d false], .mat_times, [0, 1, 2]⟩,
  ⟨.blas_times, [.scal .d, .obj .dense .d true, .obj (.viewDense .mat) .d false], .mat_times, [0, 1, 2]⟩,
  ⟨.blas_times, [.scal .d, .obj .dense .d true, .obj (.viewDense .ten) .d false], .mat_times, [0, 1, 2]⟩,
  ⟨.blas_times, [.scal .d, .obj (.viewDense .vec) .d true, .obj .dense .d false], .mat_times, [0, 1, 2]⟩,
  ⟨.blas_times, [.scal .d, .obj (.viewDense .vec) .d true, .obj (.viewDense .vec) .d false], .mat_times, [0, 1, 2]⟩,
  ⟨.blas_times, [.scal .d, .obj (.viewDense .vec) .d true, .obj (.viewDense .mat) .d false], .mat_times, [0, 1, 2]⟩,
  ⟨.blas_times, [.scal .d, .obj (.viewDense .vec) .d true, .obj (.viewDense .ten) .d false], .mat_times, [0, 1, 2]⟩,
  ⟨.blas_times, [.scal .d, .obj (.viewDense .mat) .d true, .obj .dense .d false], .mat_times, [0, 1, 2]⟩,
  ⟨.blas_times, [.scal .d, .obj (.viewDense .mat) .d true, .obj (.viewDense .vec) .d false], .mat_times, [0, 1, 2]⟩,
  ⟨.blas_times, [.scal .d, .obj (.viewDense .mat) .d true, .obj (.viewDense .mat) .d false], .mat_times, [0, 1, 2]⟩,
  ⟨.blas_times, [.scal .d, .obj (.viewDense .mat) .d true, .obj (.viewDense .ten) .d false], .mat_times, [0, 1, 2]⟩,
  ⟨.blas_times, [.scal .d, .obj (.viewDense .ten) .d true, .obj .dense .d false], .mat_times, [0, 1, 2]⟩,
  ⟨.blas_times, [.scal .d, .obj (.viewDense .ten) .d true, .obj (.viewDense .vec) .d false], .mat_times, [0, 1, 2]⟩,
  ⟨.blas_times, [.scal .d, .obj (.viewDense .ten) .d true, .obj (.viewDense .mat) .d false], .mat_times, [0, 1, 2]⟩,
  ⟨.blas_times, [.scal .d, .obj (.viewDense .ten) .d true, .obj (.viewDense .ten) .d false], .mat_times, [0, 1, 2]⟩,
  ⟨.blas_times, [.scal .d, .obj .crs .d true, .obj .crs .d false], .mat_times, [0, 1, 2]⟩,
  ⟨.blas_times, [.scal .s, .obj .dense .s true, .obj .dense .s false], .mat_times, [0, 1, 2]⟩,
  ⟨.blas_times, [.scal .s, .obj .dense .s true, .obj (.viewDense .vec) .s false], .mat_times, [0, 1, 2]⟩,
  ⟨.blas_times, [.scal .s, .obj .dense .s true, .obj (.viewDense .mat) .s false], .mat_times, [0, 1, 2]⟩,
  ⟨.blas_times, [.scal .s, .obj .dense .s true, .obj (.viewDense .ten) .s false], .mat_times, [0, 1, 2]⟩,
  ⟨.blas_times, [.scal .s, .obj (.viewDense .vec) .s true, .obj .dense .s false], .mat_times, [0, 1, 2]⟩,
  ⟨.blas_times, [.scal .s, .obj (.viewDense .vec) .s true, .obj (.viewDense .vec) .s false], .mat_times, [0, 1, 2]⟩,
  ⟨.blas_times, [.scal .s, .obj (.viewDense .vec) .s true, .obj (.viewDense .mat) .s false], .mat_times, [0, 1, 2]⟩,
  ⟨.blas_times, [.scal .s, .obj (.viewDense .vec) .s true, .obj (.viewDense .ten) .s false], .mat_times, [0, 1, 2]⟩,
  ⟨.blas_times, [.scal .s, .obj (.viewDense .mat) .s true, .obj .dense .s false], .mat_times, [0, 1, 2]⟩,
  ⟨.blas_times, [.scal .s, .obj (.viewDense .mat) .s true, .obj (.viewDense .vec) .s false], .mat_times, [0, 1, 2]⟩,
  ⟨.blas_times, [.scal .s, .obj (.viewDense .mat) .s true, .obj (.viewDense .mat) .s false], .mat_times, [0, 1, 2]⟩,
  ⟨.blas_times, [.scal .s, .obj (.viewDense .mat) .s true, .obj (.viewDense .ten) .s false], .mat_times, [0, 1, 2]⟩,
  ⟨.blas_times, [.scal .s, .obj (.viewDense .ten) .s true, .obj .dense .s false], .mat_times, [0, 1, 2]⟩,
  ⟨.blas_times, [.scal .s, .obj (.viewDense .ten) .s true, .obj (.viewDense .vec) .s false], .mat_times, [0, 1, 2]⟩,
  ⟨.blas_times, [.scal .s, .obj (.viewDense .ten) .s true, .obj (.viewDense .mat) .s false], .mat_times, [0, 1, 2]⟩,
  ⟨.blas_times, [.scal .s, .obj (.viewDense .ten) .s true, .obj (.viewDense .ten) .s false], .mat_times, [0, 1, 2]⟩,
  ⟨.blas_times, [.scal .s, .obj .crs .s true, .obj .crs .s false], .mat_times, [0, 1, 2]⟩]

/-- the element-wise overloads of src/blas/matrix/times/times.cpp (34 of them) -/
def tBlasMatTimes : List (List Overload) :=
  [tBlasMatTimes_0]

/-- src/blas/matrix/adds/adds.cpp:7-146 -/
def tBlasMatAdds_0 : List Overload := [
  ⟨.blas_adds, [.scal .d, .obj .dense .d true, .obj .dense .d false], .mat_adds, [0, 1, 2]⟩,
  ⟨.blas_adds, [.scal .d, .obj .dense .d true, .obj (.viewDense .vec) .d false], .mat_adds, [0, 1, 2]⟩,
  ⟨.blas_adds, [.scal .d, .obj .dense .d true, .obj (.viewDense .mat) .d false], .mat_adds, [0, 1, 2]⟩,
  ⟨.blas_adds, [.scal .d, .obj .dense .d true, .obj (.viewDense .ten) .d false], .mat_adds, [0, 1, 2]⟩,
  ⟨.blas_adds, [.scal .d, .obj (.viewDense .vec) .d true, .obj .dense .d false], .mat_adds, [0, 1, 2]⟩,
  ⟨.blas_adds, [.scal .d, .obj (.viewDense .vec) .d true, .obj (.viewDense .vec) .d false], .mat_adds, [0, 1, 2]⟩,
  ⟨.blas_adds, [.scal .d, .obj (.viewDense .vec) .d true, .obj (.viewDense .mat) .d false], .mat_adds, [0, 1, 2]⟩,
  ⟨.blas_adds, [.scal .d, .obj (.viewDense .vec) .d true, .obj (.viewDense .ten) .d false], .mat_adds, [0, 1, 2]⟩,
  ⟨.blas_adds, [.scal .d, .obj (.viewDense .mat) .d true, .obj .dense .d false], .mat_adds, [0, 1, 2]⟩,
  ⟨.blas_adds, [.scal .d, .obj (.viewDense .mat) .d true, .obj (.viewDense .vec) .d false], .mat_adds, [0, 1, 2]⟩,
  ⟨.blas_adds, [.scal .d, .obj (.viewDense .mat) .d true, .obj (.viewDense .mat) .d false], .mat_adds, [0, 1, 2]⟩,
  ⟨.blas_adds, [.scal .d, .obj (.viewDense .mat) .d true, .obj (.viewDense .ten) .d false], .mat_adds, [0, 1, 2]⟩,
  ⟨.blas_adds, [.scal .d, .obj (.viewDense .ten) .d true, .obj .dense .d false], .mat_adds, [0, 1, 2]⟩,
  ⟨.blas_adds, [.scal .d, .obj (.viewDense .ten) .d true, .obj (.viewDense .vec) .d false], .mat_adds, [0, 1, 2]⟩,
  ⟨.blas_adds, [.scal .d, .obj (.viewDense .ten) .d true, .obj (.viewDense .mat) .d false], .mat_adds, [0, 1, 2]⟩,
  ⟨.blas_adds, [.scal .d, .obj (.viewDense .ten) .d true, .obj (.viewDense .ten) .d false], .mat_adds, [0, 1, 2]⟩,
  ⟨.blas_adds, [.scal .s, .obj .dense .s true, .obj .dense .s false], .mat_adds, [0, 1, 2]⟩,
  ⟨.blas_adds, [.scal .s, .obj .dense .s true, .obj (.viewDense .vec) .s false], .mat_adds, [0, 1, 2]⟩,
  ⟨.blas_adds, [.scal .s, .obj .dense .s true, .obj (.viewDense .mat) .s false], .mat_adds, [0, 1, 2]⟩,
  ⟨.blas_adds, [.scal .s, .obj .dense .s true, .obj (.viewDense .ten) .s false], .mat_adds, [0, 1, 2]⟩,
  ⟨.blas_adds, [.scal .s, .obj (.viewDense .vec) .s true, .obj .dense .s false], .mat_adds, [0, 1, 2]⟩,
  ⟨.blas_adds, [.scal .s, .obj (.viewDense .vec) .s true, .obj (.viewDense .vec) .s false], .mat_adds, [0, 1, 2]⟩,
  ⟨.blas_adds, [.scal .s, .obj (.viewDense .vec) .s true, .obj (.viewDense .mat) .s false], .mat_adds, [0, 1, 2]⟩,
  ⟨.blas_adds, [.scal .s, .obj (.viewDense .vec) .s true, .obj (.viewDense .ten) .s false], .mat_adds, [0, 1, 2]⟩,
  ⟨.blas_adds, [.scal .s, .obj (.viewDense .mat) .s true, .obj .dense .s false], .mat_adds, [0, 1, 2]⟩,
  ⟨.blas_adds, [.scal .s, .obj (.viewDense .mat) .s true, .obj (.viewDense .vec) .s false], .mat_adds, [0, 1, 2]⟩,
  ⟨.blas_adds, [.scal .s, .obj (.viewDense .mat) .s true, .obj (.viewDense .mat) .s false], .mat_adds, [0, 1, 2]⟩,
  ⟨.blas_adds, [.scal .s, .obj (.viewDense .mat) .s true, .obj (.viewDense .ten) .s false], .mat_adds, [0, 1, 2]⟩,
  ⟨.blas_adds, [.scal .s, .obj (.viewDense .ten) .s true, .obj .dense .s false], .mat_adds, [0, 1, 2]⟩,
  ⟨.blas_adds, [.scal .s, .obj (.viewDense .ten) .s true, .obj (.viewDense .vec) .s false], .mat_adds, [0, 1, 2]⟩,
  ⟨.blas_adds, [.scal .s, .obj (.viewDense .ten) .s true, .obj (.viewDense .mat) .s false], .mat_adds, [0, 1, 2]⟩,
  ⟨.blas_adds, [.scal .s, .obj (.viewDense .ten) .s true, .obj (.viewDense .ten) .s false], .mat_adds, [0, 1, 2]⟩]

/-- the element-wise overloads of src/blas/matrix/adds/adds.cpp (32 of them) -/
def tBlasMatAdds : List (List Overload) :=
  [tBlasMatAdds_0]

/-- src/blas/matrix/scal/scal.cpp:7-33 -/
def tBlasMatScal_0 : List Overload := [
  ⟨.blas_mscal, [.scal .d, .obj .dense .d false], .mat_mscal, [0, 1]⟩,
  ⟨.blas_mscal, [.scal .d, .obj (.viewDense .vec) .d false], .mat_mscal, [0, 1]⟩,
  ⟨.blas_mscal, [.scal .d, .obj (.viewDense .mat) .d false], .mat_mscal, [0, 1]⟩,
  ⟨.blas_mscal, [.scal .d, .obj (.viewDense .ten) .d false], .mat_mscal, [0, 1]⟩,
  ⟨.blas_mscal, [.scal .s, .obj .dense .s false], .mat_mscal, [0, 1]⟩,
  ⟨.blas_mscal, [.scal .s, .obj (.viewDense .vec) .s false], .mat_mscal, [0, 1]⟩,
  ⟨.blas_mscal, [.scal .s, .obj (.viewDense .mat) .s false], .mat_mscal, [0, 1]⟩,
  ⟨.blas_mscal, [.scal .s, .obj (.viewDense .ten) .s false], .mat_mscal, [0, 1]⟩,
  ⟨.blas_mscal, [.scal .d, .obj .crs .d false], .mat_mscal, [0, 1]⟩,
  ⟨.blas_mscal, [.scal .s, .obj .crs .s false], .mat_mscal, [0, 1]⟩]

/-- the element-wise overloads of src/blas/matrix/scal/scal.cpp (10 of them) -/
def tBlasMatScal : List (List Overload) :=
  [tBlasMatScal_0]

/-- src/blas/matrix/copy/copy.cpp:8-138 -/
def tBlasMatCopy_0 : List Overload := [
  ⟨.blas_copy, [.obj .dense .d true, .obj .dense .d false], .mat_copy, [0, 1]⟩,
  ⟨.blas_copy, [.obj .dense .d true, .obj (.viewDense .vec) .d false], .mat_copy, [0, 1]⟩,
  ⟨.blas_copy, [.obj .dense .d true, .obj (.viewDense .mat) .d false], .mat_copy, [0, 1]⟩,
  ⟨.blas_copy, [.obj .dense .d true, .obj (.viewDense .ten) .d false], .mat_copy, [0, 1]⟩,
  ⟨.blas_copy, [.obj (.viewDense .vec) .d true, .obj .dense .d false], .mat_copy, [0, 1]⟩,
  ⟨.blas_copy, [.obj (.viewDense .vec) .d true, .obj (.viewDense .vec) .d false], .mat_copy, [0, 1]⟩,
  ⟨.blas_copy, [.obj (.viewDense .vec) .d true, .obj (.viewDense .mat) .d false], .mat_copy, [0, 1]⟩,
  ⟨.blas_copy, [.obj (.viewDense .vec) .d true, .obj (.viewDense .ten) .d false], .mat_copy, [0, 1]⟩,
  ⟨.blas_copy, [.obj (.viewDense .mat) .d true, .obj .dense .d false], .mat_copy, [0, 1]⟩,
  ⟨.blas_copy, [.obj (.viewDense .mat) .d true, .obj (.viewDense .vec) .d false], .mat_copy, [0, 1]⟩,
  ⟨.blas_copy, [.obj (.viewDense .mat) .d true, .obj (.viewDense .mat) .d false], .mat_copy, [0, 1]⟩,
  ⟨.blas_copy, [.obj (.viewDense .mat) .d true, .obj (.viewDense .ten) .d false], .mat_copy, [0, 1]⟩,
  ⟨.blas_copy, [.obj (.viewDense .ten) .d true, .obj .dense .d false], .mat_copy, [0, 1]⟩,
  ⟨.blas_copy, [.obj (.viewDense .ten) .d true, .obj (.viewDense .vec) .d false], .mat_copy, [0, 1]⟩,
  ⟨.blas_copy, [.obj (.viewDense .ten) .d true, .obj (.viewDense .mat) .d false], .mat_copy, [0, 1]⟩,
  ⟨.blas_copy, [.obj (.viewDense .ten) .d true, .obj (.viewDense .ten) .d false], .mat_copy, [0, 1]⟩,
  ⟨.blas_copy, [.obj .dense .s true, .obj .dense .s false], .mat_copy, [0, 1]⟩,
  ⟨.blas_copy, [.obj .dense .s true, .obj (.viewDense .vec) .s false], .mat_copy, [0, 1]⟩,
  ⟨.blas_copy, [.obj .dense .s true, .obj (.viewDense .mat) .s false], .mat_copy, [0, 1]⟩,
  ⟨.blas_copy, [.obj .dense .s true, .obj (.viewDense .ten) .s false], .mat_copy, [0, 1]⟩,
  ⟨.blas_copy, [.obj (.viewDense .vec) .s true, .obj .dense .s false], .mat_copy, [0, 1]⟩,
  ⟨.blas_copy, [.obj (.viewDense .vec) .s true, .obj (.viewDense .vec) .s false], .mat_copy, [0, 1]⟩,
  ⟨.blas_copy, [.obj (.viewDense .vec) .s true, .obj (.viewDense .mat) .s false], .mat_copy, [0, 1]⟩,
  ⟨.blas_copy, [.obj (.viewDense .vec) .s true, .obj (.viewDense .ten) .s false], .mat_copy, [0, 1]⟩,
  ⟨.blas_copy, [.obj (.viewDense .mat) .s true, .obj .dense .s false], .mat_copy, [0, 1]⟩,
  ⟨.blas_copy, [.obj (.viewDense .mat) .s true, .obj (.viewDense .vec) .s false], .mat_copy, [0, 1]⟩,
  ⟨.blas_copy, [.obj (.viewDense .mat) .s true, .obj (.viewDense .mat) .s false], .mat_copy, [0, 1]⟩,
  ⟨.blas_copy, [.obj (.viewDense .mat) .s true, .obj (.viewDense .ten) .s false], .mat_copy, [0, 1]⟩,
  ⟨.blas_copy, [.obj (.viewDense .ten) .s true, .obj .dense .s false], .mat_copy, [0, 1]⟩,
  ⟨.blas_copy, [.obj (.viewDense .ten) .s true, .obj (.viewDense .vec) .s false], .mat_copy, [0, 1]⟩,
  ⟨.blas_copy, [.obj (.viewDense .ten) .s true, .obj (.viewDense .mat) .s false], .mat_copy, [0, 1]⟩,
  ⟨.blas_copy, [.obj (.viewDense .ten) .s true, .obj (.viewDense .ten) .s false], .mat_copy, [0, 1]⟩,
  ⟨.blas_copy, [.obj .crs .d true, .obj .crs .d false], .mat_copy, [0, 1]⟩,
  ⟨.blas_copy, [.obj .crs .s true, .obj .crs .s false], .mat_copy, [0, 1]⟩]

/-- the element-wise overloads of src/blas/matrix/copy/copy.cpp (34 of them) -/
def tBlasMatCopy : List (List Overload) :=
  [tBlasMatCopy_0]

/-- src/blas/tensor/tensaddsub/tensaddsub.cpp:7-406 -/
def tBlasTenAddSub_0 : List Overload := [
  ⟨.blas_tensadd, [.obj .tdense .d true, .obj .tdense .d true, .obj .tdense .d false], .ten_tensadd, [0, 1, 2]⟩,
  ⟨.blas_tensadd, [.obj .tdense .d true, .obj .tdense .d true, .obj (.viewTDense .vec) .d false], .ten_tensadd, [0, 1, 2]⟩,
  ⟨.blas_tensadd, [.obj .tdense .d true, .obj .tdense .d true, .obj (.viewTDense .mat) .d false], .ten_tensadd, [0, 1, 2]⟩,
  ⟨.blas_tensadd, [.obj .tdense .d true, .obj .tdense .d true, .obj (.viewTDense .ten) .d false], .ten_tensadd, [0, 1, 2]⟩,
  ⟨.blas_tensadd, [.obj .tdense .d true, .obj (.viewTDense .vec) .d true, .obj .tdense .d false], .ten_tensadd, [0, 1, 2]⟩,
  ⟨.blas_tensadd, [.obj .tdense .d true, .obj (.viewTDense .vec) .d true, .obj (.viewTDense .vec) .d false], .ten_tensadd, [0, 1, 2]⟩,
  ⟨.blas_tensadd, [.obj .tdense .d true, .obj (.viewTDense .vec) .d true, .obj (.viewTDense .mat) .d false], .ten_tensadd, [0, 1, 2]⟩,
  ⟨.blas_tensadd, [.obj .tdense .d true, .obj (.viewTDense .vec) .d true, .obj (.viewTDense .ten) .d false], .ten_tensadd, [0, 1, 2]⟩,
  ⟨.blas_tensadd, [.obj .tdense .d true, .obj (.viewTDense .mat) .d true, .obj .tdense .d false], .ten_tensadd, [0, 1, 2]⟩,
  ⟨.blas_tensadd, [.obj .tdense .d true, .obj (.viewTDense .mat) .d true, .obj (.viewTDense .vec) .d false], .ten_tensadd, [0, 1, 2]⟩,
  ⟨.blas_tensadd, [.obj .tdense .d true, .obj (.viewTDense .mat) .d true, .obj (.viewTDense .mat) .d false], .ten_tensadd, [0, 1, 2]⟩,
  ⟨.blas_tensadd, [.obj .tdense .d true, .obj (.viewTDense .mat) .d true, .obj (.viewTDense .ten) .d false], .ten_tensadd, [0, 1, 2]⟩,
  ⟨.blas_tensadd, [.obj .tdense .d true, .obj (.viewTDense .ten) .d true, .obj .tdense .d false], .ten_tensadd, [0, 1, 2]⟩,
  ⟨.blas_tensadd, [.obj .tdense .d true, .obj (.viewTDense .ten) .d true, .obj (.viewTDense .vec) .d false], .ten_tensadd, [0, 1, 2]⟩,
  ⟨.blas_tensadd, [.obj .tdense .d true, .obj (.viewTDense .ten) .d true, .obj (.viewTDense .mat) .d false], .ten_tensadd, [0, 1, 2]⟩,
  ⟨.blas_tensadd, [.obj .tdense .d true, .obj (.viewTDense .ten) .d true, .obj (.viewTDense .ten) .d false], .ten_tensadd, [0, 1, 2]⟩,
  ⟨.blas_tensadd, [.obj (.viewTDense .vec) .d true, .obj .tdense .d true, .obj .tdense .d false], .ten_tensadd, [0, 1, 2]⟩,
  ⟨.blas_tensadd, [.obj (.viewTDense .vec) .d true, .obj .tdense .d true, .obj (.viewTDense .vec) .d false], .ten_tensadd, [0, 1, 2]⟩,
  ⟨.blas_tensadd, [.obj (.viewTDense .vec) .d true, .obj .tdense .d true, .obj (.viewTDense .mat) .d false], .ten_tensadd, [0, 1, 2]⟩,
  ⟨.blas_tensadd, [.obj (.viewTDense .vec) .d true, .obj .tdense .d true, .obj (.viewTDense .ten) .d false], .ten_tensadd, [0, 1, 2]⟩,
  ⟨.blas_tensadd, [.obj (.viewTDense .vec) .d true, .obj (.viewTDense .vec) .d true, .obj .tdense .d false], .ten_tensadd, [0, 1, 2]⟩,
  ⟨.blas_tensadd, [.obj (.viewTDense .vec) .d true, .obj (.viewTDense .vec) .d true, .obj (.viewTDense .vec) .d false], .ten_tensadd, [0, 1, 2]⟩,
  ⟨.blas_tensadd, [.obj (.viewTDense .vec) .d true, .obj (.viewTDense .vec) .d true, .obj (.viewTDense .mat) .d false], .ten_tensadd, [0, 1, 2]⟩,
  ⟨.blas_tensadd, [.obj (.viewTDense .vec) .d true, .obj (.viewTDense .vec) .d true, .obj (.viewTDense .ten) .d false], .ten_tensadd, [0, 1, 2]⟩,
  ⟨.blas_tensadd, [.obj (.viewTDense .vec) .d true, .obj (.viewTDense .mat) .d true, .obj .tdense .d false], .ten_tensadd, [0, 1, 2]⟩,
  ⟨.blas_tensadd, [.obj (.viewTDense .vec) .d true, .obj (.viewTDense .mat) .d true, .obj (.viewTDense .vec) .d false], .ten_tensadd, [0, 1, 2]⟩,
  ⟨.blas_tensadd, [.obj (.viewTDense .vec) .d true, .obj (.viewTDense .mat) .d true, .obj (.viewTDense .mat) .d false], .ten_tensadd, [0, 1, 2]⟩,
  ⟨.blas_tensadd, [.obj (.viewTDense .vec) .d true, .obj (.viewTDense .mat) .d true, .obj (.viewTDense .ten) .d false], .ten_tensadd, [0, 1, 2]⟩,
  ⟨.blas_tensadd, [.obj (.viewTDense .vec) .d true, .obj (.viewTDense .ten) .d true, .obj .tdense .d false], .ten_tensadd, [0, 1, 2]⟩,
  ⟨.blas_tensadd, [.obj (.viewTDense .vec) .d true, .obj (.viewTDense .ten) .d true, .obj (.viewTDense .vec) .d false], .ten_tensadd, [0, 1, 2]⟩,
  ⟨.blas_tensadd, [.obj (.viewTDense .vec) .d true, .obj (.viewTDense .ten) .d true, .obj (.viewTDense .mat) .d false], .ten_tensadd, [0, 1, 2]⟩,
  ⟨.blas_tensadd, [.obj (.viewTDense .vec) .d true, .obj (.viewTDense .ten) .d true, .obj (.viewTDense .ten) .d false], .ten_tensadd, [0, 1, 2]⟩,
  ⟨.blas_tensadd, [.obj (.viewTDense .mat) .d true, .obj .tdense .d true, .obj .tdense .d false], .ten_tensadd, [0, 1, 2]⟩,
  ⟨.blas_tensadd, [.obj (.viewTDense .mat) .d true, .obj .tdense .d true, .obj (.viewTDense .vec) .d false], .ten_tensadd, [0, 1, 2]⟩,
  ⟨.blas_tensadd, [.obj (.viewTDense .mat) .d true, .obj .tdense .d true, .obj (.viewTDense .mat) .d false], .ten_tensadd, [0, 1, 2]⟩,
  ⟨.blas_tensadd, [.obj (.viewTDense .mat) .d true, .obj .tdense .d true, .obj (.viewTDense .ten) .d false], .ten_tensadd, [0, 1, 2]⟩,
  ⟨.blas_tensadd, [.obj (.viewTDense .mat) .d true, .obj (.viewTDense .vec) .d true, .obj .tdense .d false], .ten_tensadd, [0, 1, 2]⟩,
  ⟨.blas_tensadd, [.obj (.viewTDense .mat) .d true, .obj (.viewTDense .vec) .d true, .obj (.viewTDense .vec) .d false], .ten_tensadd, [0, 1, 2]⟩,
  ⟨.blas_tensadd, [.obj (.viewTDense .mat) .d true, .obj (.viewTDense .vec) .d true, .obj (.viewTDense .mat) .d false], .ten_tensadd, [0, 1, 2]⟩,
  ⟨.blas_tensadd, [.obj (.viewTDense .mat) .d true, .obj (.viewTDense .vec) .d true, .obj (.viewTDense .ten) .d false], .ten_tensadd, [0, 1, 2]⟩,
  ⟨.blas_tensadd, [.obj (.viewTDense .mat) .d true, .obj (.viewTDense .mat) .d true, .obj .tdense .d false], .ten_tensadd, [0, 1, 2]⟩,
  ⟨.blas_tensadd, [.obj (.viewTDense .mat) .d true, .obj (.viewTDense .mat) .d true, .obj (.viewTDense .vec) .d false], .ten_tensadd, [0, 1, 2]⟩,
  ⟨.blas_tensadd, [.obj (.viewTDense .mat) .d true, .obj (.viewTDense .mat) .d true, .obj (.viewTDense .mat) .d false], .ten_tensadd, [0, 1, 2]⟩,
  ⟨.blas_tensadd, [.obj (.viewTDense .mat) .d true, .obj (.viewTDense .mat) .d true, .obj (.viewTDense .ten) .d false], .ten_tensadd, [0, 1, 2]⟩,
  ⟨.blas_tensadd, [.obj (.viewTDense .mat) .d true, .obj (.viewTDense .ten) .d true, .obj .tdense .d false], .ten_tensadd, [0, 1, 2]⟩,
  ⟨.blas_tensadd, [.obj (.viewTDense .mat) .d true, .obj (.viewTDense .ten) .d true, .obj (.viewTDense .vec) .d false], .ten_tensadd, [0, 1, 2]⟩,
  ⟨.blas_tensadd, [.obj (.viewTDense .mat) .d true, .obj (.viewTDense .ten) .d true, .obj (.viewTDense .mat) .d false], .ten_tensadd, [0, 1, 2]⟩,
  ⟨.blas_tensadd, [.obj (.viewTDense .mat) .d true, .obj (.viewTDense .ten) .d true, .obj (.viewTDense .ten) .d false], .ten_tensadd, [0, 1, 2]⟩,
  ⟨.blas_tensadd, [.obj (.viewTDense .ten) .d true, .obj .tdense .d true, .obj .tdense .d false], .ten_tensadd, [0, 1, 2]⟩,
  ⟨.blas_tensadd, [.obj (.viewTDense .ten) .d true, .obj .tdense .d true, .obj (.viewTDense .vec) .d false], .ten_tensadd, [0, 1, 2]⟩,
  ⟨.blas_tensadd, [.obj (.viewTDense .ten) .d true, .obj .tdense .d true, .obj (.viewTDense .mat) .d false], .ten_tensadd, [0, 1, 2]⟩,
  ⟨.blas_tensadd, [.obj (.viewTDense .ten) .d true, .obj .tdense .d true, .obj (.viewTDense .ten) .d false], .ten_tensadd, [0, 1, 2]⟩,
  ⟨.blas_tensadd, [.obj (.viewTDense .ten) .d true, .obj (.viewTDense .vec) .d true, .obj .tdense .d false], .ten_tensadd, [0, 1, 2]⟩,
  ⟨.blas_tensadd, [.obj (.viewTDense .ten) .d true, .obj (.viewTDense .vec) .d true, .obj (.viewTDense .vec) .d false], .ten_tensadd, [0, 1, 2]⟩,
  ⟨.blas_tensadd, [.obj (.viewTDense .ten) .d true, .obj (.viewTDense .vec) .d true, .obj (.viewTDense .mat) .d false], .ten_tensadd, [0, 1, 2]⟩,
  ⟨.blas_tensadd, [.obj (.viewTDense .ten) .d true, .obj (.viewTDense .vec) .d true, .obj (.viewTDense .ten) .d false], .ten_tensadd, [0, 1, 2]⟩,
  ⟨.blas_tensadd, [.obj (.viewTDense .ten) .d true, .obj (.viewTDense .mat) .d true, .obj .tdense .d false], .ten_tensadd, [0, 1, 2]⟩,
  ⟨.blas_tensadd, [.obj (.viewTDense .ten) .d true, .obj (.viewTDense .mat) .d true, .obj (.viewTDense .vec) .d false], .ten_tensadd, [0, 1, 2]⟩,
  ⟨.blas_tensadd, [.obj (.viewTDense .ten) .d true, .obj (.viewTDense .mat) .d true, .obj (.viewTDense .mat) .d false], .ten_tensadd, [0, 1, 2]⟩,
  ⟨.blas_tensadd, [.obj (.viewTDense .ten) .d true, .obj (.viewTDense .mat) .d true, .obj (.viewTDense .ten) .d false], .ten_tensadd, [0, 1, 2]⟩,
  ⟨.blas_tensadd, [.obj (.viewTDense .ten) .d true, .obj (.viewTDense .ten) .d true, .obj .tdense .d false], .ten_tensadd, [0, 1, 2]⟩,
  ⟨.blas_tensadd, [.obj (.viewTDense .ten) .d true, .obj (.viewTDense .ten) .d true, .obj (.viewTDense .vec) .d false], .ten_tensadd, [0, 1, 2]⟩,
  ⟨.blas_tensadd, [.obj (.viewTDense .ten) .d true, .obj (.viewTDense .ten) .d true, .obj (.viewTDense .mat) .d false], .ten_tensadd, [0, 1, 2]⟩,
  ⟨.blas_tensadd, [.obj (.viewTDense .ten) .d true, .obj (.viewTDense .ten) .d true, .obj (.viewTDense .ten) .d false], .ten_tensadd, [0, 1, 2]⟩,
  ⟨.blas_tensadd, [.obj .tdense .s true, .obj .tdense .s true, .obj .tdense .s false], .ten_tensadd, [0, 1, 2]⟩,
  ⟨.blas_tensadd, [.obj .tdense .s true, .obj .tdense .s true, .obj (.viewTDense .vec) .s false], .ten_tensadd, [0, 1, 2]⟩,
  ⟨.blas_tensadd, [.obj .tdense .s true, .obj .tdense .s true, .obj (.viewTDense .mat) .s false], .ten_tensadd, [0, 1, 2]⟩,
  ⟨.blas_tensadd, [.obj .tdense .s true, .obj .tdense .s true, .obj (.viewTDense .ten) .s false], .ten_tensadd, [0, 1, 2]⟩,
  ⟨.blas_tensadd, [.obj .tdense .s true, .obj (.viewTDense .vec) .s true, .obj .tdense .s false], .ten_tensadd, [0, 1, 2]⟩,
  ⟨.blas_tensadd, [.obj .tdense .s true, .obj (.viewTDense .vec) .s true, .obj (.viewTDense .vec) .s false], .ten_tensadd, [0, 1, 2]⟩,
  ⟨.blas_tensadd, [.obj .tdense .s true, .obj (.viewTDense .vec) .s true, .obj (.viewTDense .mat) .s false], .ten_tensadd, [0, 1, 2]⟩,
  ⟨.blas_tensadd, [.obj .tdense .s true, .obj (.viewTDense .vec) .s true, .obj (.viewTDense .ten) .s false], .ten_tensadd, [0, 1, 2]⟩,
  ⟨.blas_tensadd, [.obj .tdense .s true, .obj (.viewTDense .mat) .s true, .obj .tdense .s false], .ten_tensadd, [0, 1, 2]⟩,
  ⟨.blas_tensadd, [.obj .tdense .s true, .obj (.viewTDense .mat) .s true, .obj (.viewTDense .vec) .s false], .ten_tensadd, [0, 1, 2]⟩,
  ⟨.blas_tensadd, [.obj .tdense .s true, .obj (.viewTDense .mat) .s true, .obj (.viewTDense .mat) .s false], .ten_tensadd, [0, 1, 2]⟩,
  ⟨.blas_tensadd, [.obj .tdense .s true, .obj (.viewTDense .mat) .s true, .obj (.viewTDense .ten) .s false], .ten_tensadd, [0, 1, 2]⟩,
  ⟨.blas_tensadd, [.obj .tdense .s true, .obj (.viewTDense .ten) .s true, .obj .tdense .s false], .ten_tensadd, [0, 1, 2]⟩,
  ⟨.blas_tensadd, [.obj .tdense .s true, .obj (.viewTDense .ten) .s true, .obj (.viewTDense .vec) .s false], .ten_tensadd, [0, 1, 2]⟩,
  ⟨.blas_tensadd, [.obj .tdense .s true, .obj (.viewTDense .ten) .s true, .obj (.viewTDense .mat) .s false], .ten_tensadd, [0, 1, 2]⟩,
  ⟨.blas_tensadd, [.obj .tdense .s true, .obj (.viewTDense .ten) .s true, .obj (.viewTDense .ten) .s false], .ten_tensadd, [0, 1, 2]⟩]

/-- src/blas/tensor/tensaddsub/tensaddsub.cpp:407-807 -/
def tBlasTenAddSub_1 : List Overload := [
  ⟨.blas_tensadd, [.obj (.viewTDense .vec) .s true, .obj .tdense .s true, .obj .tdense .s false], .ten_tensadd, [0, 1, 2]⟩,
  ⟨.blas_tensadd, [.obj (.viewTDense .vec) .s true, .obj .tdense .s true, .obj (.viewTDense .vec) .s false], .ten_tensadd, [0, 1, 2]⟩,
  ⟨.blas_tensadd, [.obj (.viewTDense .vec) .s true, .obj .tdense .s true, .obj (.viewTDense .mat) .s false], .ten_tensadd, [0, 1, 2]⟩,
  ⟨.blas_tensadd, [.obj (.viewTDense .vec) .s true, .obj .tdense .s true, .obj (.viewTDense .ten) .s false], .ten_tensadd, [0, 1, 2]⟩,
  ⟨.blas_tensadd, [.obj (.viewTDense .vec) .s true, .obj (.viewTDense .vec) .s true, .obj .tdense .s false], .ten_tensadd, [0, 1, 2]⟩,
  ⟨.blas_tensadd, [.obj (.viewTDense .vec) .s true, .obj (.viewTDense .vec) .s true, .obj (.viewTDense .vec) .s false], .ten_tensadd, [0, 1, 2]⟩,
  ⟨.blas_tensadd, [.obj (.viewTDense .vec) .s true, .obj (.viewTDense .vec) .s true, .obj (.viewTDense .mat) .s false], .ten_tensadd, [0, 1, 2]⟩,
  ⟨.blas_tensadd, [.obj (.viewTDense .vec) .s true, .obj (.viewTDense .vec) .s true, .obj (.viewTDense .ten) .s false], .ten_tensadd, [0, 1, 2]⟩,
  ⟨.blas_tensadd, [.obj (.viewTDense .vec) .s true, .obj (.viewTDense .mat) .s true, .obj .tdense .s false], .ten_tensadd, [0, 1, 2]⟩,
  ⟨.blas_tensadd, [.obj (.viewTDense .vec) .s true, .obj (.viewTDense .mat) .s true, .obj (.viewTDense .vec) .s false], .ten_tensadd, [0, 1, 2]⟩,
  ⟨.blas_tensadd, [.obj (.viewTDense .vec) .s true, .obj (.viewTDense .mat) .s true, .obj (.viewTDense .mat) .s false], .ten_tensadd, [0, 1, 2]⟩,
  ⟨.blas_tensadd, [.obj (.viewTDense .vec) .s true, .obj (.viewTDense .mat) .s true, .obj (.viewTDense .ten) .s false], .ten_tensadd, [0, 1, 2]⟩,
  ⟨.blas_tensadd, [.obj (.viewTDense .vec) .s true, .obj (.viewTDense .ten) .s true, .obj .tdense .s false], .ten_tensadd, [0, 1, 2]⟩,
  ⟨.blas_tensadd, [.obj (.viewTDense .vec) .s true, .obj (.viewTDense .ten) .s true, .obj (.viewTDense .vec) .s false], .ten_tensadd, [0, 1, 2]⟩,
  ⟨.blas_tensadd, [.obj (.viewTDense .vec) .s true, .obj (.viewTDense .ten) .s true, .obj (.viewTDense .mat) .s false], .ten_tensadd, [0, 1, 2]⟩,
  ⟨.blas_tensadd, [.obj (.viewTDense .vec) .s true, .obj (.viewTDense .ten) .s true, .obj (.viewTDense .ten) .s false], .ten_tensadd, [0, 1, 2]⟩,
  ⟨.blas_tensadd, [.obj (.viewTDense .mat) .s true, .obj .tdense .s true, .obj .tdense .s false], .ten_tensadd, [0, 1, 2]⟩,
  ⟨.blas_tensadd, [.obj (.viewTDense .mat) .s true, .obj .tdense .s true, .obj (.viewTDense .vec) .s false], .ten_tensadd, [0, 1, 2]⟩,
  ⟨.blas_tensadd, [.obj (.viewTDense .mat) .s true, .obj .tdense .s true, .obj (.viewTDense .mat) .s false], .ten_tensadd, [0, 1, 2]⟩,
  ⟨.blas_tensadd, [.obj (.viewTDense .mat) .s true, .obj .tdense .s true, .obj (.viewTDense .ten) .s false], .ten_tensadd, [0, 1, 2]⟩,
  ⟨.blas_tensadd, [.obj (.viewTDense .mat) .s true, .obj (.viewTDense .vec) .s true, .obj .tdense .s false], .ten_tensadd, [0, 1, 2]⟩,
  ⟨.blas_tensadd, [.obj (.viewTDense .mat) .s true, .obj (.viewTDense .vec) .s true, .obj (.viewTDense .vec) .s false], .ten_tensadd, [0, 1, 2]⟩,
  ⟨.blas_tensadd, [.obj (.viewTDense .mat) .s true, .obj (.viewTDense .vec) .s true, .obj (.viewTDense .mat) .s false], .ten_tensadd, [0, 1, 2]⟩,
  ⟨.blas_tensadd, [.obj (.viewTDense .mat) .s true, .obj (.viewTDense .vec) .s true, .obj (.viewTDense .ten) .s false], .ten_tensadd, [0, 1, 2]⟩,
  ⟨.blas_tensadd, [.obj (.viewTDense .mat) .s true, .obj (.viewTDense .mat) .s true, .obj .tdense .s false], .ten_tensadd, [0, 1, 2]⟩,
  ⟨.blas_tensadd, [.obj (.viewTDense .mat) .s true, .obj (.viewTDense .mat) .s true, .obj (.viewTDense .vec) .s false], .ten_tensadd, [0, 1, 2]⟩,
  ⟨.blas_tensadd, [.obj (.viewTDense .mat) .s true, .obj (.viewTDense .mat) .s true, .obj (.viewTDense .mat) .s false], .ten_tensadd, [0, 1, 2]⟩,
  ⟨.blas_tensadd, [.obj (.viewTDense .mat) .s true, .obj (.viewTDense .mat) .s true, .obj (.viewTDense .ten) .s false], .ten_tensadd, [0, 1, 2]⟩,
  ⟨.blas_tensadd, [.obj (.viewTDense .mat) .s true, .obj (.viewTDense .ten) .s true, .obj .tdense .s false], .ten_tensadd, [0, 1, 2]⟩,
  ⟨.blas_tensadd, [.obj (.viewTDense .mat) .s true, .obj (.viewTDense .ten) .s true, .obj (.viewTDense .vec) .s false], .ten_tensadd, [0, 1, 2]⟩,
  ⟨.blas_tensadd, [.obj (.viewTDense .mat) .s true, .obj (.viewTDense .ten) .s true, .obj (.viewTDense .mat) .s false], .ten_tensadd, [0, 1, 2]⟩,
  ⟨.blas_tensadd, [.obj (.viewTDense .mat) .s true, .obj (.viewTDense .ten) .s true, .obj (.viewTDense .ten) .s false], .ten_tensadd, [0, 1, 2]⟩,
  ⟨.blas_tensadd, [.obj (.viewTDense .ten) .s true, .obj .tdense .s true, .obj .tdense .s false], .ten_tensadd, [0, 1, 2]⟩,
  ⟨.blas_tensadd, [.obj (.viewTDense .ten) .s true, .obj .tdense .s true, .obj (.viewTDense .vec) .s false], .ten_tensadd, [0, 1, 2]⟩,
  ⟨.blas_tensadd, [.obj (.viewTDense .ten) .s true, .obj .tdense .s true, .obj (.viewTDense .mat) .s false], .ten_tensadd, [0, 1, 2]⟩,
  ⟨.blas_tensadd, [.obj (.viewTDense .ten) .s true, .obj .tdense .s true, .obj (.viewTDense .ten) .s false], .ten_tensadd, [0, 1, 2]⟩,
  ⟨.blas_tensadd, [.obj (.viewTDense .ten) .s true, .obj (.viewTDense .vec) .s true, .obj .tdense .s false], .ten_tensadd, [0, 1, 2]⟩,
  ⟨.blas_tensadd, [.obj (.viewTDense .ten) .s true, .obj (.viewTDense .vec) .s true, .obj (.viewTDense .vec) .s false], .ten_tensadd, [0, 1, 2]⟩,
  ⟨.blas_tensadd, [.obj (.viewTDense .ten) .s true, .obj (.viewTDense .vec) .s true, .obj (.viewTDense .mat) .s false], .ten_tensadd, [0, 1, 2]⟩,
  ⟨.blas_tensadd, [.obj (.viewTDense .ten) .s true, .obj (.viewTDense .vec) .s true, .obj (.viewTDense .ten) .s false], .ten_tensadd, [0, 1, 2]⟩,
  ⟨.blas_tensadd, [.obj (.viewTDense .ten) .s true, .obj (.viewTDense .mat) .s true, .obj .tdense .s false], .ten_tensadd, [0, 1, 2]⟩,
  ⟨.blas_tensadd, [.obj (.viewTDense .ten) .s true, .obj (.viewTDense .mat) .s true, .obj (.viewTDense .vec) .s false], .ten_tensadd, [0, 1, 2]⟩,
  ⟨.blas_tensadd, [.obj (.viewTDense .ten) .s true, .obj (.viewTDense .mat) .s true, .obj (.viewTDense .mat) .s false], .ten_tensadd, [0, 1, 2]⟩,
  ⟨.blas_tensadd, [.obj (.viewTDense .ten) .s true, .obj (.viewTDense .mat) .s true, .obj (.viewTDense .ten) .s false], .ten_tensadd, [0, 1, 2]⟩,
  ⟨.blas_tensadd, [.obj (.viewTDense .ten) .s true, .obj (.viewTDense .ten) .s true, .obj .tdense .s false], .ten_tensadd, [0, 1, 2]⟩,
  ⟨.blas_tensadd, [.obj (.viewTDense .ten) .s true, .obj (.viewTDense .ten) .s true, .obj (.viewTDense .vec) .s false], .ten_tensadd, [0, 1, 2]⟩,
  ⟨.blas_tensadd, [.obj (.viewTDense .ten) .s true, .obj (.viewTDense .ten) .s true, .obj (.viewTDense .mat) .s false], .ten_tensadd, [0, 1, 2]⟩,
  ⟨.blas_tensadd, [.obj (.viewTDense .ten) .s true, .obj (.viewTDense .ten) .s true, .obj (.viewTDense .ten) .s false], .ten_tensadd, [0, 1, 2]⟩,
  ⟨.blas_tensadd, [.obj .tcrs .d true, .obj .tcrs .d true, .obj .tcrs .d false], .ten_tensadd, [0, 1, 2]⟩,
  ⟨.blas_tensadd, [.obj .tcrs .s true, .obj .tcrs .s true, .obj .tcrs .s false], .ten_tensadd, [0, 1, 2]⟩,
  ⟨.blas_tenssub, [.obj .tdense .d true, .obj .tdense .d true, .obj .tdense .d false], .ten_tenssub, [0, 1, 2]⟩,
  ⟨.blas_tenssub, [.obj .tdense .d true, .obj .tdense .d true, .obj (.viewTDense .vec) .d false], .ten_tenssub, [0, 1, 2]⟩,
  ⟨.blas_tenssub, [.obj .tdense .d true, .obj .tdense .d true, .obj (.viewTDense .mat) .d false], .ten_tenssub, [0, 1, 2]⟩,
  ⟨.blas_tenssub, [.obj .tdense .d true, .obj .tdense .d true, .obj (.viewTDense .ten) .d false], .ten_tenssub, [0, 1, 2]⟩,
  ⟨.blas_tenssub, [.obj .tdense .d true, .obj (.viewTDense .vec) .d true, .obj .tdense .d false], .ten_tenssub, [0, 1, 2]⟩,
  ⟨.blas_tenssub, [.obj .tdense .d true, .obj (.viewTDense .vec) .d true, .obj (.viewTDense .vec) .d false], .ten_tenssub, [0, 1, 2]⟩,
  ⟨.blas_tenssub, [.obj .tdense .d true, .obj (.viewTDense .vec) .d true, .obj (.viewTDense .mat) .d false], .ten_tenssub, [0, 1, 2]⟩,
  ⟨.blas_tenssub, [.obj .tdense .d true, .obj (.viewTDense .vec) .d true, .obj (.viewTDense .ten) .d false], .ten_tenssub, [0, 1, 2]⟩,
  ⟨.blas_tenssub, [.obj .tdense .d true, .obj (.viewTDense .mat) .d true, .obj .tdense .d false], .ten_tenssub, [0, 1, 2]⟩,
  ⟨.blas_tenssub, [.obj .tdense .d true, .obj (.viewTDense .mat) .d true, .obj (.viewTDense .vec) .d false], .ten_tenssub, [0, 1, 2]⟩,
  ⟨.blas_tenssub, [.obj .tdense .d true, .obj (.viewTDense .mat) .d true, .obj (.viewTDense .mat) .d false], .ten_tenssub, [0, 1, 2]⟩,
  ⟨.blas_tenssub, [.obj .tdense .d true, .obj (.viewTDense .mat) .d true, .obj (.viewTDense .ten) .d false], .ten_tenssub, [0, 1, 2]⟩,
  ⟨.blas_tenssub, [.obj .tdense .d true, .obj (.viewTDense .ten) .d true, .obj .tdense .d false], .ten_tenssub, [0, 1, 2]⟩,
  ⟨.blas_tenssub, [.obj .tdense .d true, .obj (.viewTDense .ten) .d true, .obj (.viewTDense .vec) .d false], .ten_tenssub, [0, 1, 2]⟩,
  ⟨.blas_tenssub, [.obj .tdense .d true, .obj (.viewTDense .ten) .d true, .obj (.viewTDense .mat) .d false], .ten_tenssub, [0, 1, 2]⟩,
  ⟨.blas_tenssub, [.obj .tdense .d true, .obj (.viewTDense .ten) .d true, .obj (.viewTDense .ten) .d false], .ten_tenssub, [0, 1, 2]⟩,
  ⟨.blas_tenssub, [.obj (.viewTDense .vec) .d true, .obj .tdense .d true, .obj .tdense .d false], .ten_tenssub, [0, 1, 2]⟩,
  ⟨.blas_tenssub, [.obj (.viewTDense .vec) .d true, .obj .tdense .d true, .obj (.viewTDense .vec) .d false], .ten_tenssub, [0, 1, 2]⟩,
  ⟨.blas_tenssub, [.obj (.viewTDense .vec) .d true, .obj .tdense .d true, .obj (.viewTDense .mat) .d false], .ten_tenssub, [0, 1, 2]⟩,
  ⟨.blas_tenssub, [.obj (.viewTDense .vec) .d true, .obj .tdense .d true, .obj (.viewTDense .ten) .d false], .ten_tenssub, [0, 1, 2]⟩,
  ⟨.blas_tenssub, [.obj (.viewTDense .vec) .d true, .obj (.viewTDense .vec) .d true, .obj .tdense .d false], .ten_tenssub, [0, 1, 2]⟩,
  ⟨.blas_tenssub, [.obj (.viewTDense .vec) .d true, .obj (.viewTDense .vec) .d true, .obj (.viewTDense .vec) .d false], .ten_tenssub, [0, 1, 2]⟩,
  ⟨.blas_tenssub, [.obj (.viewTDense .vec) .d true, .obj (.viewTDense .vec) .d true, .obj (.viewTDense .mat) .d false], .ten_tenssub, [0, 1, 2]⟩,
  ⟨.blas_tenssub, [.obj (.viewTDense .vec) .d true, .obj (.viewTDense .vec) .d true, .obj (.viewTDense .ten) .d false], .ten_tenssub, [0, 1, 2]⟩,
  ⟨.blas_tenssub, [.obj (.viewTDense .vec) .d true, .obj (.viewTDense .mat) .d true, .obj .tdense .d false], .ten_tenssub, [0, 1, 2]⟩,
  ⟨.blas_tenssub, [.obj (.viewTDense .vec) .d true, .obj (.viewTDense .mat) .d true, .obj (.viewTDense .vec) .d false], .ten_tenssub, [0, 1, 2]⟩,
  ⟨.blas_tenssub, [.obj (.viewTDense .vec) .d true, .obj (.viewTDense .mat) .d true, .obj (.viewTDense .mat) .d false], .ten_tenssub, [0, 1, 2]⟩,
  ⟨.blas_tenssub, [.obj (.viewTDense .vec) .d true, .obj (.viewTDense .mat) .d true, .obj (.viewTDense .ten) .d false], .ten_tenssub, [0, 1, 2]⟩,
  ⟨.blas_tenssub, [.obj (.viewTDense .vec) .d true, .obj (.viewTDense .ten) .d true, .obj .tdense .d false], .ten_tenssub, [0, 1, 2]⟩,
  ⟨.blas_tenssub, [.obj (.viewTDense .vec) .d true, .obj (.viewTDense .ten) .d true, .obj (.viewTDense .vec) .d false], .ten_tenssub, [0, 1, 2]⟩]

/-- src/blas/tensor/tensaddsub/tensaddsub.cpp:808-1207 -/
def tBlasTenAddSub_2 : List Overload := [
  ⟨.blas_tenssub, [.obj (.viewTDense .vec) .d true, .obj (.viewTDense .ten) .d true, .obj (.viewTDense .mat) .d false], .ten_tenssub, [0, 1, 2]⟩,
  ⟨.blas_tenssub, [.obj (.viewTDense .vec) .d true, .obj (.viewTDense .ten) .d true, .obj (.viewTDense .ten) .d false], .ten_tenssub, [0, 1, 2]⟩,
  ⟨.blas_tenssub, [.obj (.viewTDense .mat) .d true, .obj .tdense .d true, .obj .tdense .d false], .ten_tenssub, [0, 1, 2]⟩,
  ⟨.blas_tenssub, [.obj (.viewTDense .mat) .d true, .obj .tdense .d true, .obj (.viewTDense .vec) .d false], .ten_tenssub, [0, 1, 2]⟩,
  ⟨.blas_tenssub, [.obj (.viewTDense .mat) .d true, .obj .tdense .d true, .obj (.viewTDense .mat) .d false], .ten_tenssub, [0, 1, 2]⟩,
  ⟨.blas_tenssub, [.obj (.viewTDense .mat) .d true, .obj .tdense .d true, .obj (.viewTDense .ten) .d false], .ten_tenssub, [0, 1, 2]⟩,
  ⟨.blas_tenssub, [.obj (.viewTDense .mat) .d true, .obj (.viewTDense .vec) .d true, .obj .tdense .d false], .ten_tenssub, [0, 1, 2]⟩,
  ⟨.blas_tenssub, [.obj (.viewTDense .mat) .d true, .obj (.viewTDense .vec) .d true, .obj (.viewTDense .vec) .d false], .ten_tenssub, [0, 1, 2]⟩,
  ⟨.blas_tenssub, [.obj (.viewTDense .mat) .d true, .obj (.viewTDense .vec) .d true, .obj (.viewTDense .mat) .d false], .ten_tenssub, [0, 1, 2]⟩,
  ⟨.blas_tenssub, [.obj (.viewTDense .mat) .d true, .obj (.viewTDense .vec) .d true, .obj (.viewTDense .ten) .d false], .ten_tenssub, [0, 1, 2]⟩,
  ⟨.blas_tenssub, [.obj (.viewTDense .mat) .d true, .obj (.viewTDense .mat) .d true, .obj .tdense .d false], .ten_tenssub, [0, 1, 2]⟩,
  ⟨.blas_tenssub, [.obj (.viewTDense .mat) .d true, .obj (.viewTDense .mat) .d true, .obj (.viewTDense .vec) .d false], .ten_tenssub, [0, 1, 2]⟩,
  ⟨.blas_tenssub, [.obj (.viewTDense .mat) .d true, .obj (.viewTDense .mat) .d true, .obj (.viewTDense .mat) .d false], .ten_tenssub, [0, 1, 2]⟩,
  ⟨.blas_tenssub, [.obj (.viewTDense .mat) .d true, .obj (.viewTDense .mat) .d true, .obj (.viewTDense .ten) .d false], .ten_tenssub, [0, 1, 2]⟩,
  ⟨.blas_tenssub, [.obj (.viewTDense .mat) .d true, .obj (.viewTDense .ten) .d true, .obj .tdense .d false], .ten_tenssub, [0, 1, 2]⟩,
  ⟨.blas_tenssub, [.obj (.viewTDense .mat) .d true, .obj (.viewTDense .ten) .d true, .obj (.viewTDense .vec) .d false], .ten_tenssub, [0, 1, 2]⟩,
  ⟨.blas_tenssub, [.obj (.viewTDense .mat) .d true, .obj (.viewTDense .ten) .d true, .obj (.viewTDense .mat) .d false], .ten_tenssub, [0, 1, 2]⟩,
  ⟨.blas_tenssub, [.obj (.viewTDense .mat) .d true, .obj (.viewTDense .ten) .d true, .obj (.viewTDense .ten) .d false], .ten_tenssub, [0, 1, 2]⟩,
  ⟨.blas_tenssub, [.obj (.viewTDense .ten) .d true, .obj .tdense .d true, .obj .tdense .d false], .ten_tenssub, [0, 1, 2]⟩,
  ⟨.blas_tenssub, [.obj (.viewTDense .ten) .d true, .obj .tdense .d true, .obj (.viewTDense .vec) .d false], .ten_tenssub, [0, 1, 2]⟩,
  ⟨.blas_tenssub, [.obj (.viewTDense .ten) .d true, .obj .tdense .d true, .obj (.viewTDense .mat) .d false], .ten_tenssub, [0, 1, 2]⟩,
  ⟨.blas_tenssub, [.obj (.viewTDense .ten) .d true, .obj .tdense .d true, .obj (.viewTDense .ten) .d false], .ten_tenssub, [0, 1, 2]⟩,
  ⟨.blas_tenssub, [.obj (.viewTDense .ten) .d true, .obj (.viewTDense .vec) .d true, .obj .tdense .d false], .ten_tenssub, [0, 1, 2]⟩,
  ⟨.blas_tenssub, [.obj (.viewTDense .ten) .d true, .obj (.viewTDense .vec) .d true, .obj (.viewTDense .vec) .d false], .ten_tenssub, [0, 1, 2]⟩,
  ⟨.blas_tenssub, [.obj (.viewTDense .ten) .d true, .obj (.viewTDense .vec) .d true, .obj (.viewTDense .mat) .d false], .ten_tenssub, [0, 1, 2]⟩,
  ⟨.blas_tenssub, [.obj (.viewTDense .ten) .d true, .obj (.viewTDense .vec) .d true, .obj (.viewTDense .ten) .d false], .ten_tenssub, [0, 1, 2]⟩,
  ⟨.blas_tenssub, [.obj (.viewTDense .ten) .d true, .obj (.viewTDense .mat) .d true, .obj .tdense .d false], .ten_tenssub, [0, 1, 2]⟩,
  ⟨.blas_tenssub, [.obj (.viewTDense .ten) .d true, .obj (.viewTDense .mat) .d true, .obj (.viewTDense .vec) .d false], .ten_tenssub, [0, 1, 2]⟩,
  ⟨.blas_tenssub, [.obj (.viewTDense .ten) .d true, .obj (.viewTDense .mat) .d true, .obj (.viewTDense .mat) .d false], .ten_tenssub, [0, 1, 2]⟩,
  ⟨.blas_tenssub, [.obj (.viewTDense .ten) .d true, .obj (.viewTDense .mat) .d true, .obj (.viewTDense .ten) .d false], .ten_tenssub, [0, 1, 2]⟩,
  ⟨.blas_tenssub, [.obj (.viewTDense .ten) .d true, .obj (.viewTDense .ten) .d true, .obj .tdense .d false], .ten_tenssub, [0, 1, 2]⟩,
  ⟨.blas_tenssub, [.obj (.viewTDense .ten) .d true, .obj (.viewTDense .ten) .d true, .obj (.viewTDense .vec) .d false], .ten_tenssub, [0, 1, 2]⟩,
  ⟨.blas_tenssub, [.obj (.viewTDense .ten) .d true, .obj (.viewTDense .ten) .d true, .obj (.viewTDense .mat) .d false], .ten_tenssub, [0, 1, 2]⟩,
  ⟨.blas_tenssub, [.obj (.viewTDense .ten) .d true, .obj (.viewTDense .ten) .d true, .obj (.viewTDense .ten) .d false], .ten_tenssub, [0, 1, 2]⟩,
  ⟨.blas_tenssub, [.obj .tdense .s true, .obj .tdense .s true, .obj .tdense .s false], .ten_tenssub, [0, 1, 2]⟩,
  ⟨.blas_tenssub, [.obj .tdense .s true, .obj .tdense .s true, .obj (.viewTDense .vec) .s false], .ten_tenssub, [0, 1, 2]⟩,
  ⟨.blas_tenssub, [.obj .tdense .s true, .obj .tdense .s true, .obj (.viewTDense .mat) .s false], .ten_tenssub, [0, 1, 2]⟩,
  ⟨.blas_tenssub, [.obj .tdense .s true, .obj .tdense .s true, .obj (.viewTDense .ten) .s false], .ten_tenssub, [0, 1, 2]⟩,
  ⟨.blas_tenssub, [.obj .tdense .s true, .obj (.viewTDense .vec) .s true, .obj .tdense .s false], .ten_tenssub, [0, 1, 2]⟩,
  ⟨.blas_tenssub, [.obj .tdense .s true, .obj (.viewTDense .vec) .s true, .obj (.viewTDense .vec) .s false], .ten_tenssub, [0, 1, 2]⟩,
  ⟨.blas_tenssub, [.obj .tdense .s true, .obj (.viewTDense .vec) .s true, .obj (.viewTDense .mat) .s false], .ten_tenssub, [0, 1, 2]⟩,
  ⟨.blas_tenssub, [.obj .tdense .s true, .obj (.viewTDense .vec) .s true, .obj (.viewTDense .ten) .s false], .ten_tenssub, [0, 1, 2]⟩,
  ⟨.blas_tenssub, [.obj .tdense .s true, .obj (.viewTDense .mat) .s true, .obj .tdense .s false], .ten_tenssub, [0, 1, 2]⟩,
  ⟨.blas_tenssub, [.obj .tdense .s true, .obj (.viewTDense .mat) .s true, .obj (.viewTDense .vec) .s false], .ten_tenssub, [0, 1, 2]⟩,
  ⟨.blas_tenssub, [.obj .tdense .s true, .obj (.viewTDense .mat) .s true, .obj (.viewTDense .mat) .s false], .ten_tenssub, [0, 1, 2]⟩,
  ⟨.blas_tenssub, [.obj .tdense .s true, .obj (.viewTDense .mat) .s true, .obj (.viewTDense .ten) .s false], .ten_tenssub, [0, 1, 2]⟩,
  ⟨.blas_tenssub, [.obj .tdense .s true, .obj (.viewTDense .ten) .s true, .obj .tdense .s false], .ten_tenssub, [0, 1, 2]⟩,
  ⟨.blas_tenssub, [.obj .tdense .s true, .obj (.viewTDense .ten) .s true, .obj (.viewTDense .vec) .s false], .ten_tenssub, [0, 1, 2]⟩,
  ⟨.blas_tenssub, [.obj .tdense .s true, .obj (.viewTDense .ten) .s true, .obj (.viewTDense .mat) .s false], .ten_tenssub, [0, 1, 2]⟩,
  ⟨.blas_tenssub, [.obj .tdense .s true, .obj (.viewTDense .ten) .s true, .obj (.viewTDense .ten) .s false], .ten_tenssub, [0, 1, 2]⟩,
  ⟨.blas_tenssub, [.obj (.viewTDense .vec) .s true, .obj .tdense .s true, .obj .tdense .s false], .ten_tenssub, [0, 1, 2]⟩,
  ⟨.blas_tenssub, [.obj (.viewTDense .vec) .s true, .obj .tdense .s true, .obj (.viewTDense .vec) .s false], .ten_tenssub, [0, 1, 2]⟩,
  ⟨.blas_tenssub, [.obj (.viewTDense .vec) .s true, .obj .tdense .s true, .obj (.viewTDense .mat) .s false], .ten_tenssub, [0, 1, 2]⟩,
  ⟨.blas_tenssub, [.obj (.viewTDense .vec) .s true, .obj .tdense .s true, .obj (.viewTDense .ten) .s false], .ten_tenssub, [0, 1, 2]⟩,
  ⟨.blas_tenssub, [.obj (.viewTDense .vec) .s true, .obj (.viewTDense .vec) .s true, .obj .tdense .s false], .ten_tenssub, [0, 1, 2]⟩,
  ⟨.blas_tenssub, [.obj (.viewTDense .vec) .s true, .obj (.viewTDense .vec) .s true, .obj (.viewTDense .vec) .s false], .ten_tenssub, [0, 1, 2]⟩,
  ⟨.blas_tenssub, [.obj (.viewTDense .vec) .s true, .obj (.viewTDense .vec) .s true, .obj (.viewTDense .mat) .s false], .ten_tenssub, [0, 1, 2]⟩,
  ⟨.blas_tenssub, [.obj (.viewTDense .vec) .s true, .obj (.viewTDense .vec) .s true, .obj (.viewTDense .ten) .s false], .ten_tenssub, [0, 1, 2]⟩,
  ⟨.blas_tenssub, [.obj (.viewTDense .vec) .s true, .obj (.viewTDense .mat) .s true, .obj .tdense .s false], .ten_tenssub, [0, 1, 2]⟩,
  ⟨.blas_tenssub, [.obj (.viewTDense .vec) .s true, .obj (.viewTDense .mat) .s true, .obj (.viewTDense .vec) .s false], .ten_tenssub, [0, 1, 2]⟩,
  ⟨.blas_tenssub, [.obj (.viewTDense .vec) .s true, .obj (.viewTDense .mat) .s true, .obj (.viewTDense .mat) .s false], .ten_tenssub, [0, 1, 2]⟩,
  ⟨.blas_tenssub, [.obj (.viewTDense .vec) .s true, .obj (.viewTDense .mat) .s true, .obj (.viewTDense .ten) .s false], .ten_tenssub, [0, 1, 2]⟩,
  ⟨.blas_tenssub, [.obj (.viewTDense .vec) .s true, .obj (.viewTDense .ten) .s true, .obj .tdense .s false], .ten_tenssub, [0, 1, 2]⟩,
  ⟨.blas_tenssub, [.obj (.viewTDense .vec) .s true, .obj (.viewTDense .ten) .s true, .obj (.viewTDense .vec) .s false], .ten_tenssub, [0, 1, 2]⟩,
  ⟨.blas_tenssub, [.obj (.viewTDense .vec) .s true, .obj (.viewTDense .ten) .s true, .obj (.viewTDense .mat) .s false], .ten_tenssub, [0, 1, 2]⟩,
  ⟨.blas_tenssub, [.obj (.viewTDense .vec) .s true, .obj (.viewTDense .ten) .s true, .obj (.viewTDense .ten) .s false], .ten_tenssub, [0, 1, 2]⟩,
  ⟨.blas_tenssub, [.obj (.viewTDense .mat) .s true, .obj .tdense .s true, .obj .tdense .s false], .ten_tenssub, [0, 1, 2]⟩,
  ⟨.blas_tenssub, [.obj (.viewTDense .mat) .s true, .obj .tdense .s true, .obj (.viewTDense .vec) .s false], .ten_tenssub, [0, 1, 2]⟩,
  ⟨.blas_tenssub, [.obj (.viewTDense .mat) .s true, .obj .tdense .s true, .obj (.viewTDense .mat) .s false], .ten_tenssub, [0, 1, 2]⟩,
  ⟨.blas_tenssub, [.obj (.viewTDense .mat) .s true, .obj .tdense .s true, .obj (.viewTDense .ten) .s false], .ten_tenssub, [0, 1, 2]⟩,
  ⟨.blas_tenssub, [.obj (.viewTDense .mat) .s true, .obj (.viewTDense .vec) .s true, .obj .tdense .s false], .ten_tenssub, [0, 1, 2]⟩,
  ⟨.blas_tenssub, [.obj (.viewTDense .mat) .s true, .obj (.viewTDense .vec) .s true, .obj (.viewTDense .vec) .s false], .ten_tenssub, [0, 1, 2]⟩,
  ⟨.blas_tenssub, [.obj (.viewTDense .mat) .s true, .obj (.viewTDense .vec) .s true, .obj (.viewTDense .mat) .s false], .ten_tenssub, [0, 1, 2]⟩,
  ⟨.blas_tenssub, [.obj (.viewTDense .mat) .s true, .obj (.viewTDense .vec) .s true, .obj (.viewTDense .ten) .s false], .ten_tenssub, [0, 1, 2]⟩,
  ⟨.blas_tenssub, [.obj (.viewTDense .mat) .s true, .obj (.viewTDense .mat) .s true, .obj .tdense .s false], .ten_tenssub, [0, 1, 2]⟩,
  ⟨.blas_tenssub, [.obj (.viewTDense .mat) .s true, .obj (.viewTDense .mat) .s true, .obj (.viewTDense .vec) .s false], .ten_tenssub, [0, 1, 2]⟩,
  ⟨.blas_tenssub, [.obj (.viewTDense .mat) .s true, .obj (.viewTDense .mat) .s true, .obj (.viewTDense .mat) .s false], .ten_tenssub, [0, 1, 2]⟩,
  ⟨.blas_tenssub, [.obj (.viewTDense .mat) .s true, .obj (.viewTDense .mat) .s true, .obj (.viewTDense .ten) .s false], .ten_tenssub, [0, 1, 2]⟩,
  ⟨.blas_tenssub, [.obj (.viewTDense .mat) .s true, .obj (.viewTDense .ten) .s true, .obj .tdense .s false], .ten_tenssub, [0, 1, 2]⟩,
  ⟨.blas_tenssub, [.obj (.viewTDense .mat) .s true, .obj (.viewTDense .ten) .s true, .obj (.viewTDense .vec) .s false], .ten_tenssub, [0, 1, 2]⟩]

/-- src/blas/tensor/tensaddsub/tensaddsub.cpp:1208-1307 -/
def tBlasTenAddSub_3 : List Overload := [
  ⟨.blas_tenssub, [.obj (.viewTDense .mat) .s true, .obj (.viewTDense .ten) .s true, .obj (.viewTDense .mat) .s false], .ten_tenssub, [0, 1, 2]⟩,
  ⟨.blas_tenssub, [.obj (.viewTDense .mat) .s true, .obj (.viewTDense .ten) .s true, .obj (.viewTDense .ten) .s false], .ten_tenssub, [0, 1, 2]⟩,
  ⟨.blas_tenssub, [.obj (.viewTDense .ten) .s true, .obj .tdense .s true, .obj .tdense .s false], .ten_tenssub, [0, 1, 2]⟩,
  ⟨.blas_tenssub, [.obj (.viewTDense .ten) .s true, .obj .tdense .s true, .obj (.viewTDense .vec) .s false], .ten_tenssub, [0, 1, 2]⟩,
  ⟨.blas_tenssub, [.obj (.viewTDense .ten) .s true, .obj .tdense .s true, .obj (.viewTDense .mat) .s false], .ten_tenssub, [0, 1, 2]⟩,
  ⟨.blas_tenssub, [.obj (.viewTDense .ten) .s true, .obj .tdense .s true, .obj (.viewTDense .ten) .s false], .ten_tenssub, [0, 1, 2]⟩,
  ⟨.blas_tenssub, [.obj (.viewTDense .ten) .s true, .obj (.viewTDense .vec) .s true, .obj .tdense .s false], .ten_tenssub, [0, 1, 2]⟩,
  ⟨.blas_tenssub, [.obj (.viewTDense .ten) .s true, .obj (.viewTDense .vec) .s true, .obj (.viewTDense .vec) .s false], .ten_tenssub, [0, 1, 2]⟩,
  ⟨.blas_tenssub, [.obj (.viewTDense .ten) .s true, .obj (.viewTDense .vec) .s true, .obj (.viewTDense .mat) .s false], .ten_tenssub, [0, 1, 2]⟩,
  ⟨.blas_tenssub, [.obj (.viewTDense .ten) .s true, .obj (.viewTDense .vec) .s true, .obj (.viewTDense .ten) .s false], .ten_tenssub, [0, 1, 2]⟩,
  ⟨.blas_tenssub, [.obj (.viewTDense .ten) .s true, .obj (.viewTDense .mat) .s true, .obj .tdense .s false], .ten_tenssub, [0, 1, 2]⟩,
  ⟨.blas_tenssub, [.obj (.viewTDense .ten) .s true, .obj (.viewTDense .mat) .s true, .obj (.viewTDense .vec) .s false], .ten_tenssub, [0, 1, 2]⟩,
  ⟨.blas_tenssub, [.obj (.viewTDense .ten) .s true, .obj (.viewTDense .mat) .s true, .obj (.viewTDense .mat) .s false], .ten_tenssub, [0, 1, 2]⟩,
  ⟨.blas_tenssub, [.obj (.viewTDense .ten) .s true, .obj (.viewTDense .mat) .s true, .obj (.viewTDense .ten) .s false], .ten_tenssub, [0, 1, 2]⟩,
  ⟨.blas_tenssub, [.obj (.viewTDense .ten) .s true, .obj (.viewTDense .ten) .s true, .obj .tdense .s false], .ten_tenssub, [0, 1, 2]⟩,
  ⟨.blas_tenssub, [.obj (.viewTDense .ten) .s true, .obj (.viewTDense .ten) .s true, .obj (.viewTDense .vec) .s false], .ten_tenssub, [0, 1, 2]⟩,
  ⟨.blas_tenssub, [.obj (.viewTDense .ten) .s true, .obj (.viewTDense .ten) .s true, .obj (.viewTDense .mat) .s false], .ten_tenssub, [0, 1, 2]⟩,
  ⟨.blas_tenssub, [.obj (.viewTDense .ten) .s true, .obj (.viewTDense .ten) .s true, .obj (.viewTDense .ten) .s false], .ten_tenssub, [0, 1, 2]⟩,
  ⟨.blas_tenssub, [.obj .tcrs .d true, .obj .tcrs .d true, .obj .tcrs .d false], .ten_tenssub, [0, 1, 2]⟩,
  ⟨.blas_tenssub, [.obj .tcrs .s true, .obj .tcrs .s true, .obj .tcrs .s false], .ten_tenssub, [0, 1, 2]⟩]

/-- the element-wise overloads of src/blas/tensor/tensaddsub/tensaddsub.cpp (260 of them) -/
def tBlasTenAddSub : List (List Overload) :=
  [tBlasTenAddSub_0, tBlasTenAddSub_1, tBlasTenAddSub_2, tBlasTenAddSub_3]

/-- the element-wise overloads of src/blas/tensor/times/times.cpp (0 of them) -/
def tBlasTenTimes : List (List Overload) :=
  []

/-- the element-wise overloads of src/blas/tensor/adds/adds.cpp (0 of them) -/
def tBlasTenAdds : List (List Overload) :=
  []

/-- src/blas/tensor/scal/scal.cpp:6-40 -/
def tBlasTenScal_0 : List Overload := [
  ⟨.blas_tscal, [.scal .d, .obj .tdense .d false], .ten_tscal, [0, 1]⟩,
  ⟨.blas_tscal, [.scal .d, .obj (.viewTDense .vec) .d false], .ten_tscal, [0, 1]⟩,
  ⟨.blas_tscal, [.scal .d, .obj (.viewTDense .mat) .d false], .ten_tscal, [0, 1]⟩,
  ⟨.blas_tscal, [.scal .d, .obj (.viewTDense .ten) .d false], .ten_tscal, [0, 1]⟩,
  ⟨.blas_tscal, [.scal .s, .obj .tdense .s false], .ten_tscal, [0, 1]⟩,
  ⟨.blas_tscal, [.scal .s, .obj (.viewTDense .vec) .s false], .ten_tscal, [0, 1]⟩,
  ⟨.blas_tscal, [.scal .s, .obj (.viewTDense .mat) .s false], .ten_tscal, [0, 1]⟩,
  ⟨.blas_tscal, [.scal .s, .obj (.viewTDense .ten) .s false], .ten_tscal, [0, 1]⟩,
  ⟨.blas_tscal, [.scal .d, .obj .tcrs .d false], .ten_tscal, [0, 1]⟩,
  ⟨.blas_tscal, [.scal .s, .obj .tcrs .s false], .ten_tscal, [0, 1]⟩]

/-- the element-wise overloads of src/blas/tensor/scal/scal.cpp (10 of them) -/
def tBlasTenScal : List (List Overload) :=
  [tBlasTenScal_0]

/-- src/blas/tensor/copy/copy.cpp:6-140 -/
def tBlasTenCopy_0 : List Overload := [
  ⟨.blas_copy, [.obj .tdense .d true, .obj .tdense .d false], .ten_copy, [0, 1]⟩,
  ⟨.blas_copy, [.obj .tdense .d true, .obj (.viewTDense .vec) .d false], .ten_copy, [0, 1]⟩,
  ⟨.blas_copy, [.obj .tdense .d true, .obj (.viewTDense .mat) .d false], .ten_copy, [0, 1]⟩,
  ⟨.blas_copy, [.obj .tdense .d true, .obj (.viewTDense .ten) .d false], .ten_copy, [0, 1]⟩,
  ⟨.blas_copy, [.obj (.viewTDense .vec) .d true, .obj .tdense .d false], .ten_copy, [0, 1]⟩,
  ⟨.blas_copy, [.obj (.viewTDense .vec) .d true, .obj (.viewTDense .vec) .d false], .ten_copy, [0, 1]⟩,
  ⟨.blas_copy, [.obj (.viewTDense .vec) .d true, .obj (.viewTDense .mat) .d false], .ten_copy, [0, 1]⟩,
  ⟨.blas_copy, [.obj (.viewTDense .vec) .d true, .obj (.viewTDense .ten) .d false], .ten_copy, [0, 1]⟩,
  ⟨.blas_copy, [.obj (.viewTDense .mat) .d true, .obj .tdense .d false], .ten_copy, [0, 1]⟩,
  ⟨.blas_copy, [.obj (.viewTDense .mat) .d true, .obj (.viewTDense .vec) .d false], .ten_copy, [0, 1]⟩,
  ⟨.blas_copy, [.obj (.viewTDense .mat) .d true, .obj (.viewTDense .mat) .d false], .ten_copy, [0, 1]⟩,
  ⟨.blas_copy, [.obj (.viewTDense .mat) .d true, .obj (.viewTDense .ten) .d false], .ten_copy, [0, 1]⟩,
  ⟨.blas_copy, [.obj (.viewTDense .ten) .d true, .obj .tdense .d false], .ten_copy, [0, 1]⟩,
  ⟨.blas_copy, [.obj (.viewTDense .ten) .d true, .obj (.viewTDense .vec) .d false], .ten_copy, [0, 1]⟩,
  ⟨.blas_copy, [.obj (.viewTDense .ten) .d true, .obj (.viewTDense .mat) .d false], .ten_copy, [0, 1]⟩,
  ⟨.blas_copy, [.obj (.viewTDense .ten) .d true, .obj (.viewTDense .ten) .d false], .ten_copy, [0, 1]⟩,
  ⟨.blas_copy, [.obj .tdense .s true, .obj .tdense .s false], .ten_copy, [0, 1]⟩,
  ⟨.blas_copy, [.obj .tdense .s true, .obj (.viewTDense .vec) .s false], .ten_copy, [0, 1]⟩,
  ⟨.blas_copy, [.obj .tdense .s true, .obj (.viewTDense .mat) .s false], .ten_copy, [0, 1]⟩,
  ⟨.blas_copy, [.obj .tdense .s true, .obj (.viewTDense .ten) .s false], .ten_copy, [0, 1]⟩,
  ⟨.blas_copy, [.obj (.viewTDense .vec) .s true, .obj .tdense .s false], .ten_copy, [0, 1]⟩,
  ⟨.blas_copy, [.obj (.viewTDense .vec) .s true, .obj (.viewTDense .vec) .s false], .ten_copy, [0, 1]⟩,
  ⟨.blas_copy, [.obj (.viewTDense .vec) .s true, .obj (.viewTDense .mat) .s false], .ten_copy, [0, 1]⟩,
  ⟨.blas_copy, [.obj (.viewTDense .vec) .s true, .obj (.viewTDense .ten) .s false], .ten_copy, [0, 1]⟩,
  ⟨.blas_copy, [.obj (.viewTDense .mat) .s true, .obj .tdense .s false], .ten_copy, [0, 1]⟩,
  ⟨.blas_copy, [.obj (.viewTDense .mat) .s true, .obj (.viewTDense .vec) .s false], .ten_copy, [0, 1]⟩,
  ⟨.blas_copy, [.obj (.viewTDense .mat) .s true, .obj (.viewTDense .mat) .s false], .ten_copy, [0, 1]⟩,
  ⟨.blas_copy, [.obj (.viewTDense .mat) .s true, .obj (.viewTDense .ten) .s false], .ten_copy, [0, 1]⟩,
  ⟨.blas_copy, [.obj (.viewTDense .ten) .s true, .obj .tdense .s false], .ten_copy, [0, 1]⟩,
  ⟨.blas_copy, [.obj (.viewTDense .ten) .s true, .obj (.viewTDense .vec) .s false], .ten_copy, [0, 1]⟩,
  ⟨.blas_copy, [.obj (.viewTDense .ten) .s true, .obj (.viewTDense .mat) .s false], .ten_copy, [0, 1]⟩,
  ⟨.blas_copy, [.obj (.viewTDense .ten) .s true, .obj (.viewTDense .ten) .s false], .ten_copy, [0, 1]⟩,
  ⟨.blas_copy, [.obj .tcrs .d true, .obj .tcrs .d false], .ten_copy, [0, 1]⟩,
  ⟨.blas_copy, [.obj .tcrs .s true, .obj .tcrs .s false], .ten_copy, [0, 1]⟩]

/-- the element-wise overloads of src/blas/tensor/copy/copy.cpp (34 of them) -/
def tBlasTenCopy : List (List Overload) :=
  [tBlasTenCopy_0]

end Verif.Dispatch
