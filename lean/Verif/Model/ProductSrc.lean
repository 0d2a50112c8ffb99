import Verif.Model.Product

/-!
Generated by tools/product_gen.py from /repo: public overloads of the product functions (those taking a
`LinearOperator` are left out). Do not edit.
-/

namespace Verif.Product

/-- src/blas/matrix/matvec/matvec_blas.cpp:10-394 -/
def tMatvec_0 : List Overload := [
  ⟨.matvec, [.obj .dense .d true, .obj .vector .d true, .obj .vector .d false], .matvec, .d, [.one, .par 0, .par 1, .zero, .par 2, .ff]⟩,
  ⟨.matvec, [.scal .d, .obj .dense .d true, .obj .vector .d true, .scal .d, .obj .vector .d false], .matvec, .d, [.par 0, .par 1, .par 2, .par 3, .par 4, .ff]⟩,
  ⟨.matvec, [.obj (.viewDense .vec) .d true, .obj .vector .d true, .obj .vector .d false], .matvec, .d, [.one, .par 0, .par 1, .zero, .par 2, .ff]⟩,
  ⟨.matvec, [.scal .d, .obj (.viewDense .vec) .d true, .obj .vector .d true, .scal .d, .obj .vector .d false], .matvec, .d, [.par 0, .par 1, .par 2, .par 3, .par 4, .ff]⟩,
  ⟨.matvec, [.obj (.viewDense .mat) .d true, .obj .vector .d true, .obj .vector .d false], .matvec, .d, [.one, .par 0, .par 1, .zero, .par 2, .ff]⟩,
  ⟨.matvec, [.scal .d, .obj (.viewDense .mat) .d true, .obj .vector .d true, .scal .d, .obj .vector .d false], .matvec, .d, [.par 0, .par 1, .par 2, .par 3, .par 4, .ff]⟩,
  ⟨.matvec, [.obj (.viewDense .ten) .d true, .obj .vector .d true, .obj .vector .d false], .matvec, .d, [.one, .par 0, .par 1, .zero, .par 2, .ff]⟩,
  ⟨.matvec, [.scal .d, .obj (.viewDense .ten) .d true, .obj .vector .d true, .scal .d, .obj .vector .d false], .matvec, .d, [.par 0, .par 1, .par 2, .par 3, .par 4, .ff]⟩,
  ⟨.matvec, [.obj .dense .d true, .obj .vector .d true, .obj (.view1D .vec) .d false], .matvec, .d, [.one, .par 0, .par 1, .zero, .par 2, .ff]⟩,
  ⟨.matvec, [.scal .d, .obj .dense .d true, .obj .vector .d true, .scal .d, .obj (.view1D .vec) .d false], .matvec, .d, [.par 0, .par 1, .par 2, .par 3, .par 4, .ff]⟩,
  ⟨.matvec, [.obj (.viewDense .vec) .d true, .obj .vector .d true, .obj (.view1D .vec) .d false], .matvec, .d, [.one, .par 0, .par 1, .zero, .par 2, .ff]⟩,
  ⟨.matvec, [.scal .d, .obj (.viewDense .vec) .d true, .obj .vector .d true, .scal .d, .obj (.view1D .vec) .d false], .matvec, .d, [.par 0, .par 1, .par 2, .par 3, .par 4, .ff]⟩,
  ⟨.matvec, [.obj (.viewDense .mat) .d true, .obj .vector .d true, .obj (.view1D .vec) .d false], .matvec, .d, [.one, .par 0, .par 1, .zero, .par 2, .ff]⟩,
  ⟨.matvec, [.scal .d, .obj (.viewDense .mat) .d true, .obj .vector .d true, .scal .d, .obj (.view1D .vec) .d false], .matvec, .d, [.par 0, .par 1, .par 2, .par 3, .par 4, .ff]⟩,
  ⟨.matvec, [.obj (.viewDense .ten) .d true, .obj .vector .d true, .obj (.view1D .vec) .d false], .matvec, .d, [.one, .par 0, .par 1, .zero, .par 2, .ff]⟩,
  ⟨.matvec, [.scal .d, .obj (.viewDense .ten) .d true, .obj .vector .d true, .scal .d, .obj (.view1D .vec) .d false], .matvec, .d, [.par 0, .par 1, .par 2, .par 3, .par 4, .ff]⟩,
  ⟨.matvec, [.obj .dense .d true, .obj .vector .d true, .obj (.view1D .mat) .d false], .matvec, .d, [.one, .par 0, .par 1, .zero, .par 2, .ff]⟩,
  ⟨.matvec, [.scal .d, .obj .dense .d true, .obj .vector .d true, .scal .d, .obj (.view1D .mat) .d false], .matvec, .d, [.par 0, .par 1, .par 2, .par 3, .par 4, .ff]⟩,
  ⟨.matvec, [.obj (.viewDense .vec) .d true, .obj .vector .d true, .obj (.view1D .mat) .d false], .matvec, .d, [.one, .par 0, .par 1, .zero, .par 2, .ff]⟩,
  ⟨.matvec, [.scal .d, .obj (.viewDense .vec) .d true, .obj .vector .d true, .scal .d, .obj (.view1D .mat) .d false], .matvec, .d, [.par 0, .par 1, .par 2, .par 3, .par 4, .ff]⟩,
  ⟨.matvec, [.obj (.viewDense .mat) .d true, .obj .vector .d true, .obj (.view1D .mat) .d false], .matvec, .d, [.one, .par 0, .par 1, .zero, .par 2, .ff]⟩,
  ⟨.matvec, [.scal .d, .obj (.viewDense .mat) .d true, .obj .vector .d true, .scal .d, .obj (.view1D .mat) .d false], .matvec, .d, [.par 0, .par 1, .par 2, .par 3, .par 4, .ff]⟩,
  ⟨.matvec, [.obj (.viewDense .ten) .d true, .obj .vector .d true, .obj (.view1D .mat) .d false], .matvec, .d, [.one, .par 0, .par 1, .zero, .par 2, .ff]⟩,
  ⟨.matvec, [.scal .d, .obj (.viewDense .ten) .d true, .obj .vector .d true, .scal .d, .obj (.view1D .mat) .d false], .matvec, .d, [.par 0, .par 1, .par 2, .par 3, .par 4, .ff]⟩,
  ⟨.matvec, [.obj .dense .d true, .obj .vector .d true, .obj (.view1D .ten) .d false], .matvec, .d, [.one, .par 0, .par 1, .zero, .par 2, .ff]⟩,
  ⟨.matvec, [.scal .d, .obj .dense .d true, .obj .vector .d true, .scal .d, .obj (.view1D .ten) .d false], .matvec, .d, [.par 0, .par 1, .par 2, .par 3, .par 4, .ff]⟩,
  ⟨.matvec, [.obj (.viewDense .vec) .d true, .obj .vector .d true, .obj (.view1D .ten) .d false], .matvec, .d, [.one, .par 0, .par 1, .zero, .par 2, .ff]⟩,
  ⟨.matvec, [.scal .d, .obj (.viewDense .vec) .d true, .obj .vector .d true, .scal .d, .obj (.view1D .ten) .d false], .matvec, .d, [.par 0, .par 1, .par 2, .par 3, .par 4, .ff]⟩,
  ⟨.matvec, [.obj (.viewDense .mat) .d true, .obj .vector .d true, .obj (.view1D .ten) .d false], .matvec, .d, [.one, .par 0, .par 1, .zero, .par 2, .ff]⟩,
  ⟨.matvec, [.scal .d, .obj (.viewDense .mat) .d true, .obj .vector .d true, .scal .d, .obj (.view1D .ten) .d false], .matvec, .d, [.par 0, .par 1, .par 2, .par 3, .par 4, .ff]⟩,
  ⟨.matvec, [.obj (.viewDense .ten) .d true, .obj .vector .d true, .obj (.view1D .ten) .d false], .matvec, .d, [.one, .par 0, .par 1, .zero, .par 2, .ff]⟩,
  ⟨.matvec, [.scal .d, .obj (.viewDense .ten) .d true, .obj .vector .d true, .scal .d, .obj (.view1D .ten) .d false], .matvec, .d, [.par 0, .par 1, .par 2, .par 3, .par 4, .ff]⟩,
  ⟨.matvec, [.obj .dense .d true, .obj (.view1D .vec) .d true, .obj .vector .d false], .matvec, .d, [.one, .par 0, .par 1, .zero, .par 2, .ff]⟩,
  ⟨.matvec, [.scal .d, .obj .dense .d true, .obj (.view1D .vec) .d true, .scal .d, .obj .vector .d false], .matvec, .d, [.par 0, .par 1, .par 2, .par 3, .par 4, .ff]⟩,
  ⟨.matvec, [.obj (.viewDense .vec) .d true, .obj (.view1D .vec) .d true, .obj .vector .d false], .matvec, .d, [.one, .par 0, .par 1, .zero, .par 2, .ff]⟩,
  ⟨.matvec, [.scal .d, .obj (.viewDense .vec) .d true, .obj (.view1D .vec) .d true, .scal .d, .obj .vector .d false], .matvec, .d, [.par 0, .par 1, .par 2, .par 3, .par 4, .ff]⟩,
  ⟨.matvec, [.obj (.viewDense .mat) .d true, .obj (.view1D .vec) .d true, .obj .vector .d false], .matvec, .d, [.one, .par 0, .par 1, .zero, .par 2, .ff]⟩,
  ⟨.matvec, [.scal .d, .obj (.viewDense .mat) .d true, .obj (.view1D .vec) .d true, .scal .d, .obj .vector .d false], .matvec, .d, [.par 0, .par 1, .par 2, .par 3, .par 4, .ff]⟩,
  ⟨.matvec, [.obj (.viewDense .ten) .d true, .obj (.view1D .vec) .d true, .obj .vector .d false], .matvec, .d, [.one, .par 0, .par 1, .zero, .par 2, .ff]⟩,
  ⟨.matvec, [.scal .d, .obj (.viewDense .ten) .d true, .obj (.view1D .vec) .d true, .scal .d, .obj .vector .d false], .matvec, .d, [.par 0, .par 1, .par 2, .par 3, .par 4, .ff]⟩,
  ⟨.matvec, [.obj .dense .d true, .obj (.view1D .vec) .d true, .obj (.view1D .vec) .d false], .matvec, .d, [.one, .par 0, .par 1, .zero, .par 2, .ff]⟩,
  ⟨.matvec, [.scal .d, .obj .dense .d true, .obj (.view1D .vec) .d true, .scal .d, .obj (.view1D .vec) .d false], .matvec, .d, [.par 0, .par 1, .par 2, .par 3, .par 4, .ff]⟩,
  ⟨.matvec, [.obj (.viewDense .vec) .d true, .obj (.view1D .vec) .d true, .obj (.view1D .vec) .d false], .matvec, .d, [.one, .par 0, .par 1, .zero, .par 2, .ff]⟩,
  ⟨.matvec, [.scal .d, .obj (.viewDense .vec) .d true, .obj (.view1D .vec) .d true, .scal .d, .obj (.view1D .vec) .d false], .matvec, .d, [.par 0, .par 1, .par 2, .par 3, .par 4, .ff]⟩,
  ⟨.matvec, [.obj (.viewDense .mat) .d true, .obj (.view1D .vec) .d true, .obj (.view1D .vec) .d false], .matvec, .d, [.one, .par 0, .par 1, .zero, .par 2, .ff]⟩,
  ⟨.matvec, [.scal .d, .obj (.viewDense .mat) .d true, .obj (.view1D .vec) .d true, .scal .d, .obj (.view1D .vec) .d false], .matvec, .d, [.par 0, .par 1, .par 2, .par 3, .par 4, .ff]⟩,
  ⟨.matvec, [.obj (.viewDense .ten) .d true, .obj (.view1D .vec) .d true, .obj (.view1D .vec) .d false], .matvec, .d, [.one, .par 0, .par 1, .zero, .par 2, .ff]⟩,
  ⟨.matvec, [.scal .d, .obj (.viewDense .ten) .d true, .obj (.view1D .vec) .d true, .scal .d, .obj (.view1D .vec) .d false], .matvec, .d, [.par 0, .par 1, .par 2, .par 3, .par 4, .ff]⟩,
  ⟨.matvec, [.obj .dense .d true, .obj (.view1D .vec) .d true, .obj (.view1D .mat) .d false], .matvec, .d, [.one, .par 0, .par 1, .zero, .par 2, .ff]⟩,
  ⟨.matvec, [.scal .d, .obj .dense .d true, .obj (.view1D .vec) .d true, .scal .d, .obj (.view1D .mat) .d false], .matvec, .d, [.par 0, .par 1, .par 2, .par 3, .par 4, .ff]⟩,
  ⟨.matvec, [.obj (.viewDense .vec) .d true, .obj (.view1D .vec) .d true, .obj (.view1D .mat) .d false], .matvec, .d, [.one, .par 0, .par 1, .zero, .par 2, .ff]⟩,
  ⟨.matvec, [.scal .d, .obj (.viewDense .vec) .d true, .obj (.view1D .vec) .d true, .scal .d, .obj (.view1D .mat) .d false], .matvec, .d, [.par 0, .par 1, .par 2, .par 3, .par 4, .ff]⟩,
  ⟨.matvec, [.obj (.viewDense .mat) .d true, .obj (.view1D .vec) .d true, .obj (.view1D .mat) .d false], .matvec, .d, [.one, .par 0, .par 1, .zero, .par 2, .ff]⟩,
  ⟨.matvec, [.scal .d, .obj (.viewDense .mat) .d true, .obj (.view1D .vec) .d true, .scal .d, .obj (.view1D .mat) .d false], .matvec, .d, [.par 0, .par 1, .par 2, .par 3, .par 4, .ff]⟩,
  ⟨.matvec, [.obj (.viewDense .ten) .d true, .obj (.view1D .vec) .d true, .obj (.view1D .mat) .d false], .matvec, .d, [.one, .par 0, .par 1, .zero, .par 2, .ff]⟩,
  ⟨.matvec, [.scal .d, .obj (.viewDense .ten) .d true, .obj (.view1D .vec) .d true, .scal .d, .obj (.view1D .mat) .d false], .matvec, .d, [.par 0, .par 1, .par 2, .par 3, .par 4, .ff]⟩,
  ⟨.matvec, [.obj .dense .d true, .obj (.view1D .vec) .d true, .obj (.view1D .ten) .d false], .matvec, .d, [.one, .par 0, .par 1, .zero, .par 2, .ff]⟩,
  ⟨.matvec, [.scal .d, .obj .dense .d true, .obj (.view1D .vec) .d true, .scal .d, .obj (.view1D .ten) .d false], .matvec, .d, [.par 0, .par 1, .par 2, .par 3, .par 4, .ff]⟩,
  ⟨.matvec, [.obj (.viewDense .vec) .d true, .obj (.view1D .vec) .d true, .obj (.view1D .ten) .d false], .matvec, .d, [.one, .par 0, .par 1, .zero, .par 2, .ff]⟩,
  ⟨.matvec, [.scal .d, .obj (.viewDense .vec) .d true, .obj (.view1D .vec) .d true, .scal .d, .obj (.view1D .ten) .d false], .matvec, .d, [.par 0, .par 1, .par 2, .par 3, .par 4, .ff]⟩,
  ⟨.matvec, [.obj (.viewDense .mat) .d true, .obj (.view1D .vec) .d true, .obj (.view1D .ten) .d false], .matvec, .d, [.one, .par 0, .par 1, .zero, .par 2, .ff]⟩,
  ⟨.matvec, [.scal .d, .obj (.viewDense .mat) .d true, .obj (.view1D .vec) .d true, .scal .d, .obj (.view1D .ten) .d false], .matvec, .d, [.par 0, .par 1, .par 2, .par 3, .par 4, .ff]⟩,
  ⟨.matvec, [.obj (.viewDense .ten) .d true, .obj (.view1D .vec) .d true, .obj (.view1D .ten) .d false], .matvec, .d, [.one, .par 0, .par 1, .zero, .par 2, .ff]⟩,
  ⟨.matvec, [.scal .d, .obj (.viewDense .ten) .d true, .obj (.view1D .vec) .d true, .scal .d, .obj (.view1D .ten) .d false], .matvec, .d, [.par 0, .par 1, .par 2, .par 3, .par 4, .ff]⟩,
  ⟨.matvec, [.obj .dense .d true, .obj (.view1D .mat) .d true, .obj .vector .d false], .matvec, .d, [.one, .par 0, .par 1, .zero, .par 2, .ff]⟩,
  ⟨.matvec, [.scal .d, .obj .dense .d true, .obj (.view1D .mat) .d true, .scal .d, .obj .vector .d false], .matvec, .d, [.par 0, .par 1, .par 2, .par 3, .par 4, .ff]⟩,
  ⟨.matvec, [.obj (.viewDense .vec) .d true, .obj (.view1D .mat) .d true, .obj .vector .d false], .matvec, .d, [.one, .par 0, .par 1, .zero, .par 2, .ff]⟩,
  ⟨.matvec, [.scal .d, .obj (.viewDense .vec) .d true, .obj (.view1D .mat) .d true, .scal .d, .obj .vector .d false], .matvec, .d, [.par 0, .par 1, .par 2, .par 3, .par 4, .ff]⟩,
  ⟨.matvec, [.obj (.viewDense .mat) .d true, .obj (.view1D .mat) .d true, .obj .vector .d false], .matvec, .d, [.one, .par 0, .par 1, .zero, .par 2, .ff]⟩,
  ⟨.matvec, [.scal .d, .obj (.viewDense .mat) .d true, .obj (.view1D .mat) .d true, .scal .d, .obj .vector .d false], .matvec, .d, [.par 0, .par 1, .par 2, .par 3, .par 4, .ff]⟩,
  ⟨.matvec, [.obj (.viewDense .ten) .d true, .obj (.view1D .mat) .d true, .obj .vector .d false], .matvec, .d, [.one, .par 0, .par 1, .zero, .par 2, .ff]⟩,
  ⟨.matvec, [.scal .d, .obj (.viewDense .ten) .d true, .obj (.view1D .mat) .d true, .scal .d, .obj .vector .d false], .matvec, .d, [.par 0, .par 1, .par 2, .par 3, .par 4, .ff]⟩,
  ⟨.matvec, [.obj .dense .d true, .obj (.view1D .mat) .d true, .obj (.view1D .vec) .d false], .matvec, .d, [.one, .par 0, .par 1, .zero, .par 2, .ff]⟩,
  ⟨.matvec, [.scal .d, .obj .dense .d true, .obj (.view1D .mat) .d true, .scal .d, .obj (.view1D .vec) .d false], .matvec, .d, [.par 0, .par 1, .par 2, .par 3, .par 4, .ff]⟩,
  ⟨.matvec, [.obj (.viewDense .vec) .d true, .obj (.view1D .mat) .d true, .obj (.view1D .vec) .d false], .matvec, .d, [.one, .par 0, .par 1, .zero, .par 2, .ff]⟩,
  ⟨.matvec, [.scal .d, .obj (.viewDense .vec) .d true, .obj (.view1D .mat) .d true, .scal .d, .obj (.view1D .vec) .d false], .matvec, .d, [.par 0, .par 1, .par 2, .par 3, .par 4, .ff]⟩,
  ⟨.matvec, [.obj (.viewDense .mat) .d true, .obj (.view1D .mat) .d true, .obj (.view1D .vec) .d false], .matvec, .d, [.one, .par 0, .par 1, .zero, .par 2, .ff]⟩,
  ⟨.matvec, [.scal .d, .obj (.viewDense .mat) .d true, .obj (.view1D .mat) .d true, .scal .d, .obj (.view1D .vec) .d false], .matvec, .d, [.par 0, .par 1, .par 2, .par 3, .par 4, .ff]⟩,
  ⟨.matvec, [.obj (.viewDense .ten) .d true, .obj (.view1D .mat) .d true, .obj (.view1D .vec) .d false], .matvec, .d, [.one, .par 0, .par 1, .zero, .par 2, .ff]⟩,
  ⟨.matvec, [.scal .d, .obj (.viewDense .ten) .d true, .obj (.view1D .mat) .d true, .scal .d, .obj (.view1D .vec) .d false], .matvec, .d, [.par 0, .par 1, .par 2, .par 3, .par 4, .ff]⟩]

/-- src/blas/matrix/matvec/matvec_blas.cpp:395-786 -/
def tMatvec_1 : List Overload := [
  ⟨.matvec, [.obj .dense .d true, .obj (.view1D .mat) .d true, .obj (.view1D .mat) .d false], .matvec, .d, [.one, .par 0, .par 1, .zero, .par 2, .ff]⟩,
  ⟨.matvec, [.scal .d, .obj .dense .d true, .obj (.view1D .mat) .d true, .scal .d, .obj (.view1D .mat) .d false], .matvec, .d, [.par 0, .par 1, .par 2, .par 3, .par 4, .ff]⟩,
  ⟨.matvec, [.obj (.viewDense .vec) .d true, .obj (.view1D .mat) .d true, .obj (.view1D .mat) .d false], .matvec, .d, [.one, .par 0, .par 1, .zero, .par 2, .ff]⟩,
  ⟨.matvec, [.scal .d, .obj (.viewDense .vec) .d true, .obj (.view1D .mat) .d true, .scal .d, .obj (.view1D .mat) .d false], .matvec, .d, [.par 0, .par 1, .par 2, .par 3, .par 4, .ff]⟩,
  ⟨.matvec, [.obj (.viewDense .mat) .d true, .obj (.view1D .mat) .d true, .obj (.view1D .mat) .d false], .matvec, .d, [.one, .par 0, .par 1, .zero, .par 2, .ff]⟩,
  ⟨.matvec, [.scal .d, .obj (.viewDense .mat) .d true, .obj (.view1D .mat) .d true, .scal .d, .obj (.view1D .mat) .d false], .matvec, .d, [.par 0, .par 1, .par 2, .par 3, .par 4, .ff]⟩,
  ⟨.matvec, [.obj (.viewDense .ten) .d true, .obj (.view1D .mat) .d true, .obj (.view1D .mat) .d false], .matvec, .d, [.one, .par 0, .par 1, .zero, .par 2, .ff]⟩,
  ⟨.matvec, [.scal .d, .obj (.viewDense .ten) .d true, .obj (.view1D .mat) .d true, .scal .d, .obj (.view1D .mat) .d false], .matvec, .d, [.par 0, .par 1, .par 2, .par 3, .par 4, .ff]⟩,
  ⟨.matvec, [.obj .dense .d true, .obj (.view1D .mat) .d true, .obj (.view1D .ten) .d false], .matvec, .d, [.one, .par 0, .par 1, .zero, .par 2, .ff]⟩,
  ⟨.matvec, [.scal .d, .obj .dense .d true, .obj (.view1D .mat) .d true, .scal .d, .obj (.view1D .ten) .d false], .matvec, .d, [.par 0, .par 1, .par 2, .par 3, .par 4, .ff]⟩,
  ⟨.matvec, [.obj (.viewDense .vec) .d true, .obj (.view1D .mat) .d true, .obj (.view1D .ten) .d false], .matvec, .d, [.one, .par 0, .par 1, .zero, .par 2, .ff]⟩,
  ⟨.matvec, [.scal .d, .obj (.viewDense .vec) .d true, .obj (.view1D .mat) .d true, .scal .d, .obj (.view1D .ten) .d false], .matvec, .d, [.par 0, .par 1, .par 2, .par 3, .par 4, .ff]⟩,
  ⟨.matvec, [.obj (.viewDense .mat) .d true, .obj (.view1D .mat) .d true, .obj (.view1D .ten) .d false], .matvec, .d, [.one, .par 0, .par 1, .zero, .par 2, .ff]⟩,
  ⟨.matvec, [.scal .d, .obj (.viewDense .mat) .d true, .obj (.view1D .mat) .d true, .scal .d, .obj (.view1D .ten) .d false], .matvec, .d, [.par 0, .par 1, .par 2, .par 3, .par 4, .ff]⟩,
  ⟨.matvec, [.obj (.viewDense .ten) .d true, .obj (.view1D .mat) .d true, .obj (.view1D .ten) .d false], .matvec, .d, [.one, .par 0, .par 1, .zero, .par 2, .ff]⟩,
  ⟨.matvec, [.scal .d, .obj (.viewDense .ten) .d true, .obj (.view1D .mat) .d true, .scal .d, .obj (.view1D .ten) .d false], .matvec, .d, [.par 0, .par 1, .par 2, .par 3, .par 4, .ff]⟩,
  ⟨.matvec, [.obj .dense .d true, .obj (.view1D .ten) .d true, .obj .vector .d false], .matvec, .d, [.one, .par 0, .par 1, .zero, .par 2, .ff]⟩,
  ⟨.matvec, [.scal .d, .obj .dense .d true, .obj (.view1D .ten) .d true, .scal .d, .obj .vector .d false], .matvec, .d, [.par 0, .par 1, .par 2, .par 3, .par 4, .ff]⟩,
  ⟨.matvec, [.obj (.viewDense .vec) .d true, .obj (.view1D .ten) .d true, .obj .vector .d false], .matvec, .d, [.one, .par 0, .par 1, .zero, .par 2, .ff]⟩,
  ⟨.matvec, [.scal .d, .obj (.viewDense .vec) .d true, .obj (.view1D .ten) .d true, .scal .d, .obj .vector .d false], .matvec, .d, [.par 0, .par 1, .par 2, .par 3, .par 4, .ff]⟩,
  ⟨.matvec, [.obj (.viewDense .mat) .d true, .obj (.view1D .ten) .d true, .obj .vector .d false], .matvec, .d, [.one, .par 0, .par 1, .zero, .par 2, .ff]⟩,
  ⟨.matvec, [.scal .d, .obj (.viewDense .mat) .d true, .obj (.view1D .ten) .d true, .scal .d, .obj .vector .d false], .matvec, .d, [.par 0, .par 1, .par 2, .par 3, .par 4, .ff]⟩,
  ⟨.matvec, [.obj (.viewDense .ten) .d true, .obj (.view1D .ten) .d true, .obj .vector .d false], .matvec, .d, [.one, .par 0, .par 1, .zero, .par 2, .ff]⟩,
  ⟨.matvec, [.scal .d, .obj (.viewDense .ten) .d true, .obj (.view1D .ten) .d true, .scal .d, .obj .vector .d false], .matvec, .d, [.par 0, .par 1, .par 2, .par 3, .par 4, .ff]⟩,
  ⟨.matvec, [.obj .dense .d true, .obj (.view1D .ten) .d true, .obj (.view1D .vec) .d false], .matvec, .d, [.one, .par 0, .par 1, .zero, .par 2, .ff]⟩,
  ⟨.matvec, [.scal .d, .obj .dense .d true, .obj (.view1D .ten) .d true, .scal .d, .obj (.view1D .vec) .d false], .matvec, .d, [.par 0, .par 1, .par 2, .par 3, .par 4, .ff]⟩,
  ⟨.matvec, [.obj (.viewDense .vec) .d true, .obj (.view1D .ten) .d true, .obj (.view1D .vec) .d false], .matvec, .d, [.one, .par 0, .par 1, .zero, .par 2, .ff]⟩,
  ⟨.matvec, [.scal .d, .obj (.viewDense .vec) .d true, .obj (.view1D .ten) .d true, .scal .d, .obj (.view1D .vec) .d false], .matvec, .d, [.par 0, .par 1, .par 2, .par 3, .par 4, .ff]⟩,
  ⟨.matvec, [.obj (.viewDense .mat) .d true, .obj (.view1D .ten) .d true, .obj (.view1D .vec) .d false], .matvec, .d, [.one, .par 0, .par 1, .zero, .par 2, .ff]⟩,
  ⟨.matvec, [.scal .d, .obj (.viewDense .mat) .d true, .obj (.view1D .ten) .d true, .scal .d, .obj (.view1D .vec) .d false], .matvec, .d, [.par 0, .par 1, .par 2, .par 3, .par 4, .ff]⟩,
  ⟨.matvec, [.obj (.viewDense .ten) .d true, .obj (.view1D .ten) .d true, .obj (.view1D .vec) .d false], .matvec, .d, [.one, .par 0, .par 1, .zero, .par 2, .ff]⟩,
  ⟨.matvec, [.scal .d, .obj (.viewDense .ten) .d true, .obj (.view1D .ten) .d true, .scal .d, .obj (.view1D .vec) .d false], .matvec, .d, [.par 0, .par 1, .par 2, .par 3, .par 4, .ff]⟩,
  ⟨.matvec, [.obj .dense .d true, .obj (.view1D .ten) .d true, .obj (.view1D .mat) .d false], .matvec, .d, [.one, .par 0, .par 1, .zero, .par 2, .ff]⟩,
  ⟨.matvec, [.scal .d, .obj .dense .d true, .obj (.view1D .ten) .d true, .scal .d, .obj (.view1D .mat) .d false], .matvec, .d, [.par 0, .par 1, .par 2, .par 3, .par 4, .ff]⟩,
  ⟨.matvec, [.obj (.viewDense .vec) .d true, .obj (.view1D .ten) .d true, .obj (.view1D .mat) .d false], .matvec, .d, [.one, .par 0, .par 1, .zero, .par 2, .ff]⟩,
  ⟨.matvec, [.scal .d, .obj (.viewDense .vec) .d true, .obj (.view1D .ten) .d true, .scal .d, .obj (.view1D .mat) .d false], .matvec, .d, [.par 0, .par 1, .par 2, .par 3, .par 4, .ff]⟩,
  ⟨.matvec, [.obj (.viewDense .mat) .d true, .obj (.view1D .ten) .d true, .obj (.view1D .mat) .d false], .matvec, .d, [.one, .par 0, .par 1, .zero, .par 2, .ff]⟩,
  ⟨.matvec, [.scal .d, .obj (.viewDense .mat) .d true, .obj (.view1D .ten) .d true, .scal .d, .obj (.view1D .mat) .d false], .matvec, .d, [.par 0, .par 1, .par 2, .par 3, .par 4, .ff]⟩,
  ⟨.matvec, [.obj (.viewDense .ten) .d true, .obj (.view1D .ten) .d true, .obj (.view1D .mat) .d false], .matvec, .d, [.one, .par 0, .par 1, .zero, .par 2, .ff]⟩,
  ⟨.matvec, [.scal .d, .obj (.viewDense .ten) .d true, .obj (.view1D .ten) .d true, .scal .d, .obj (.view1D .mat) .d false], .matvec, .d, [.par 0, .par 1, .par 2, .par 3, .par 4, .ff]⟩,
  ⟨.matvec, [.obj .dense .d true, .obj (.view1D .ten) .d true, .obj (.view1D .ten) .d false], .matvec, .d, [.one, .par 0, .par 1, .zero, .par 2, .ff]⟩,
  ⟨.matvec, [.scal .d, .obj .dense .d true, .obj (.view1D .ten) .d true, .scal .d, .obj (.view1D .ten) .d false], .matvec, .d, [.par 0, .par 1, .par 2, .par 3, .par 4, .ff]⟩,
  ⟨.matvec, [.obj (.viewDense .vec) .d true, .obj (.view1D .ten) .d true, .obj (.view1D .ten) .d false], .matvec, .d, [.one, .par 0, .par 1, .zero, .par 2, .ff]⟩,
  ⟨.matvec, [.scal .d, .obj (.viewDense .vec) .d true, .obj (.view1D .ten) .d true, .scal .d, .obj (.view1D .ten) .d false], .matvec, .d, [.par 0, .par 1, .par 2, .par 3, .par 4, .ff]⟩,
  ⟨.matvec, [.obj (.viewDense .mat) .d true, .obj (.view1D .ten) .d true, .obj (.view1D .ten) .d false], .matvec, .d, [.one, .par 0, .par 1, .zero, .par 2, .ff]⟩,
  ⟨.matvec, [.scal .d, .obj (.viewDense .mat) .d true, .obj (.view1D .ten) .d true, .scal .d, .obj (.view1D .ten) .d false], .matvec, .d, [.par 0, .par 1, .par 2, .par 3, .par 4, .ff]⟩,
  ⟨.matvec, [.obj (.viewDense .ten) .d true, .obj (.view1D .ten) .d true, .obj (.view1D .ten) .d false], .matvec, .d, [.one, .par 0, .par 1, .zero, .par 2, .ff]⟩,
  ⟨.matvec, [.scal .d, .obj (.viewDense .ten) .d true, .obj (.view1D .ten) .d true, .scal .d, .obj (.view1D .ten) .d false], .matvec, .d, [.par 0, .par 1, .par 2, .par 3, .par 4, .ff]⟩,
  ⟨.matvec, [.obj .dense .s true, .obj .vector .s true, .obj .vector .s false], .matvec, .s, [.one, .par 0, .par 1, .zero, .par 2, .ff]⟩,
  ⟨.matvec, [.scal .s, .obj .dense .s true, .obj .vector .s true, .scal .s, .obj .vector .s false], .matvec, .s, [.par 0, .par 1, .par 2, .par 3, .par 4, .ff]⟩,
  ⟨.matvec, [.obj (.viewDense .vec) .s true, .obj .vector .s true, .obj .vector .s false], .matvec, .s, [.one, .par 0, .par 1, .zero, .par 2, .ff]⟩,
  ⟨.matvec, [.scal .s, .obj (.viewDense .vec) .s true, .obj .vector .s true, .scal .s, .obj .vector .s false], .matvec, .s, [.par 0, .par 1, .par 2, .par 3, .par 4, .ff]⟩,
  ⟨.matvec, [.obj (.viewDense .mat) .s true, .obj .vector .s true, .obj .vector .s false], .matvec, .s, [.one, .par 0, .par 1, .zero, .par 2, .ff]⟩,
  ⟨.matvec, [.scal .s, .obj (.viewDense .mat) .s true, .obj .vector .s true, .scal .s, .obj .vector .s false], .matvec, .s, [.par 0, .par 1, .par 2, .par 3, .par 4, .ff]⟩,
  ⟨.matvec, [.obj (.viewDense .ten) .s true, .obj .vector .s true, .obj .vector .s false], .matvec, .s, [.one, .par 0, .par 1, .zero, .par 2, .ff]⟩,
  ⟨.matvec, [.scal .s, .obj (.viewDense .ten) .s true, .obj .vector .s true, .scal .s, .obj .vector .s false], .matvec, .s, [.par 0, .par 1, .par 2, .par 3, .par 4, .ff]⟩,
  ⟨.matvec, [.obj .dense .s true, .obj .vector .s true, .obj (.view1D .vec) .s false], .matvec, .s, [.one, .par 0, .par 1, .zero, .par 2, .ff]⟩,
  ⟨.matvec, [.scal .s, .obj .dense .s true, .obj .vector .s true, .scal .s, .obj (.view1D .vec) .s false], .matvec, .s, [.par 0, .par 1, .par 2, .par 3, .par 4, .ff]⟩,
  ⟨.matvec, [.obj (.viewDense .vec) .s true, .obj .vector .s true, .obj (.view1D .vec) .s false], .matvec, .s, [.one, .par 0, .par 1, .zero, .par 2, .ff]⟩,
  ⟨.matvec, [.scal .s, .obj (.viewDense .vec) .s true, .obj .vector .s true, .scal .s, .obj (.view1D .vec) .s false], .matvec, .s, [.par 0, .par 1, .par 2, .par 3, .par 4, .ff]⟩,
  ⟨.matvec, [.obj (.viewDense .mat) .s true, .obj .vector .s true, .obj (.view1D .vec) .s false], .matvec, .s, [.one, .par 0, .par 1, .zero, .par 2, .ff]⟩,
  ⟨.matvec, [.scal .s, .obj (.viewDense .mat) .s true, .obj .vector .s true, .scal .s, .obj (.view1D .vec) .s false], .matvec, .s, [.par 0, .par 1, .par 2, .par 3, .par 4, .ff]⟩,
  ⟨.matvec, [.obj (.viewDense .ten) .s true, .obj .vector .s true, .obj (.view1D .vec) .s false], .matvec, .s, [.one, .par 0, .par 1, .zero, .par 2, .ff]⟩,
  ⟨.matvec, [.scal .s, .obj (.viewDense .ten) .s true, .obj .vector .s true, .scal .s, .obj (.view1D .vec) .s false], .matvec, .s, [.par 0, .par 1, .par 2, .par 3, .par 4, .ff]⟩,
  ⟨.matvec, [.obj .dense .s true, .obj .vector .s true, .obj (.view1D .mat) .s false], .matvec, .s, [.one, .par 0, .par 1, .zero, .par 2, .ff]⟩,
  ⟨.matvec, [.scal .s, .obj .dense .s true, .obj .vector .s true, .scal .s, .obj (.view1D .mat) .s false], .matvec, .s, [.par 0, .par 1, .par 2, .par 3, .par 4, .ff]⟩,
  ⟨.matvec, [.obj (.viewDense .vec) .s true, .obj .vector .s true, .obj (.view1D .mat) .s false], .matvec, .s, [.one, .par 0, .par 1, .zero, .par 2, .ff]⟩,
  ⟨.matvec, [.scal .s, .obj (.viewDense .vec) .s true, .obj .vector .s true, .scal .s, .obj (.view1D .mat) .s false], .matvec, .s, [.par 0, .par 1, .par 2, .par 3, .par 4, .ff]⟩,
  ⟨.matvec, [.obj (.viewDense .mat) .s true, .obj .vector .s true, .obj (.view1D .mat) .s false], .matvec, .s, [.one, .par 0, .par 1, .zero, .par 2, .ff]⟩,
  ⟨.matvec, [.scal .s, .obj (.viewDense .mat) .s true, .obj .vector .s true, .scal .s, .obj (.view1D .mat) .s false], .matvec, .s, [.par 0, .par 1, .par 2, .par 3, .par 4, .ff]⟩,
  ⟨.matvec, [.obj (.viewDense .ten) .s true, .obj .vector .s true, .obj (.view1D .mat) .s false], .matvec, .s, [.one, .par 0, .par 1, .zero, .par 2, .ff]⟩,
  ⟨.matvec, [.scal .s, .obj (.viewDense .ten) .s true, .obj .vector .s true, .scal .s, .obj (.view1D .mat) .s false], .matvec, .s, [.par 0, .par 1, .par 2, .par 3, .par 4, .ff]⟩,
  ⟨.matvec, [.obj .dense .s true, .obj .vector .s true, .obj (.view1D .ten) .s false], .matvec, .s, [.one, .par 0, .par 1, .zero, .par 2, .ff]⟩,
  ⟨.matvec, [.scal .s, .obj .dense .s true, .obj .vector .s true, .scal .s, .obj (.view1D .ten) .s false], .matvec, .s, [.par 0, .par 1, .par 2, .par 3, .par 4, .ff]⟩,
  ⟨.matvec, [.obj (.viewDense .vec) .s true, .obj .vector .s true, .obj (.view1D .ten) .s false], .matvec, .s, [.one, .par 0, .par 1, .zero, .par 2, .ff]⟩,
  ⟨.matvec, [.scal .s, .obj (.viewDense .vec) .s true, .obj .vector .s true, .scal .s, .obj (.view1D .ten) .s false], .matvec, .s, [.par 0, .par 1, .par 2, .par 3, .par 4, .ff]⟩,
  ⟨.matvec, [.obj (.viewDense .mat) .s true, .obj .vector .s true, .obj (.view1D .ten) .s false], .matvec, .s, [.one, .par 0, .par 1, .zero, .par 2, .ff]⟩,
  ⟨.matvec, [.scal .s, .obj (.viewDense .mat) .s true, .obj .vector .s true, .scal .s, .obj (.view1D .ten) .s false], .matvec, .s, [.par 0, .par 1, .par 2, .par 3, .par 4, .ff]⟩,
  ⟨.matvec, [.obj (.viewDense .ten) .s true, .obj .vector .s true, .obj (.view1D .ten) .s false], .matvec, .s, [.one, .par 0, .par 1, .zero, .par 2, .ff]⟩,
  ⟨.matvec, [.scal .s, .obj (.viewDense .ten) .s true, .obj .vector .s true, .scal .s, .obj (.view1D .ten) .s false], .matvec, .s, [.par 0, .par 1, .par 2, .par 3, .par 4, .ff]⟩]

/-- src/blas/matrix/matvec/matvec_blas.cpp:787-1188 -/
def tMatvec_2 : List Overload := [
  ⟨.matvec, [.obj .dense .s true, .obj (.view1D .vec) .s true, .obj .vector .s false], .matvec, .s, [.one, .par 0, .par 1, .zero, .par 2, .ff]⟩,
  ⟨.matvec, [.scal .s, .obj .dense .s true, .obj (.view1D .vec) .s true, .scal .s, .obj .vector .s false], .matvec, .s, [.par 0, .par 1, .par 2, .par 3, .par 4, .ff]⟩,
  ⟨.matvec, [.obj (.viewDense .vec) .s true, .obj (.view1D .vec) .s true, .obj .vector .s false], .matvec, .s, [.one, .par 0, .par 1, .zero, .par 2, .ff]⟩,
  ⟨.matvec, [.scal .s, .obj (.viewDense .vec) .s true, .obj (.view1D .vec) .s true, .scal .s, .obj .vector .s false], .matvec, .s, [.par 0, .par 1, .par 2, .par 3, .par 4, .ff]⟩,
  ⟨.matvec, [.obj (.viewDense .mat) .s true, .obj (.view1D .vec) .s true, .obj .vector .s false], .matvec, .s, [.one, .par 0, .par 1, .zero, .par 2, .ff]⟩,
  ⟨.matvec, [.scal .s, .obj (.viewDense .mat) .s true, .obj (.view1D .vec) .s true, .scal .s, .obj .vector .s false], .matvec, .s, [.par 0, .par 1, .par 2, .par 3, .par 4, .ff]⟩,
  ⟨.matvec, [.obj (.viewDense .ten) .s true, .obj (.view1D .vec) .s true, .obj .vector .s false], .matvec, .s, [.one, .par 0, .par 1, .zero, .par 2, .ff]⟩,
  ⟨.matvec, [.scal .s, .obj (.viewDense .ten) .s true, .obj (.view1D .vec) .s true, .scal .s, .obj .vector .s false], .matvec, .s, [.par 0, .par 1, .par 2, .par 3, .par 4, .ff]⟩,
  ⟨.matvec, [.obj .dense .s true, .obj (.view1D .vec) .s true, .obj (.view1D .vec) .s false], .matvec, .s, [.one, .par 0, .par 1, .zero, .par 2, .ff]⟩,
  ⟨.matvec, [.scal .s, .obj .dense .s true, .obj (.view1D .vec) .s true, .scal .s, .obj (.view1D .vec) .s false], .matvec, .s, [.par 0, .par 1, .par 2, .par 3, .par 4, .ff]⟩,
  ⟨.matvec, [.obj (.viewDense .vec) .s true, .obj (.view1D .vec) .s true, .obj (.view1D .vec) .s false], .matvec, .s, [.one, .par 0, .par 1, .zero, .par 2, .ff]⟩,
  ⟨.matvec, [.scal .s, .obj (.viewDense .vec) .s true, .obj (.view1D .vec) .s true, .scal .s, .obj (.view1D .vec) .s false], .matvec, .s, [.par 0, .par 1, .par 2, .par 3, .par 4, .ff]⟩,
  ⟨.matvec, [.obj (.viewDense .mat) .s true, .obj (.view1D .vec) .s true, .obj (.view1D .vec) .s false], .matvec, .s, [.one, .par 0, .par 1, .zero, .par 2, .ff]⟩,
  ⟨.matvec, [.scal .s, .obj (.viewDense .mat) .s true, .obj (.view1D .vec) .s true, .scal .s, .obj (.view1D .vec) .s false], .matvec, .s, [.par 0, .par 1, .par 2, .par 3, .par 4, .ff]⟩,
  ⟨.matvec, [.obj (.viewDense .ten) .s true, .obj (.view1D .vec) .s true, .obj (.view1D .vec) .s false], .matvec, .s, [.one, .par 0, .par 1, .zero, .par 2, .ff]⟩,
  ⟨.matvec, [.scal .s, .obj (.viewDense .ten) .s true, .obj (.view1D .vec) .s true, .scal .s, .obj (.view1D .vec) .s false], .matvec, .s, [.par 0, .par 1, .par 2, .par 3, .par 4, .ff]⟩,
  ⟨.matvec, [.obj .dense .s true, .obj (.view1D .vec) .s true, .obj (.view1D .mat) .s false], .matvec, .s, [.one, .par 0, .par 1, .zero, .par 2, .ff]⟩,
  ⟨.matvec, [.scal .s, .obj .dense .s true, .obj (.view1D .vec) .s true, .scal .s, .obj (.view1D .mat) .s false], .matvec, .s, [.par 0, .par 1, .par 2, .par 3, .par 4, .ff]⟩,
  ⟨.matvec, [.obj (.viewDense .vec) .s true, .obj (.view1D .vec) .s true, .obj (.view1D .mat) .s false], .matvec, .s, [.one, .par 0, .par 1, .zero, .par 2, .ff]⟩,
  ⟨.matvec, [.scal .s, .obj (.viewDense .vec) .s true, .obj (.view1D .vec) .s true, .scal .s, .obj (.view1D .mat) .s false], .matvec, .s, [.par 0, .par 1, .par 2, .par 3, .par 4, .ff]⟩,
  ⟨.matvec, [.obj (.viewDense .mat) .s true, .obj (.view1D .vec) .s true, .obj (.view1D .mat) .s false], .matvec, .s, [.one, .par 0, .par 1, .zero, .par 2, .ff]⟩,
  ⟨.matvec, [.scal .s, .obj (.viewDense .mat) .s true, .obj (.view1D .vec) .s true, .scal .s, .obj (.view1D .mat) .s false], .matvec, .s, [.par 0, .par 1, .par 2, .par 3, .par 4, .ff]⟩,
  ⟨.matvec, [.obj (.viewDense .ten) .s true, .obj (.view1D .vec) .s true, .obj (.view1D .mat) .s false], .matvec, .s, [.one, .par 0, .par 1, .zero, .par 2, .ff]⟩,
  ⟨.matvec, [.scal .s, .obj (.viewDense .ten) .s true, .obj (.view1D .vec) .s true, .scal .s, .obj (.view1D .mat) .s false], .matvec, .s, [.par 0, .par 1, .par 2, .par 3, .par 4, .ff]⟩,
  ⟨.matvec, [.obj .dense .s true, .obj (.view1D .vec) .s true, .obj (.view1D .ten) .s false], .matvec, .s, [.one, .par 0, .par 1, .zero, .par 2, .ff]⟩,
  ⟨.matvec, [.scal .s, .obj .dense .s true, .obj (.view1D .vec) .s true, .scal .s, .obj (.view1D .ten) .s false], .matvec, .s, [.par 0, .par 1, .par 2, .par 3, .par 4, .ff]⟩,
  ⟨.matvec, [.obj (.viewDense .vec) .s true, .obj (.view1D .vec) .s true, .obj (.view1D .ten) .s false], .matvec, .s, [.one, .par 0, .par 1, .zero, .par 2, .ff]⟩,
  ⟨.matvec, [.scal .s, .obj (.viewDense .vec) .s true, .obj (.view1D .vec) .s true, .scal .s, .obj (.view1D .ten) .s false], .matvec, .s, [.par 0, .par 1, .par 2, .par 3, .par 4, .ff]⟩,
  ⟨.matvec, [.obj (.viewDense .mat) .s true, .obj (.view1D .vec) .s true, .obj (.view1D .ten) .s false], .matvec, .s, [.one, .par 0, .par 1, .zero, .par 2, .ff]⟩,
  ⟨.matvec, [.scal .s, .obj (.viewDense .mat) .s true, .obj (.view1D .vec) .s true, .scal .s, .obj (.view1D .ten) .s false], .matvec, .s, [.par 0, .par 1, .par 2, .par 3, .par 4, .ff]⟩,
  ⟨.matvec, [.obj (.viewDense .ten) .s true, .obj (.view1D .vec) .s true, .obj (.view1D .ten) .s false], .matvec, .s, [.one, .par 0, .par 1, .zero, .par 2, .ff]⟩,
  ⟨.matvec, [.scal .s, .obj (.viewDense .ten) .s true, .obj (.view1D .vec) .s true, .scal .s, .obj (.view1D .ten) .s false], .matvec, .s, [.par 0, .par 1, .par 2, .par 3, .par 4, .ff]⟩,
  ⟨.matvec, [.obj .dense .s true, .obj (.view1D .mat) .s true, .obj .vector .s false], .matvec, .s, [.one, .par 0, .par 1, .zero, .par 2, .ff]⟩,
  ⟨.matvec, [.scal .s, .obj .dense .s true, .obj (.view1D .mat) .s true, .scal .s, .obj .vector .s false], .matvec, .s, [.par 0, .par 1, .par 2, .par 3, .par 4, .ff]⟩,
  ⟨.matvec, [.obj (.viewDense .vec) .s true, .obj (.view1D .mat) .s true, .obj .vector .s false], .matvec, .s, [.one, .par 0, .par 1, .zero, .par 2, .ff]⟩,
  ⟨.matvec, [.scal .s, .obj (.viewDense .vec) .s true, .obj (.view1D .mat) .s true, .scal .s, .obj .vector .s false], .matvec, .s, [.par 0, .par 1, .par 2, .par 3, .par 4, .ff]⟩,
  ⟨.matvec, [.obj (.viewDense .mat) .s true, .obj (.view1D .mat) .s true, .obj .vector .s false], .matvec, .s, [.one, .par 0, .par 1, .zero, .par 2, .ff]⟩,
  ⟨.matvec, [.scal .s, .obj (.viewDense .mat) .s true, .obj (.view1D .mat) .s true, .scal .s, .obj .vector .s false], .matvec, .s, [.par 0, .par 1, .par 2, .par 3, .par 4, .ff]⟩,
  ⟨.matvec, [.obj (.viewDense .ten) .s true, .obj (.view1D .mat) .s true, .obj .vector .s false], .matvec, .s, [.one, .par 0, .par 1, .zero, .par 2, .ff]⟩,
  ⟨.matvec, [.scal .s, .obj (.viewDense .ten) .s true, .obj (.view1D .mat) .s true, .scal .s, .obj .vector .s false], .matvec, .s, [.par 0, .par 1, .par 2, .par 3, .par 4, .ff]⟩,
  ⟨.matvec, [.obj .dense .s true, .obj (.view1D .mat) .s true, .obj (.view1D .vec) .s false], .matvec, .s, [.one, .par 0, .par 1, .zero, .par 2, .ff]⟩,
  ⟨.matvec, [.scal .s, .obj .dense .s true, .obj (.view1D .mat) .s true, .scal .s, .obj (.view1D .vec) .s false], .matvec, .s, [.par 0, .par 1, .par 2, .par 3, .par 4, .ff]⟩,
  ⟨.matvec, [.obj (.viewDense .vec) .s true, .obj (.view1D .mat) .s true, .obj (.view1D .vec) .s false], .matvec, .s, [.one, .par 0, .par 1, .zero, .par 2, .ff]⟩,
  ⟨.matvec, [.scal .s, .obj (.viewDense .vec) .s true, .obj (.view1D .mat) .s true, .scal .s, .obj (.view1D .vec) .s false], .matvec, .s, [.par 0, .par 1, .par 2, .par 3, .par 4, .ff]⟩,
  ⟨.matvec, [.obj (.viewDense .mat) .s true, .obj (.view1D .mat) .s true, .obj (.view1D .vec) .s false], .matvec, .s, [.one, .par 0, .par 1, .zero, .par 2, .ff]⟩,
  ⟨.matvec, [.scal .s, .obj (.viewDense .mat) .s true, .obj (.view1D .mat) .s true, .scal .s, .obj (.view1D .vec) .s false], .matvec, .s, [.par 0, .par 1, .par 2, .par 3, .par 4, .ff]⟩,
  ⟨.matvec, [.obj (.viewDense .ten) .s true, .obj (.view1D .mat) .s true, .obj (.view1D .vec) .s false], .matvec, .s, [.one, .par 0, .par 1, .zero, .par 2, .ff]⟩,
  ⟨.matvec, [.scal .s, .obj (.viewDense .ten) .s true, .obj (.view1D .mat) .s true, .scal .s, .obj (.view1D .vec) .s false], .matvec, .s, [.par 0, .par 1, .par 2, .par 3, .par 4, .ff]⟩,
  ⟨.matvec, [.obj .dense .s true, .obj (.view1D .mat) .s true, .obj (.view1D .mat) .s false], .matvec, .s, [.one, .par 0, .par 1, .zero, .par 2, .ff]⟩,
  ⟨.matvec, [.scal .s, .obj .dense .s true, .obj (.view1D .mat) .s true, .scal .s, .obj (.view1D .mat) .s false], .matvec, .s, [.par 0, .par 1, .par 2, .par 3, .par 4, .ff]⟩,
  ⟨.matvec, [.obj (.viewDense .vec) .s true, .obj (.view1D .mat) .s true, .obj (.view1D .mat) .s false], .matvec, .s, [.one, .par 0, .par 1, .zero, .par 2, .ff]⟩,
  ⟨.matvec, [.scal .s, .obj (.viewDense .vec) .s true, .obj (.view1D .mat) .s true, .scal .s, .obj (.view1D .mat) .s false], .matvec, .s, [.par 0, .par 1, .par 2, .par 3, .par 4, .ff]⟩,
  ⟨.matvec, [.obj (.viewDense .mat) .s true, .obj (.view1D .mat) .s true, .obj (.view1D .mat) .s false], .matvec, .s, [.one, .par 0, .par 1, .zero, .par 2, .ff]⟩,
  ⟨.matvec, [.scal .s, .obj (.viewDense .mat) .s true, .obj (.view1D .mat) .s true, .scal .s, .obj (.view1D .mat) .s false], .matvec, .s, [.par 0, .par 1, .par 2, .par 3, .par 4, .ff]⟩,
  ⟨.matvec, [.obj (.viewDense .ten) .s true, .obj (.view1D .mat) .s true, .obj (.view1D .mat) .s false], .matvec, .s, [.one, .par 0, .par 1, .zero, .par 2, .ff]⟩,
  ⟨.matvec, [.scal .s, .obj (.viewDense .ten) .s true, .obj (.view1D .mat) .s true, .scal .s, .obj (.view1D .mat) .s false], .matvec, .s, [.par 0, .par 1, .par 2, .par 3, .par 4, .ff]⟩,
  ⟨.matvec, [.obj .dense .s true, .obj (.view1D .mat) .s true, .obj (.view1D .ten) .s false], .matvec, .s, [.one, .par 0, .par 1, .zero, .par 2, .ff]⟩,
  ⟨.matvec, [.scal .s, .obj .dense .s true, .obj (.view1D .mat) .s true, .scal .s, .obj (.view1D .ten) .s false], .matvec, .s, [.par 0, .par 1, .par 2, .par 3, .par 4, .ff]⟩,
  ⟨.matvec, [.obj (.viewDense .vec) .s true, .obj (.view1D .mat) .s true, .obj (.view1D .ten) .s false], .matvec, .s, [.one, .par 0, .par 1, .zero, .par 2, .ff]⟩,
  ⟨.matvec, [.scal .s, .obj (.viewDense .vec) .s true, .obj (.view1D .mat) .s true, .scal .s, .obj (.view1D .ten) .s false], .matvec, .s, [.par 0, .par 1, .par 2, .par 3, .par 4, .ff]⟩,
  ⟨.matvec, [.obj (.viewDense .mat) .s true, .obj (.view1D .mat) .s true, .obj (.view1D .ten) .s false], .matvec, .s, [.one, .par 0, .par 1, .zero, .par 2, .ff]⟩,
  ⟨.matvec, [.scal .s, .obj (.viewDense .mat) .s true, .obj (.view1D .mat) .s true, .scal .s, .obj (.view1D .ten) .s false], .matvec, .s, [.par 0, .par 1, .par 2, .par 3, .par 4, .ff]⟩,
  ⟨.matvec, [.obj (.viewDense .ten) .s true, .obj (.view1D .mat) .s true, .obj (.view1D .ten) .s false], .matvec, .s, [.one, .par 0, .par 1, .zero, .par 2, .ff]⟩,
  ⟨.matvec, [.scal .s, .obj (.viewDense .ten) .s true, .obj (.view1D .mat) .s true, .scal .s, .obj (.view1D .ten) .s false], .matvec, .s, [.par 0, .par 1, .par 2, .par 3, .par 4, .ff]⟩,
  ⟨.matvec, [.obj .dense .s true, .obj (.view1D .ten) .s true, .obj .vector .s false], .matvec, .s, [.one, .par 0, .par 1, .zero, .par 2, .ff]⟩,
  ⟨.matvec, [.scal .s, .obj .dense .s true, .obj (.view1D .ten) .s true, .scal .s, .obj .vector .s false], .matvec, .s, [.par 0, .par 1, .par 2, .par 3, .par 4, .ff]⟩,
  ⟨.matvec, [.obj (.viewDense .vec) .s true, .obj (.view1D .ten) .s true, .obj .vector .s false], .matvec, .s, [.one, .par 0, .par 1, .zero, .par 2, .ff]⟩,
  ⟨.matvec, [.scal .s, .obj (.viewDense .vec) .s true, .obj (.view1D .ten) .s true, .scal .s, .obj .vector .s false], .matvec, .s, [.par 0, .par 1, .par 2, .par 3, .par 4, .ff]⟩,
  ⟨.matvec, [.obj (.viewDense .mat) .s true, .obj (.view1D .ten) .s true, .obj .vector .s false], .matvec, .s, [.one, .par 0, .par 1, .zero, .par 2, .ff]⟩,
  ⟨.matvec, [.scal .s, .obj (.viewDense .mat) .s true, .obj (.view1D .ten) .s true, .scal .s, .obj .vector .s false], .matvec, .s, [.par 0, .par 1, .par 2, .par 3, .par 4, .ff]⟩,
  ⟨.matvec, [.obj (.viewDense .ten) .s true, .obj (.view1D .ten) .s true, .obj .vector .s false], .matvec, .s, [.one, .par 0, .par 1, .zero, .par 2, .ff]⟩,
  ⟨.matvec, [.scal .s, .obj (.viewDense .ten) .s true, .obj (.view1D .ten) .s true, .scal .s, .obj .vector .s false], .matvec, .s, [.par 0, .par 1, .par 2, .par 3, .par 4, .ff]⟩,
  ⟨.matvec, [.obj .dense .s true, .obj (.view1D .ten) .s true, .obj (.view1D .vec) .s false], .matvec, .s, [.one, .par 0, .par 1, .zero, .par 2, .ff]⟩,
  ⟨.matvec, [.scal .s, .obj .dense .s true, .obj (.view1D .ten) .s true, .scal .s, .obj (.view1D .vec) .s false], .matvec, .s, [.par 0, .par 1, .par 2, .par 3, .par 4, .ff]⟩,
  ⟨.matvec, [.obj (.viewDense .vec) .s true, .obj (.view1D .ten) .s true, .obj (.view1D .vec) .s false], .matvec, .s, [.one, .par 0, .par 1, .zero, .par 2, .ff]⟩,
  ⟨.matvec, [.scal .s, .obj (.viewDense .vec) .s true, .obj (.view1D .ten) .s true, .scal .s, .obj (.view1D .vec) .s false], .matvec, .s, [.par 0, .par 1, .par 2, .par 3, .par 4, .ff]⟩,
  ⟨.matvec, [.obj (.viewDense .mat) .s true, .obj (.view1D .ten) .s true, .obj (.view1D .vec) .s false], .matvec, .s, [.one, .par 0, .par 1, .zero, .par 2, .ff]⟩,
  ⟨.matvec, [.scal .s, .obj (.viewDense .mat) .s true, .obj (.view1D .ten) .s true, .scal .s, .obj (.view1D .vec) .s false], .matvec, .s, [.par 0, .par 1, .par 2, .par 3, .par 4, .ff]⟩,
  ⟨.matvec, [.obj (.viewDense .ten) .s true, .obj (.view1D .ten) .s true, .obj (.view1D .vec) .s false], .matvec, .s, [.one, .par 0, .par 1, .zero, .par 2, .ff]⟩,
  ⟨.matvec, [.scal .s, .obj (.viewDense .ten) .s true, .obj (.view1D .ten) .s true, .scal .s, .obj (.view1D .vec) .s false], .matvec, .s, [.par 0, .par 1, .par 2, .par 3, .par 4, .ff]⟩]

/-- src/blas/matrix/matvec/matvec_blas.cpp:1189-1589 -/
def tMatvec_3 : List Overload := [
  ⟨.matvec, [.obj .dense .s true, .obj (.view1D .ten) .s true, .obj (.view1D .mat) .s false], .matvec, .s, [.one, .par 0, .par 1, .zero, .par 2, .ff]⟩,
  ⟨.matvec, [.scal .s, .obj .dense .s true, .obj (.view1D .ten) .s true, .scal .s, .obj (.view1D .mat) .s false], .matvec, .s, [.par 0, .par 1, .par 2, .par 3, .par 4, .ff]⟩,
  ⟨.matvec, [.obj (.viewDense .vec) .s true, .obj (.view1D .ten) .s true, .obj (.view1D .mat) .s false], .matvec, .s, [.one, .par 0, .par 1, .zero, .par 2, .ff]⟩,
  ⟨.matvec, [.scal .s, .obj (.viewDense .vec) .s true, .obj (.view1D .ten) .s true, .scal .s, .obj (.view1D .mat) .s false], .matvec, .s, [.par 0, .par 1, .par 2, .par 3, .par 4, .ff]⟩,
  ⟨.matvec, [.obj (.viewDense .mat) .s true, .obj (.view1D .ten) .s true, .obj (.view1D .mat) .s false], .matvec, .s, [.one, .par 0, .par 1, .zero, .par 2, .ff]⟩,
  ⟨.matvec, [.scal .s, .obj (.viewDense .mat) .s true, .obj (.view1D .ten) .s true, .scal .s, .obj (.view1D .mat) .s false], .matvec, .s, [.par 0, .par 1, .par 2, .par 3, .par 4, .ff]⟩,
  ⟨.matvec, [.obj (.viewDense .ten) .s true, .obj (.view1D .ten) .s true, .obj (.view1D .mat) .s false], .matvec, .s, [.one, .par 0, .par 1, .zero, .par 2, .ff]⟩,
  ⟨.matvec, [.scal .s, .obj (.viewDense .ten) .s true, .obj (.view1D .ten) .s true, .scal .s, .obj (.view1D .mat) .s false], .matvec, .s, [.par 0, .par 1, .par 2, .par 3, .par 4, .ff]⟩,
  ⟨.matvec, [.obj .dense .s true, .obj (.view1D .ten) .s true, .obj (.view1D .ten) .s false], .matvec, .s, [.one, .par 0, .par 1, .zero, .par 2, .ff]⟩,
  ⟨.matvec, [.scal .s, .obj .dense .s true, .obj (.view1D .ten) .s true, .scal .s, .obj (.view1D .ten) .s false], .matvec, .s, [.par 0, .par 1, .par 2, .par 3, .par 4, .ff]⟩,
  ⟨.matvec, [.obj (.viewDense .vec) .s true, .obj (.view1D .ten) .s true, .obj (.view1D .ten) .s false], .matvec, .s, [.one, .par 0, .par 1, .zero, .par 2, .ff]⟩,
  ⟨.matvec, [.scal .s, .obj (.viewDense .vec) .s true, .obj (.view1D .ten) .s true, .scal .s, .obj (.view1D .ten) .s false], .matvec, .s, [.par 0, .par 1, .par 2, .par 3, .par 4, .ff]⟩,
  ⟨.matvec, [.obj (.viewDense .mat) .s true, .obj (.view1D .ten) .s true, .obj (.view1D .ten) .s false], .matvec, .s, [.one, .par 0, .par 1, .zero, .par 2, .ff]⟩,
  ⟨.matvec, [.scal .s, .obj (.viewDense .mat) .s true, .obj (.view1D .ten) .s true, .scal .s, .obj (.view1D .ten) .s false], .matvec, .s, [.par 0, .par 1, .par 2, .par 3, .par 4, .ff]⟩,
  ⟨.matvec, [.obj (.viewDense .ten) .s true, .obj (.view1D .ten) .s true, .obj (.view1D .ten) .s false], .matvec, .s, [.one, .par 0, .par 1, .zero, .par 2, .ff]⟩,
  ⟨.matvec, [.scal .s, .obj (.viewDense .ten) .s true, .obj (.view1D .ten) .s true, .scal .s, .obj (.view1D .ten) .s false], .matvec, .s, [.par 0, .par 1, .par 2, .par 3, .par 4, .ff]⟩,
  ⟨.matvec_N, [.obj .dense .d true, .obj .vector .d true, .obj .vector .d false], .matvec, .d, [.one, .par 0, .par 1, .zero, .par 2, .ff]⟩,
  ⟨.matvec_N, [.scal .d, .obj .dense .d true, .obj .vector .d true, .scal .d, .obj .vector .d false], .matvec, .d, [.par 0, .par 1, .par 2, .par 3, .par 4, .ff]⟩,
  ⟨.matvec_N, [.obj (.viewDense .vec) .d true, .obj .vector .d true, .obj .vector .d false], .matvec, .d, [.one, .par 0, .par 1, .zero, .par 2, .ff]⟩,
  ⟨.matvec_N, [.scal .d, .obj (.viewDense .vec) .d true, .obj .vector .d true, .scal .d, .obj .vector .d false], .matvec, .d, [.par 0, .par 1, .par 2, .par 3, .par 4, .ff]⟩,
  ⟨.matvec_N, [.obj (.viewDense .mat) .d true, .obj .vector .d true, .obj .vector .d false], .matvec, .d, [.one, .par 0, .par 1, .zero, .par 2, .ff]⟩,
  ⟨.matvec_N, [.scal .d, .obj (.viewDense .mat) .d true, .obj .vector .d true, .scal .d, .obj .vector .d false], .matvec, .d, [.par 0, .par 1, .par 2, .par 3, .par 4, .ff]⟩,
  ⟨.matvec_N, [.obj (.viewDense .ten) .d true, .obj .vector .d true, .obj .vector .d false], .matvec, .d, [.one, .par 0, .par 1, .zero, .par 2, .ff]⟩,
  ⟨.matvec_N, [.scal .d, .obj (.viewDense .ten) .d true, .obj .vector .d true, .scal .d, .obj .vector .d false], .matvec, .d, [.par 0, .par 1, .par 2, .par 3, .par 4, .ff]⟩,
  ⟨.matvec_N, [.obj .dense .d true, .obj .vector .d true, .obj (.view1D .vec) .d false], .matvec, .d, [.one, .par 0, .par 1, .zero, .par 2, .ff]⟩,
  ⟨.matvec_N, [.scal .d, .obj .dense .d true, .obj .vector .d true, .scal .d, .obj (.view1D .vec) .d false], .matvec, .d, [.par 0, .par 1, .par 2, .par 3, .par 4, .ff]⟩,
  ⟨.matvec_N, [.obj (.viewDense .vec) .d true, .obj .vector .d true, .obj (.view1D .vec) .d false], .matvec, .d, [.one, .par 0, .par 1, .zero, .par 2, .ff]⟩,
  ⟨.matvec_N, [.scal .d, .obj (.viewDense .vec) .d true, .obj .vector .d true, .scal .d, .obj (.view1D .vec) .d false], .matvec, .d, [.par 0, .par 1, .par 2, .par 3, .par 4, .ff]⟩,
  ⟨.matvec_N, [.obj (.viewDense .mat) .d true, .obj .vector .d true, .obj (.view1D .vec) .d false], .matvec, .d, [.one, .par 0, .par 1, .zero, .par 2, .ff]⟩,
  ⟨.matvec_N, [.scal .d, .obj (.viewDense .mat) .d true, .obj .vector .d true, .scal .d, .obj (.view1D .vec) .d false], .matvec, .d, [.par 0, .par 1, .par 2, .par 3, .par 4, .ff]⟩,
  ⟨.matvec_N, [.obj (.viewDense .ten) .d true, .obj .vector .d true, .obj (.view1D .vec) .d false], .matvec, .d, [.one, .par 0, .par 1, .zero, .par 2, .ff]⟩,
  ⟨.matvec_N, [.scal .d, .obj (.viewDense .ten) .d true, .obj .vector .d true, .scal .d, .obj (.view1D .vec) .d false], .matvec, .d, [.par 0, .par 1, .par 2, .par 3, .par 4, .ff]⟩,
  ⟨.matvec_N, [.obj .dense .d true, .obj .vector .d true, .obj (.view1D .mat) .d false], .matvec, .d, [.one, .par 0, .par 1, .zero, .par 2, .ff]⟩,
  ⟨.matvec_N, [.scal .d, .obj .dense .d true, .obj .vector .d true, .scal .d, .obj (.view1D .mat) .d false], .matvec, .d, [.par 0, .par 1, .par 2, .par 3, .par 4, .ff]⟩,
  ⟨.matvec_N, [.obj (.viewDense .vec) .d true, .obj .vector .d true, .obj (.view1D .mat) .d false], .matvec, .d, [.one, .par 0, .par 1, .zero, .par 2, .ff]⟩,
  ⟨.matvec_N, [.scal .d, .obj (.viewDense .vec) .d true, .obj .vector .d true, .scal .d, .obj (.view1D .mat) .d false], .matvec, .d, [.par 0, .par 1, .par 2, .par 3, .par 4, .ff]⟩,
  ⟨.matvec_N, [.obj (.viewDense .mat) .d true, .obj .vector .d true, .obj (.view1D .mat) .d false], .matvec, .d, [.one, .par 0, .par 1, .zero, .par 2, .ff]⟩,
  ⟨.matvec_N, [.scal .d, .obj (.viewDense .mat) .d true, .obj .vector .d true, .scal .d, .obj (.view1D .mat) .d false], .matvec, .d, [.par 0, .par 1, .par 2, .par 3, .par 4, .ff]⟩,
  ⟨.matvec_N, [.obj (.viewDense .ten) .d true, .obj .vector .d true, .obj (.view1D .mat) .d false], .matvec, .d, [.one, .par 0, .par 1, .zero, .par 2, .ff]⟩,
  ⟨.matvec_N, [.scal .d, .obj (.viewDense .ten) .d true, .obj .vector .d true, .scal .d, .obj (.view1D .mat) .d false], .matvec, .d, [.par 0, .par 1, .par 2, .par 3, .par 4, .ff]⟩,
  ⟨.matvec_N, [.obj .dense .d true, .obj .vector .d true, .obj (.view1D .ten) .d false], .matvec, .d, [.one, .par 0, .par 1, .zero, .par 2, .ff]⟩,
  ⟨.matvec_N, [.scal .d, .obj .dense .d true, .obj .vector .d true, .scal .d, .obj (.view1D .ten) .d false], .matvec, .d, [.par 0, .par 1, .par 2, .par 3, .par 4, .ff]⟩,
  ⟨.matvec_N, [.obj (.viewDense .vec) .d true, .obj .vector .d true, .obj (.view1D .ten) .d false], .matvec, .d, [.one, .par 0, .par 1, .zero, .par 2, .ff]⟩,
  ⟨.matvec_N, [.scal .d, .obj (.viewDense .vec) .d true, .obj .vector .d true, .scal .d, .obj (.view1D .ten) .d false], .matvec, .d, [.par 0, .par 1, .par 2, .par 3, .par 4, .ff]⟩,
  ⟨.matvec_N, [.obj (.viewDense .mat) .d true, .obj .vector .d true, .obj (.view1D .ten) .d false], .matvec, .d, [.one, .par 0, .par 1, .zero, .par 2, .ff]⟩,
  ⟨.matvec_N, [.scal .d, .obj (.viewDense .mat) .d true, .obj .vector .d true, .scal .d, .obj (.view1D .ten) .d false], .matvec, .d, [.par 0, .par 1, .par 2, .par 3, .par 4, .ff]⟩,
  ⟨.matvec_N, [.obj (.viewDense .ten) .d true, .obj .vector .d true, .obj (.view1D .ten) .d false], .matvec, .d, [.one, .par 0, .par 1, .zero, .par 2, .ff]⟩,
  ⟨.matvec_N, [.scal .d, .obj (.viewDense .ten) .d true, .obj .vector .d true, .scal .d, .obj (.view1D .ten) .d false], .matvec, .d, [.par 0, .par 1, .par 2, .par 3, .par 4, .ff]⟩,
  ⟨.matvec_N, [.obj .dense .d true, .obj (.view1D .vec) .d true, .obj .vector .d false], .matvec, .d, [.one, .par 0, .par 1, .zero, .par 2, .ff]⟩,
  ⟨.matvec_N, [.scal .d, .obj .dense .d true, .obj (.view1D .vec) .d true, .scal .d, .obj .vector .d false], .matvec, .d, [.par 0, .par 1, .par 2, .par 3, .par 4, .ff]⟩,
  ⟨.matvec_N, [.obj (.viewDense .vec) .d true, .obj (.view1D .vec) .d true, .obj .vector .d false], .matvec, .d, [.one, .par 0, .par 1, .zero, .par 2, .ff]⟩,
  ⟨.matvec_N, [.scal .d, .obj (.viewDense .vec) .d true, .obj (.view1D .vec) .d true, .scal .d, .obj .vector .d false], .matvec, .d, [.par 0, .par 1, .par 2, .par 3, .par 4, .ff]⟩,
  ⟨.matvec_N, [.obj (.viewDense .mat) .d true, .obj (.view1D .vec) .d true, .obj .vector .d false], .matvec, .d, [.one, .par 0, .par 1, .zero, .par 2, .ff]⟩,
  ⟨.matvec_N, [.scal .d, .obj (.viewDense .mat) .d true, .obj (.view1D .vec) .d true, .scal .d, .obj .vector .d false], .matvec, .d, [.par 0, .par 1, .par 2, .par 3, .par 4, .ff]⟩,
  ⟨.matvec_N, [.obj (.viewDense .ten) .d true, .obj (.view1D .vec) .d true, .obj .vector .d false], .matvec, .d, [.one, .par 0, .par 1, .zero, .par 2, .ff]⟩,
  ⟨.matvec_N, [.scal .d, .obj (.viewDense .ten) .d true, .obj (.view1D .vec) .d true, .scal .d, .obj .vector .d false], .matvec, .d, [.par 0, .par 1, .par 2, .par 3, .par 4, .ff]⟩,
  ⟨.matvec_N, [.obj .dense .d true, .obj (.view1D .vec) .d true, .obj (.view1D .vec) .d false], .matvec, .d, [.one, .par 0, .par 1, .zero, .par 2, .ff]⟩,
  ⟨.matvec_N, [.scal .d, .obj .dense .d true, .obj (.view1D .vec) .d true, .scal .d, .obj (.view1D .vec) .d false], .matvec, .d, [.par 0, .par 1, .par 2, .par 3, .par 4, .ff]⟩,
  ⟨.matvec_N, [.obj (.viewDense .vec) .d true, .obj (.view1D .vec) .d true, .obj (.view1D .vec) .d false], .matvec, .d, [.one, .par 0, .par 1, .zero, .par 2, .ff]⟩,
  ⟨.matvec_N, [.scal .d, .obj (.viewDense .vec) .d true, .obj (.view1D .vec) .d true, .scal .d, .obj (.view1D .vec) .d false], .matvec, .d, [.par 0, .par 1, .par 2, .par 3, .par 4, .ff]⟩,
  ⟨.matvec_N, [.obj (.viewDense .mat) .d true, .obj (.view1D .vec) .d true, .obj (.view1D .vec) .d false], .matvec, .d, [.one, .par 0, .par 1, .zero, .par 2, .ff]⟩,
  ⟨.matvec_N, [.scal .d, .obj (.viewDense .mat) .d true, .obj (.view1D .vec) .d true, .scal .d, .obj (.view1D .vec) .d false], .matvec, .d, [.par 0, .par 1, .par 2, .par 3, .par 4, .ff]⟩,
  ⟨.matvec_N, [.obj (.viewDense .ten) .d true, .obj (.view1D .vec) .d true, .obj (.view1D .vec) .d false], .matvec, .d, [.one, .par 0, .par 1, .zero, .par 2, .ff]⟩,
  ⟨.matvec_N, [.scal .d, .obj (.viewDense .ten) .d true, .obj (.view1D .vec) .d true, .scal .d, .obj (.view1D .vec) .d false], .matvec, .d, [.par 0, .par 1, .par 2, .par 3, .par 4, .ff]⟩,
  ⟨.matvec_N, [.obj .dense .d true, .obj (.view1D .vec) .d true, .obj (.view1D .mat) .d false], .matvec, .d, [.one, .par 0, .par 1, .zero, .par 2, .ff]⟩,
  ⟨.matvec_N, [.scal .d, .obj .dense .d true, .obj (.view1D .vec) .d true, .scal .d, .obj (.view1D .mat) .d false], .matvec, .d, [.par 0, .par 1, .par 2, .par 3, .par 4, .ff]⟩,
  ⟨.matvec_N, [.obj (.viewDense .vec) .d true, .obj (.view1D .vec) .d true, .obj (.view1D .mat) .d false], .matvec, .d, [.one, .par 0, .par 1, .zero, .par 2, .ff]⟩,
  ⟨.matvec_N, [.scal .d, .obj (.viewDense .vec) .d true, .obj (.view1D .vec) .d true, .scal .d, .obj (.view1D .mat) .d false], .matvec, .d, [.par 0, .par 1, .par 2, .par 3, .par 4, .ff]⟩,
  ⟨.matvec_N, [.obj (.viewDense .mat) .d true, .obj (.view1D .vec) .d true, .obj (.view1D .mat) .d false], .matvec, .d, [.one, .par 0, .par 1, .zero, .par 2, .ff]⟩,
  ⟨.matvec_N, [.scal .d, .obj (.viewDense .mat) .d true, .obj (.view1D .vec) .d true, .scal .d, .obj (.view1D .mat) .d false], .matvec, .d, [.par 0, .par 1, .par 2, .par 3, .par 4, .ff]⟩,
  ⟨.matvec_N, [.obj (.viewDense .ten) .d true, .obj (.view1D .vec) .d true, .obj (.view1D .mat) .d false], .matvec, .d, [.one, .par 0, .par 1, .zero, .par 2, .ff]⟩,
  ⟨.matvec_N, [.scal .d, .obj (.viewDense .ten) .d true, .obj (.view1D .vec) .d true, .scal .d, .obj (.view1D .mat) .d false], .matvec, .d, [.par 0, .par 1, .par 2, .par 3, .par 4, .ff]⟩,
  ⟨.matvec_N, [.obj .dense .d true, .obj (.view1D .vec) .d true, .obj (.view1D .ten) .d false], .matvec, .d, [.one, .par 0, .par 1, .zero, .par 2, .ff]⟩,
  ⟨.matvec_N, [.scal .d, .obj .dense .d true, .obj (.view1D .vec) .d true, .scal .d, .obj (.view1D .ten) .d false], .matvec, .d, [.par 0, .par 1, .par 2, .par 3, .par 4, .ff]⟩,
  ⟨.matvec_N, [.obj (.viewDense .vec) .d true, .obj (.view1D .vec) .d true, .obj (.view1D .ten) .d false], .matvec, .d, [.one, .par 0, .par 1, .zero, .par 2, .ff]⟩,
  ⟨.matvec_N, [.scal .d, .obj (.viewDense .vec) .d true, .obj (.view1D .vec) .d true, .scal .d, .obj (.view1D .ten) .d false], .matvec, .d, [.par 0, .par 1, .par 2, .par 3, .par 4, .ff]⟩,
  ⟨.matvec_N, [.obj (.viewDense .mat) .d true, .obj (.view1D .vec) .d true, .obj (.view1D .ten) .d false], .matvec, .d, [.one, .par 0, .par 1, .zero, .par 2, .ff]⟩,
  ⟨.matvec_N, [.scal .d, .obj (.viewDense .mat) .d true, .obj (.view1D .vec) .d true, .scal .d, .obj (.view1D .ten) .d false], .matvec, .d, [.par 0, .par 1, .par 2, .par 3, .par 4, .ff]⟩,
  ⟨.matvec_N, [.obj (.viewDense .ten) .d true, .obj (.view1D .vec) .d true, .obj (.view1D .ten) .d false], .matvec, .d, [.one, .par 0, .par 1, .zero, .par 2, .ff]⟩,
  ⟨.matvec_N, [.scal .d, .obj (.viewDense .ten) .d true, .obj (.view1D .vec) .d true, .scal .d, .obj (.view1D .ten) .d false], .matvec, .d, [.par 0, .par 1, .par 2, .par 3, .par 4, .ff]⟩]

/-- src/blas/matrix/matvec/matvec_blas.cpp:1590-1999 -/
def tMatvec_4 : List Overload := [
  ⟨.matvec_N, [.obj .dense .d true, .obj (.view1D .mat) .d true, .obj .vector .d false], .matvec, .d, [.one, .par 0, .par 1, .zero, .par 2, .ff]⟩,
  ⟨.matvec_N, [.scal .d, .obj .dense .d true, .obj (.view1D .mat) .d true, .scal .d, .obj .vector .d false], .matvec, .d, [.par 0, .par 1, .par 2, .par 3, .par 4, .ff]⟩,
  ⟨.matvec_N, [.obj (.viewDense .vec) .d true, .obj (.view1D .mat) .d true, .obj .vector .d false], .matvec, .d, [.one, .par 0, .par 1, .zero, .par 2, .ff]⟩,
  ⟨.matvec_N, [.scal .d, .obj (.viewDense .vec) .d true, .obj (.view1D .mat) .d true, .scal .d, .obj .vector .d false], .matvec, .d, [.par 0, .par 1, .par 2, .par 3, .par 4, .ff]⟩,
  ⟨.matvec_N, [.obj (.viewDense .mat) .d true, .obj (.view1D .mat) .d true, .obj .vector .d false], .matvec, .d, [.one, .par 0, .par 1, .zero, .par 2, .ff]⟩,
  ⟨.matvec_N, [.scal .d, .obj (.viewDense .mat) .d true, .obj (.view1D .mat) .d true, .scal .d, .obj .vector .d false], .matvec, .d, [.par 0, .par 1, .par 2, .par 3, .par 4, .ff]⟩,
  ⟨.matvec_N, [.obj (.viewDense .ten) .d true, .obj (.view1D .mat) .d true, .obj .vector .d false], .matvec, .d, [.one, .par 0, .par 1, .zero, .par 2, .ff]⟩,
  ⟨.matvec_N, [.scal .d, .obj (.viewDense .ten) .d true, .obj (.view1D .mat) .d true, .scal .d, .obj .vector .d false], .matvec, .d, [.par 0, .par 1, .par 2, .par 3, .par 4, .ff]⟩,
  ⟨.matvec_N, [.obj .dense .d true, .obj (.view1D .mat) .d true, .obj (.view1D .vec) .d false], .matvec, .d, [.one, .par 0, .par 1, .zero, .par 2, .ff]⟩,
  ⟨.matvec_N, [.scal .d, .obj .dense .d true, .obj (.view1D .mat) .d true, .scal .d, .obj (.view1D .vec) .d false], .matvec, .d, [.par 0, .par 1, .par 2, .par 3, .par 4, .ff]⟩,
  ⟨.matvec_N, [.obj (.viewDense .vec) .d true, .obj (.view1D .mat) .d true, .obj (.view1D .vec) .d false], .matvec, .d, [.one, .par 0, .par 1, .zero, .par 2, .ff]⟩,
  ⟨.matvec_N, [.scal .d, .obj (.viewDense .vec) .d true, .obj (.view1D .mat) .d true, .scal .d, .obj (.view1D .vec) .d false], .matvec, .d, [.par 0, .par 1, .par 2, .par 3, .par 4, .ff]⟩,
  ⟨.matvec_N, [.obj (.viewDense .mat) .d true, .obj (.view1D .mat) .d true, .obj (.view1D .vec) .d false], .matvec, .d, [.one, .par 0, .par 1, .zero, .par 2, .ff]⟩,
  ⟨.matvec_N, [.scal .d, .obj (.viewDense .mat) .d true, .obj (.view1D .mat) .d true, .scal .d, .obj (.view1D .vec) .d false], .matvec, .d, [.par 0, .par 1, .par 2, .par 3, .par 4, .ff]⟩,
  ⟨.matvec_N, [.obj (.viewDense .ten) .d true, .obj (.view1D .mat) .d true, .obj (.view1D .vec) .d false], .matvec, .d, [.one, .par 0, .par 1, .zero, .par 2, .ff]⟩,
  ⟨.matvec_N, [.scal .d, .obj (.viewDense .ten) .d true, .obj (.view1D .mat) .d true, .scal .d, .obj (.view1D .vec) .d false], .matvec, .d, [.par 0, .par 1, .par 2, .par 3, .par 4, .ff]⟩,
  ⟨.matvec_N, [.obj .dense .d true, .obj (.view1D .mat) .d true, .obj (.view1D .mat) .d false], .matvec, .d, [.one, .par 0, .par 1, .zero, .par 2, .ff]⟩,
  ⟨.matvec_N, [.scal .d, .obj .dense .d true, .obj (.view1D .mat) .d true, .scal .d, .obj (.view1D .mat) .d false], .matvec, .d, [.par 0, .par 1, .par 2, .par 3, .par 4, .ff]⟩,
  ⟨.matvec_N, [.obj (.viewDense .vec) .d true, .obj (.view1D .mat) .d true, .obj (.view1D .mat) .d false], .matvec, .d, [.one, .par 0, .par 1, .zero, .par 2, .ff]⟩,
  ⟨.matvec_N, [.scal .d, .obj (.viewDense .vec) .d true, .obj (.view1D .mat) .d true, .scal .d, .obj (.view1D .mat) .d false], .matvec, .d, [.par 0, .par 1, .par 2, .par 3, .par 4, .ff]⟩,
  ⟨.matvec_N, [.obj (.viewDense .mat) .d true, .obj (.view1D .mat) .d true, .obj (.view1D .mat) .d false], .matvec, .d, [.one, .par 0, .par 1, .zero, .par 2, .ff]⟩,
  ⟨.matvec_N, [.scal .d, .obj (.viewDense .mat) .d true, .obj (.view1D .mat) .d true, .scal .d, .obj (.view1D .mat) .d false], .matvec, .d, [.par 0, .par 1, .par 2, .par 3, .par 4, .ff]⟩,
  ⟨.matvec_N, [.obj (.viewDense .ten) .d true, .obj (.view1D .mat) .d true, .obj (.view1D .mat) .d false], .matvec, .d, [.one, .par 0, .par 1, .zero, .par 2, .ff]⟩,
  ⟨.matvec_N, [.scal .d, .obj (.viewDense .ten) .d true, .obj (.view1D .mat) .d true, .scal .d, .obj (.view1D .mat) .d false], .matvec, .d, [.par 0, .par 1, .par 2, .par 3, .par 4, .ff]⟩,
  ⟨.matvec_N, [.obj .dense .d true, .obj (.view1D .mat) .d true, .obj (.view1D .ten) .d false], .matvec, .d, [.one, .par 0, .par 1, .zero, .par 2, .ff]⟩,
  ⟨.matvec_N, [.scal .d, .obj .dense .d true, .obj (.view1D .mat) .d true, .scal .d, .obj (.view1D .ten) .d false], .matvec, .d, [.par 0, .par 1, .par 2, .par 3, .par 4, .ff]⟩,
  ⟨.matvec_N, [.obj (.viewDense .vec) .d true, .obj (.view1D .mat) .d true, .obj (.view1D .ten) .d false], .matvec, .d, [.one, .par 0, .par 1, .zero, .par 2, .ff]⟩,
  ⟨.matvec_N, [.scal .d, .obj (.viewDense .vec) .d true, .obj (.view1D .mat) .d true, .scal .d, .obj (.view1D .ten) .d false], .matvec, .d, [.par 0, .par 1, .par 2, .par 3, .par 4, .ff]⟩,
  ⟨.matvec_N, [.obj (.viewDense .mat) .d true, .obj (.view1D .mat) .d true, .obj (.view1D .ten) .d false], .matvec, .d, [.one, .par 0, .par 1, .zero, .par 2, .ff]⟩,
  ⟨.matvec_N, [.scal .d, .obj (.viewDense .mat) .d true, .obj (.view1D .mat) .d true, .scal .d, .obj (.view1D .ten) .d false], .matvec, .d, [.par 0, .par 1, .par 2, .par 3, .par 4, .ff]⟩,
  ⟨.matvec_N, [.obj (.viewDense .ten) .d true, .obj (.view1D .mat) .d true, .obj (.view1D .ten) .d false], .matvec, .d, [.one, .par 0, .par 1, .zero, .par 2, .ff]⟩,
  ⟨.matvec_N, [.scal .d, .obj (.viewDense .ten) .d true, .obj (.view1D .mat) .d true, .scal .d, .obj (.view1D .ten) .d false], .matvec, .d, [.par 0, .par 1, .par 2, .par 3, .par 4, .ff]⟩,
  ⟨.matvec_N, [.obj .dense .d true, .obj (.view1D .ten) .d true, .obj .vector .d false], .matvec, .d, [.one, .par 0, .par 1, .zero, .par 2, .ff]⟩,
  ⟨.matvec_N, [.scal .d, .obj .dense .d true, .obj (.view1D .ten) .d true, .scal .d, .obj .vector .d false], .matvec, .d, [.par 0, .par 1, .par 2, .par 3, .par 4, .ff]⟩,
  ⟨.matvec_N, [.obj (.viewDense .vec) .d true, .obj (.view1D .ten) .d true, .obj .vector .d false], .matvec, .d, [.one, .par 0, .par 1, .zero, .par 2, .ff]⟩,
  ⟨.matvec_N, [.scal .d, .obj (.viewDense .vec) .d true, .obj (.view1D .ten) .d true, .scal .d, .obj .vector .d false], .matvec, .d, [.par 0, .par 1, .par 2, .par 3, .par 4, .ff]⟩,
  ⟨.matvec_N, [.obj (.viewDense .mat) .d true, .obj (.view1D .ten) .d true, .obj .vector .d false], .matvec, .d, [.one, .par 0, .par 1, .zero, .par 2, .ff]⟩,
  ⟨.matvec_N, [.scal .d, .obj (.viewDense .mat) .d true, .obj (.view1D .ten) .d true, .scal .d, .obj .vector .d false], .matvec, .d, [.par 0, .par 1, .par 2, .par 3, .par 4, .ff]⟩,
  ⟨.matvec_N, [.obj (.viewDense .ten) .d true, .obj (.view1D .ten) .d true, .obj .vector .d false], .matvec, .d, [.one, .par 0, .par 1, .zero, .par 2, .ff]⟩,
  ⟨.matvec_N, [.scal .d, .obj (.viewDense .ten) .d true, .obj (.view1D .ten) .d true, .scal .d, .obj .vector .d false], .matvec, .d, [.par 0, .par 1, .par 2, .par 3, .par 4, .ff]⟩,
  ⟨.matvec_N, [.obj .dense .d true, .obj (.view1D .ten) .d true, .obj (.view1D .vec) .d false], .matvec, .d, [.one, .par 0, .par 1, .zero, .par 2, .ff]⟩,
  ⟨.matvec_N, [.scal .d, .obj .dense .d true, .obj (.view1D .ten) .d true, .scal .d, .obj (.view1D .vec) .d false], .matvec, .d, [.par 0, .par 1, .par 2, .par 3, .par 4, .ff]⟩,
  ⟨.matvec_N, [.obj (.viewDense .vec) .d true, .obj (.view1D .ten) .d true, .obj (.view1D .vec) .d false], .matvec, .d, [.one, .par 0, .par 1, .zero, .par 2, .ff]⟩,
  ⟨.matvec_N, [.scal .d, .obj (.viewDense .vec) .d true, .obj (.view1D .ten) .d true, .scal .d, .obj (.view1D .vec) .d false], .matvec, .d, [.par 0, .par 1, .par 2, .par 3, .par 4, .ff]⟩,
  ⟨.matvec_N, [.obj (.viewDense .mat) .d true, .obj (.view1D .ten) .d true, .obj (.view1D .vec) .d false], .matvec, .d, [.one, .par 0, .par 1, .zero, .par 2, .ff]⟩,
  ⟨.matvec_N, [.scal .d, .obj (.viewDense .mat) .d true, .obj (.view1D .ten) .d true, .scal .d, .obj (.view1D .vec) .d false], .matvec, .d, [.par 0, .par 1, .par 2, .par 3, .par 4, .ff]⟩,
  ⟨.matvec_N, [.obj (.viewDense .ten) .d true, .obj (.view1D .ten) .d true, .obj (.view1D .vec) .d false], .matvec, .d, [.one, .par 0, .par 1, .zero, .par 2, .ff]⟩,
  ⟨.matvec_N, [.scal .d, .obj (.viewDense .ten) .d true, .obj (.view1D .ten) .d true, .scal .d, .obj (.view1D .vec) .d false], .matvec, .d, [.par 0, .par 1, .par 2, .par 3, .par 4, .ff]⟩,
  ⟨.matvec_N, [.obj .dense .d true, .obj (.view1D .ten) .d true, .obj (.view1D .mat) .d false], .matvec, .d, [.one, .par 0, .par 1, .zero, .par 2, .ff]⟩,
  ⟨.matvec_N, [.scal .d, .obj .dense .d true, .obj (.view1D .ten) .d true, .scal .d, .obj (.view1D .mat) .d false], .matvec, .d, [.par 0, .par 1, .par 2, .par 3, .par 4, .ff]⟩,
  ⟨.matvec_N, [.obj (.viewDense .vec) .d true, .obj (.view1D .ten) .d true, .obj (.view1D .mat) .d false], .matvec, .d, [.one, .par 0, .par 1, .zero, .par 2, .ff]⟩,
  ⟨.matvec_N, [.scal .d, .obj (.viewDense .vec) .d true, .obj (.view1D .ten) .d true, .scal .d, .obj (.view1D .mat) .d false], .matvec, .d, [.par 0, .par 1, .par 2, .par 3, .par 4, .ff]⟩,
  ⟨.matvec_N, [.obj (.viewDense .mat) .d true, .obj (.view1D .ten) .d true, .obj (.view1D .mat) .d false], .matvec, .d, [.one, .par 0, .par 1, .zero, .par 2, .ff]⟩,
  ⟨.matvec_N, [.scal .d, .obj (.viewDense .mat) .d true, .obj (.view1D .ten) .d true, .scal .d, .obj (.view1D .mat) .d false], .matvec, .d, [.par 0, .par 1, .par 2, .par 3, .par 4, .ff]⟩,
  ⟨.matvec_N, [.obj (.viewDense .ten) .d true, .obj (.view1D .ten) .d true, .obj (.view1D .mat) .d false], .matvec, .d, [.one, .par 0, .par 1, .zero, .par 2, .ff]⟩,
  ⟨.matvec_N, [.scal .d, .obj (.viewDense .ten) .d true, .obj (.view1D .ten) .d true, .scal .d, .obj (.view1D .mat) .d false], .matvec, .d, [.par 0, .par 1, .par 2, .par 3, .par 4, .ff]⟩,
  ⟨.matvec_N, [.obj .dense .d true, .obj (.view1D .ten) .d true, .obj (.view1D .ten) .d false], .matvec, .d, [.one, .par 0, .par 1, .zero, .par 2, .ff]⟩,
  ⟨.matvec_N, [.scal .d, .obj .dense .d true, .obj (.view1D .ten) .d true, .scal .d, .obj (.view1D .ten) .d false], .matvec, .d, [.par 0, .par 1, .par 2, .par 3, .par 4, .ff]⟩,
  ⟨.matvec_N, [.obj (.viewDense .vec) .d true, .obj (.view1D .ten) .d true, .obj (.view1D .ten) .d false], .matvec, .d, [.one, .par 0, .par 1, .zero, .par 2, .ff]⟩,
  ⟨.matvec_N, [.scal .d, .obj (.viewDense .vec) .d true, .obj (.view1D .ten) .d true, .scal .d, .obj (.view1D .ten) .d false], .matvec, .d, [.par 0, .par 1, .par 2, .par 3, .par 4, .ff]⟩,
  ⟨.matvec_N, [.obj (.viewDense .mat) .d true, .obj (.view1D .ten) .d true, .obj (.view1D .ten) .d false], .matvec, .d, [.one, .par 0, .par 1, .zero, .par 2, .ff]⟩,
  ⟨.matvec_N, [.scal .d, .obj (.viewDense .mat) .d true, .obj (.view1D .ten) .d true, .scal .d, .obj (.view1D .ten) .d false], .matvec, .d, [.par 0, .par 1, .par 2, .par 3, .par 4, .ff]⟩,
  ⟨.matvec_N, [.obj (.viewDense .ten) .d true, .obj (.view1D .ten) .d true, .obj (.view1D .ten) .d false], .matvec, .d, [.one, .par 0, .par 1, .zero, .par 2, .ff]⟩,
  ⟨.matvec_N, [.scal .d, .obj (.viewDense .ten) .d true, .obj (.view1D .ten) .d true, .scal .d, .obj (.view1D .ten) .d false], .matvec, .d, [.par 0, .par 1, .par 2, .par 3, .par 4, .ff]⟩,
  ⟨.matvec_N, [.obj .dense .s true, .obj .vector .s true, .obj .vector .s false], .matvec, .s, [.one, .par 0, .par 1, .zero, .par 2, .ff]⟩,
  ⟨.matvec_N, [.scal .s, .obj .dense .s true, .obj .vector .s true, .scal .s, .obj .vector .s false], .matvec, .s, [.par 0, .par 1, .par 2, .par 3, .par 4, .ff]⟩,
  ⟨.matvec_N, [.obj (.viewDense .vec) .s true, .obj .vector .s true, .obj .vector .s false], .matvec, .s, [.one, .par 0, .par 1, .zero, .par 2, .ff]⟩,
  ⟨.matvec_N, [.scal .s, .obj (.viewDense .vec) .s true, .obj .vector .s true, .scal .s, .obj .vector .s false], .matvec, .s, [.par 0, .par 1, .par 2, .par 3, .par 4, .ff]⟩,
  ⟨.matvec_N, [.obj (.viewDense .mat) .s true, .obj .vector .s true, .obj .vector .s false], .matvec, .s, [.one, .par 0, .par 1, .zero, .par 2, .ff]⟩,
  ⟨.matvec_N, [.scal .s, .obj (.viewDense .mat) .s true, .obj .vector .s true, .scal .s, .obj .vector .s false], .matvec, .s, [.par 0, .par 1, .par 2, .par 3, .par 4, .ff]⟩,
  ⟨.matvec_N, [.obj (.viewDense .ten) .s true, .obj .vector .s true, .obj .vector .s false], .matvec, .s, [.one, .par 0, .par 1, .zero, .par 2, .ff]⟩,
  ⟨.matvec_N, [.scal .s, .obj (.viewDense .ten) .s true, .obj .vector .s true, .scal .s, .obj .vector .s false], .matvec, .s, [.par 0, .par 1, .par 2, .par 3, .par 4, .ff]⟩,
  ⟨.matvec_N, [.obj .dense .s true, .obj .vector .s true, .obj (.view1D .vec) .s false], .matvec, .s, [.one, .par 0, .par 1, .zero, .par 2, .ff]⟩,
  ⟨.matvec_N, [.scal .s, .obj .dense .s true, .obj .vector .s true, .scal .s, .obj (.view1D .vec) .s false], .matvec, .s, [.par 0, .par 1, .par 2, .par 3, .par 4, .ff]⟩,
  ⟨.matvec_N, [.obj (.viewDense .vec) .s true, .obj .vector .s true, .obj (.view1D .vec) .s false], .matvec, .s, [.one, .par 0, .par 1, .zero, .par 2, .ff]⟩,
  ⟨.matvec_N, [.scal .s, .obj (.viewDense .vec) .s true, .obj .vector .s true, .scal .s, .obj (.view1D .vec) .s false], .matvec, .s, [.par 0, .par 1, .par 2, .par 3, .par 4, .ff]⟩,
  ⟨.matvec_N, [.obj (.viewDense .mat) .s true, .obj .vector .s true, .obj (.view1D .vec) .s false], .matvec, .s, [.one, .par 0, .par 1, .zero, .par 2, .ff]⟩,
  ⟨.matvec_N, [.scal .s, .obj (.viewDense .mat) .s true, .obj .vector .s true, .scal .s, .obj (.view1D .vec) .s false], .matvec, .s, [.par 0, .par 1, .par 2, .par 3, .par 4, .ff]⟩,
  ⟨.matvec_N, [.obj (.viewDense .ten) .s true, .obj .vector .s true, .obj (.view1D .vec) .s false], .matvec, .s, [.one, .par 0, .par 1, .zero, .par 2, .ff]⟩,
  ⟨.matvec_N, [.scal .s, .obj (.viewDense .ten) .s true, .obj .vector .s true, .scal .s, .obj (.view1D .vec) .s false], .matvec, .s, [.par 0, .par 1, .par 2, .par 3, .par 4, .ff]⟩]

/-- src/blas/matrix/matvec/matvec_blas.cpp:2000-2395 -/
def tMatvec_5 : List Overload := [
  ⟨.matvec_N, [.obj .dense .s true, .obj .vector .s true, .obj (.view1D .mat) .s false], .matvec, .s, [.one, .par 0, .par 1, .zero, .par 2, .ff]⟩,
  ⟨.matvec_N, [.scal .s, .obj .dense .s true, .obj .vector .s true, .scal .s, .obj (.view1D .mat) .s false], .matvec, .s, [.par 0, .par 1, .par 2, .par 3, .par 4, .ff]⟩,
  ⟨.matvec_N, [.obj (.viewDense .vec) .s true, .obj .vector .s true, .obj (.view1D .mat) .s false], .matvec, .s, [.one, .par 0, .par 1, .zero, .par 2, .ff]⟩,
  ⟨.matvec_N, [.scal .s, .obj (.viewDense .vec) .s true, .obj .vector .s true, .scal .s, .obj (.view1D .mat) .s false], .matvec, .s, [.par 0, .par 1, .par 2, .par 3, .par 4, .ff]⟩,
  ⟨.matvec_N, [.obj (.viewDense .mat) .s true, .obj .vector .s true, .obj (.view1D .mat) .s false], .matvec, .s, [.one, .par 0, .par 1, .zero, .par 2, .ff]⟩,
  ⟨.matvec_N, [.scal .s, .obj (.viewDense .mat) .s true, .obj .vector .s true, .scal .s, .obj (.view1D .mat) .s false], .matvec, .s, [.par 0, .par 1, .par 2, .par 3, .par 4, .ff]⟩,
  ⟨.matvec_N, [.obj (.viewDense .ten) .s true, .obj .vector .s true, .obj (.view1D .mat) .s false], .matvec, .s, [.one, .par 0, .par 1, .zero, .par 2, .ff]⟩,
  ⟨.matvec_N, [.scal .s, .obj (.viewDense .ten) .s true, .obj .vector .s true, .scal .s, .obj (.view1D .mat) .s false], .matvec, .s, [.par 0, .par 1, .par 2, .par 3, .par 4, .ff]⟩,
  ⟨.matvec_N, [.obj .dense .s true, .obj .vector .s true, .obj (.view1D .ten) .s false], .matvec, .s, [.one, .par 0, .par 1, .zero, .par 2, .ff]⟩,
  ⟨.matvec_N, [.scal .s, .obj .dense .s true, .obj .vector .s true, .scal .s, .obj (.view1D .ten) .s false], .matvec, .s, [.par 0, .par 1, .par 2, .par 3, .par 4, .ff]⟩,
  ⟨.matvec_N, [.obj (.viewDense .vec) .s true, .obj .vector .s true, .obj (.view1D .ten) .s false], .matvec, .s, [.one, .par 0, .par 1, .zero, .par 2, .ff]⟩,
  ⟨.matvec_N, [.scal .s, .obj (.viewDense .vec) .s true, .obj .vector .s true, .scal .s, .obj (.view1D .ten) .s false], .matvec, .s, [.par 0, .par 1, .par 2, .par 3, .par 4, .ff]⟩,
  ⟨.matvec_N, [.obj (.viewDense .mat) .s true, .obj .vector .s true, .obj (.view1D .ten) .s false], .matvec, .s, [.one, .par 0, .par 1, .zero, .par 2, .ff]⟩,
  ⟨.matvec_N, [.scal .s, .obj (.viewDense .mat) .s true, .obj .vector .s true, .scal .s, .obj (.view1D .ten) .s false], .matvec, .s, [.par 0, .par 1, .par 2, .par 3, .par 4, .ff]⟩,
  ⟨.matvec_N, [.obj (.viewDense .ten) .s true, .obj .vector .s true, .obj (.view1D .ten) .s false], .matvec, .s, [.one, .par 0, .par 1, .zero, .par 2, .ff]⟩,
  ⟨.matvec_N, [.scal .s, .obj (.viewDense .ten) .s true, .obj .vector .s true, .scal .s, .obj (.view1D .ten) .s false], .matvec, .s, [.par 0, .par 1, .par 2, .par 3, .par 4, .ff]⟩,
  ⟨.matvec_N, [.obj .dense .s true, .obj (.view1D .vec) .s true, .obj .vector .s false], .matvec, .s, [.one, .par 0, .par 1, .zero, .par 2, .ff]⟩,
  ⟨.matvec_N, [.scal .s, .obj .dense .s true, .obj (.view1D .vec) .s true, .scal .s, .obj .vector .s false], .matvec, .s, [.par 0, .par 1, .par 2, .par 3, .par 4, .ff]⟩,
  ⟨.matvec_N, [.obj (.viewDense .vec) .s true, .obj (.view1D .vec) .s true, .obj .vector .s false], .matvec, .s, [.one, .par 0, .par 1, .zero, .par 2, .ff]⟩,
  ⟨.matvec_N, [.scal .s, .obj (.viewDense .vec) .s true, .obj (.view1D .vec) .s true, .scal .s, .obj .vector .s false], .matvec, .s, [.par 0, .par 1, .par 2, .par 3, .par 4, .ff]⟩,
  ⟨.matvec_N, [.obj (.viewDense .mat) .s true, .obj (.view1D .vec) .s true, .obj .vector .s false], .matvec, .s, [.one, .par 0, .par 1, .zero, .par 2, .ff]⟩,
  ⟨.matvec_N, [.scal .s, .obj (.viewDense .mat) .s true, .obj (.view1D .vec) .s true, .scal .s, .obj .vector .s false], .matvec, .s, [.par 0, .par 1, .par 2, .par 3, .par 4, .ff]⟩,
  ⟨.matvec_N, [.obj (.viewDense .ten) .s true, .obj (.view1D .vec) .s true, .obj .vector .s false], .matvec, .s, [.one, .par 0, .par 1, .zero, .par 2, .ff]⟩,
  ⟨.matvec_N, [.scal .s, .obj (.viewDense .ten) .s true, .obj (.view1D .vec) .s true, .scal .s, .obj .vector .s false], .matvec, .s, [.par 0, .par 1, .par 2, .par 3, .par 4, .ff]⟩,
  ⟨.matvec_N, [.obj .dense .s true, .obj (.view1D .vec) .s true, .obj (.view1D .vec) .s false], .matvec, .s, [.one, .par 0, .par 1, .zero, .par 2, .ff]⟩,
  ⟨.matvec_N, [.scal .s, .obj .dense .s true, .obj (.view1D .vec) .s true, .scal .s, .obj (.view1D .vec) .s false], .matvec, .s, [.par 0, .par 1, .par 2, .par 3, .par 4, .ff]⟩,
  ⟨.matvec_N, [.obj (.viewDense .vec) .s true, .obj (.view1D .vec) .s true, .obj (.view1D .vec) .s false], .matvec, .s, [.one, .par 0, .par 1, .zero, .par 2, .ff]⟩,
  ⟨.matvec_N, [.scal .s, .obj (.viewDense .vec) .s true, .obj (.view1D .vec) .s true, .scal .s, .obj (.view1D .vec) .s false], .matvec, .s, [.par 0, .par 1, .par 2, .par 3, .par 4, .ff]⟩,
  ⟨.matvec_N, [.obj (.viewDense .mat) .s true, .obj (.view1D .vec) .s true, .obj (.view1D .vec) .s false], .matvec, .s, [.one, .par 0, .par 1, .zero, .par 2, .ff]⟩,
  ⟨.matvec_N, [.scal .s, .obj (.viewDense .mat) .s true, .obj (.view1D .vec) .s true, .scal .s, .obj (.view1D .vec) .s false], .matvec, .s, [.par 0, .par 1, .par 2, .par 3, .par 4, .ff]⟩,
  ⟨.matvec_N, [.obj (.viewDense .ten) .s true, .obj (.view1D .vec) .s true, .obj (.view1D .vec) .s false], .matvec, .s, [.one, .par 0, .par 1, .zero, .par 2, .ff]⟩,
  ⟨.matvec_N, [.scal .s, .obj (.viewDense .ten) .s true, .obj (.view1D .vec) .s true, .scal .s, .obj (.view1D .vec) .s false], .matvec, .s, [.par 0, .par 1, .par 2, .par 3, .par 4, .ff]⟩,
  ⟨.matvec_N, [.obj .dense .s true, .obj (.view1D .vec) .s true, .obj (.view1D .mat) .s false], .matvec, .s, [.one, .par 0, .par 1, .zero, .par 2, .ff]⟩,
  ⟨.matvec_N, [.scal .s, .obj .dense .s true, .obj (.view1D .vec) .s true, .scal .s, .obj (.view1D .mat) .s false], .matvec, .s, [.par 0, .par 1, .par 2, .par 3, .par 4, .ff]⟩,
  ⟨.matvec_N, [.obj (.viewDense .vec) .s true, .obj (.view1D .vec) .s true, .obj (.view1D .mat) .s false], .matvec, .s, [.one, .par 0, .par 1, .zero, .par 2, .ff]⟩,
  ⟨.matvec_N, [.scal .s, .obj (.viewDense .vec) .s true, .obj (.view1D .vec) .s true, .scal .s, .obj (.view1D .mat) .s false], .matvec, .s, [.par 0, .par 1, .par 2, .par 3, .par 4, .ff]⟩,
  ⟨.matvec_N, [.obj (.viewDense .mat) .s true, .obj (.view1D .vec) .s true, .obj (.view1D .mat) .s false], .matvec, .s, [.one, .par 0, .par 1, .zero, .par 2, .ff]⟩,
  ⟨.matvec_N, [.scal .s, .obj (.viewDense .mat) .s true, .obj (.view1D .vec) .s true, .scal .s, .obj (.view1D .mat) .s false], .matvec, .s, [.par 0, .par 1, .par 2, .par 3, .par 4, .ff]⟩,
  ⟨.matvec_N, [.obj (.viewDense .ten) .s true, .obj (.view1D .vec) .s true, .obj (.view1D .mat) .s false], .matvec, .s, [.one, .par 0, .par 1, .zero, .par 2, .ff]⟩,
  ⟨.matvec_N, [.scal .s, .obj (.viewDense .ten) .s true, .obj (.view1D .vec) .s true, .scal .s, .obj (.view1D .mat) .s false], .matvec, .s, [.par 0, .par 1, .par 2, .par 3, .par 4, .ff]⟩,
  ⟨.matvec_N, [.obj .dense .s true, .obj (.view1D .vec) .s true, .obj (.view1D .ten) .s false], .matvec, .s, [.one, .par 0, .par 1, .zero, .par 2, .ff]⟩,
  ⟨.matvec_N, [.scal .s, .obj .dense .s true, .obj (.view1D .vec) .s true, .scal .s, .obj (.view1D .ten) .s false], .matvec, .s, [.par 0, .par 1, .par 2, .par 3, .par 4, .ff]⟩,
  ⟨.matvec_N, [.obj (.viewDense .vec) .s true, .obj (.view1D .vec) .s true, .obj (.view1D .ten) .s false], .matvec, .s, [.one, .par 0, .par 1, .zero, .par 2, .ff]⟩,
  ⟨.matvec_N, [.scal .s, .obj (.viewDense .vec) .s true, .obj (.view1D .vec) .s true, .scal .s, .obj (.view1D .ten) .s false], .matvec, .s, [.par 0, .par 1, .par 2, .par 3, .par 4, .ff]⟩,
  ⟨.matvec_N, [.obj (.viewDense .mat) .s true, .obj (.view1D .vec) .s true, .obj (.view1D .ten) .s false], .matvec, .s, [.one, .par 0, .par 1, .zero, .par 2, .ff]⟩,
  ⟨.matvec_N, [.scal .s, .obj (.viewDense .mat) .s true, .obj (.view1D .vec) .s true, .scal .s, .obj (.view1D .ten) .s false], .matvec, .s, [.par 0, .par 1, .par 2, .par 3, .par 4, .ff]⟩,
  ⟨.matvec_N, [.obj (.viewDense .ten) .s true, .obj (.view1D .vec) .s true, .obj (.view1D .ten) .s false], .matvec, .s, [.one, .par 0, .par 1, .zero, .par 2, .ff]⟩,
  ⟨.matvec_N, [.scal .s, .obj (.viewDense .ten) .s true, .obj (.view1D .vec) .s true, .scal .s, .obj (.view1D .ten) .s false], .matvec, .s, [.par 0, .par 1, .par 2, .par 3, .par 4, .ff]⟩,
  ⟨.matvec_N, [.obj .dense .s true, .obj (.view1D .mat) .s true, .obj .vector .s false], .matvec, .s, [.one, .par 0, .par 1, .zero, .par 2, .ff]⟩,
  ⟨.matvec_N, [.scal .s, .obj .dense .s true, .obj (.view1D .mat) .s true, .scal .s, .obj .vector .s false], .matvec, .s, [.par 0, .par 1, .par 2, .par 3, .par 4, .ff]⟩,
  ⟨.matvec_N, [.obj (.viewDense .vec) .s true, .obj (.view1D .mat) .s true, .obj .vector .s false], .matvec, .s, [.one, .par 0, .par 1, .zero, .par 2, .ff]⟩,
  ⟨.matvec_N, [.scal .s, .obj (.viewDense .vec) .s true, .obj (.view1D .mat) .s true, .scal .s, .obj .vector .s false], .matvec, .s, [.par 0, .par 1, .par 2, .par 3, .par 4, .ff]⟩,
  ⟨.matvec_N, [.obj (.viewDense .mat) .s true, .obj (.view1D .mat) .s true, .obj .vector .s false], .matvec, .s, [.one, .par 0, .par 1, .zero, .par 2, .ff]⟩,
  ⟨.matvec_N, [.scal .s, .obj (.viewDense .mat) .s true, .obj (.view1D .mat) .s true, .scal .s, .obj .vector .s false], .matvec, .s, [.par 0, .par 1, .par 2, .par 3, .par 4, .ff]⟩,
  ⟨.matvec_N, [.obj (.viewDense .ten) .s true, .obj (.view1D .mat) .s true, .obj .vector .s false], .matvec, .s, [.one, .par 0, .par 1, .zero, .par 2, .ff]⟩,
  ⟨.matvec_N, [.scal .s, .obj (.viewDense .ten) .s true, .obj (.view1D .mat) .s true, .scal .s, .obj .vector .s false], .matvec, .s, [.par 0, .par 1, .par 2, .par 3, .par 4, .ff]⟩,
  ⟨.matvec_N, [.obj .dense .s true, .obj (.view1D .mat) .s true, .obj (.view1D .vec) .s false], .matvec, .s, [.one, .par 0, .par 1, .zero, .par 2, .ff]⟩,
  ⟨.matvec_N, [.scal .s, .obj .dense .s true, .obj (.view1D .mat) .s true, .scal .s, .obj (.view1D .vec) .s false], .matvec, .s, [.par 0, .par 1, .par 2, .par 3, .par 4, .ff]⟩,
  ⟨.matvec_N, [.obj (.viewDense .vec) .s true, .obj (.view1D .mat) .s true, .obj (.view1D .vec) .s false], .matvec, .s, [.one, .par 0, .par 1, .zero, .par 2, .ff]⟩,
  ⟨.matvec_N, [.scal .s, .obj (.viewDense .vec) .s true, .obj (.view1D .mat) .s true, .scal .s, .obj (.view1D .vec) .s false], .matvec, .s, [.par 0, .par 1, .par 2, .par 3, .par 4, .ff]⟩,
  ⟨.matvec_N, [.obj (.viewDense .mat) .s true, .obj (.view1D .mat) .s true, .obj (.view1D .vec) .s false], .matvec, .s, [.one, .par 0, .par 1, .zero, .par 2, .ff]⟩,
  ⟨.matvec_N, [.scal .s, .obj (.viewDense .mat) .s true, .obj (.view1D .mat) .s true, .scal .s, .obj (.view1D .vec) .s false], .matvec, .s, [.par 0, .par 1, .par 2, .par 3, .par 4, .ff]⟩,
  ⟨.matvec_N, [.obj (.viewDense .ten) .s true, .obj (.view1D .mat) .s true, .obj (.view1D .vec) .s false], .matvec, .s, [.one, .par 0, .par 1, .zero, .par 2, .ff]⟩,
  ⟨.matvec_N, [.scal .s, .obj (.viewDense .ten) .s true, .obj (.view1D .mat) .s true, .scal .s, .obj (.view1D .vec) .s false], .matvec, .s, [.par 0, .par 1, .par 2, .par 3, .par 4, .ff]⟩,
  ⟨.matvec_N, [.obj .dense .s true, .obj (.view1D .mat) .s true, .obj (.view1D .mat) .s false], .matvec, .s, [.one, .par 0, .par 1, .zero, .par 2, .ff]⟩,
  ⟨.matvec_N, [.scal .s, .obj .dense .s true, .obj (.view1D .mat) .s true, .scal .s, .obj (.view1D .mat) .s false], .matvec, .s, [.par 0, .par 1, .par 2, .par 3, .par 4, .ff]⟩,
  ⟨.matvec_N, [.obj (.viewDense .vec) .s true, .obj (.view1D .mat) .s true, .obj (.view1D .mat) .s false], .matvec, .s, [.one, .par 0, .par 1, .zero, .par 2, .ff]⟩,
  ⟨.matvec_N, [.scal .s, .obj (.viewDense .vec) .s true, .obj (.view1D .mat) .s true, .scal .s, .obj (.view1D .mat) .s false], .matvec, .s, [.par 0, .par 1, .par 2, .par 3, .par 4, .ff]⟩,
  ⟨.matvec_N, [.obj (.viewDense .mat) .s true, .obj (.view1D .mat) .s true, .obj (.view1D .mat) .s false], .matvec, .s, [.one, .par 0, .par 1, .zero, .par 2, .ff]⟩,
  ⟨.matvec_N, [.scal .s, .obj (.viewDense .mat) .s true, .obj (.view1D .mat) .s true, .scal .s, .obj (.view1D .mat) .s false], .matvec, .s, [.par 0, .par 1, .par 2, .par 3, .par 4, .ff]⟩,
  ⟨.matvec_N, [.obj (.viewDense .ten) .s true, .obj (.view1D .mat) .s true, .obj (.view1D .mat) .s false], .matvec, .s, [.one, .par 0, .par 1, .zero, .par 2, .ff]⟩,
  ⟨.matvec_N, [.scal .s, .obj (.viewDense .ten) .s true, .obj (.view1D .mat) .s true, .scal .s, .obj (.view1D .mat) .s false], .matvec, .s, [.par 0, .par 1, .par 2, .par 3, .par 4, .ff]⟩,
  ⟨.matvec_N, [.obj .dense .s true, .obj (.view1D .mat) .s true, .obj (.view1D .ten) .s false], .matvec, .s, [.one, .par 0, .par 1, .zero, .par 2, .ff]⟩,
  ⟨.matvec_N, [.scal .s, .obj .dense .s true, .obj (.view1D .mat) .s true, .scal .s, .obj (.view1D .ten) .s false], .matvec, .s, [.par 0, .par 1, .par 2, .par 3, .par 4, .ff]⟩,
  ⟨.matvec_N, [.obj (.viewDense .vec) .s true, .obj (.view1D .mat) .s true, .obj (.view1D .ten) .s false], .matvec, .s, [.one, .par 0, .par 1, .zero, .par 2, .ff]⟩,
  ⟨.matvec_N, [.scal .s, .obj (.viewDense .vec) .s true, .obj (.view1D .mat) .s true, .scal .s, .obj (.view1D .ten) .s false], .matvec, .s, [.par 0, .par 1, .par 2, .par 3, .par 4, .ff]⟩,
  ⟨.matvec_N, [.obj (.viewDense .mat) .s true, .obj (.view1D .mat) .s true, .obj (.view1D .ten) .s false], .matvec, .s, [.one, .par 0, .par 1, .zero, .par 2, .ff]⟩,
  ⟨.matvec_N, [.scal .s, .obj (.viewDense .mat) .s true, .obj (.view1D .mat) .s true, .scal .s, .obj (.view1D .ten) .s false], .matvec, .s, [.par 0, .par 1, .par 2, .par 3, .par 4, .ff]⟩,
  ⟨.matvec_N, [.obj (.viewDense .ten) .s true, .obj (.view1D .mat) .s true, .obj (.view1D .ten) .s false], .matvec, .s, [.one, .par 0, .par 1, .zero, .par 2, .ff]⟩,
  ⟨.matvec_N, [.scal .s, .obj (.viewDense .ten) .s true, .obj (.view1D .mat) .s true, .scal .s, .obj (.view1D .ten) .s false], .matvec, .s, [.par 0, .par 1, .par 2, .par 3, .par 4, .ff]⟩]

/-- src/blas/matrix/matvec/matvec_blas.cpp:2396-2793 -/
def tMatvec_6 : List Overload := [
  ⟨.matvec_N, [.obj .dense .s true, .obj (.view1D .ten) .s true, .obj .vector .s false], .matvec, .s, [.one, .par 0, .par 1, .zero, .par 2, .ff]⟩,
  ⟨.matvec_N, [.scal .s, .obj .dense .s true, .obj (.view1D .ten) .s true, .scal .s, .obj .vector .s false], .matvec, .s, [.par 0, .par 1, .par 2, .par 3, .par 4, .ff]⟩,
  ⟨.matvec_N, [.obj (.viewDense .vec) .s true, .obj (.view1D .ten) .s true, .obj .vector .s false], .matvec, .s, [.one, .par 0, .par 1, .zero, .par 2, .ff]⟩,
  ⟨.matvec_N, [.scal .s, .obj (.viewDense .vec) .s true, .obj (.view1D .ten) .s true, .scal .s, .obj .vector .s false], .matvec, .s, [.par 0, .par 1, .par 2, .par 3, .par 4, .ff]⟩,
  ⟨.matvec_N, [.obj (.viewDense .mat) .s true, .obj (.view1D .ten) .s true, .obj .vector .s false], .matvec, .s, [.one, .par 0, .par 1, .zero, .par 2, .ff]⟩,
  ⟨.matvec_N, [.scal .s, .obj (.viewDense .mat) .s true, .obj (.view1D .ten) .s true, .scal .s, .obj .vector .s false], .matvec, .s, [.par 0, .par 1, .par 2, .par 3, .par 4, .ff]⟩,
  ⟨.matvec_N, [.obj (.viewDense .ten) .s true, .obj (.view1D .ten) .s true, .obj .vector .s false], .matvec, .s, [.one, .par 0, .par 1, .zero, .par 2, .ff]⟩,
  ⟨.matvec_N, [.scal .s, .obj (.viewDense .ten) .s true, .obj (.view1D .ten) .s true, .scal .s, .obj .vector .s false], .matvec, .s, [.par 0, .par 1, .par 2, .par 3, .par 4, .ff]⟩,
  ⟨.matvec_N, [.obj .dense .s true, .obj (.view1D .ten) .s true, .obj (.view1D .vec) .s false], .matvec, .s, [.one, .par 0, .par 1, .zero, .par 2, .ff]⟩,
  ⟨.matvec_N, [.scal .s, .obj .dense .s true, .obj (.view1D .ten) .s true, .scal .s, .obj (.view1D .vec) .s false], .matvec, .s, [.par 0, .par 1, .par 2, .par 3, .par 4, .ff]⟩,
  ⟨.matvec_N, [.obj (.viewDense .vec) .s true, .obj (.view1D .ten) .s true, .obj (.view1D .vec) .s false], .matvec, .s, [.one, .par 0, .par 1, .zero, .par 2, .ff]⟩,
  ⟨.matvec_N, [.scal .s, .obj (.viewDense .vec) .s true, .obj (.view1D .ten) .s true, .scal .s, .obj (.view1D .vec) .s false], .matvec, .s, [.par 0, .par 1, .par 2, .par 3, .par 4, .ff]⟩,
  ⟨.matvec_N, [.obj (.viewDense .mat) .s true, .obj (.view1D .ten) .s true, .obj (.view1D .vec) .s false], .matvec, .s, [.one, .par 0, .par 1, .zero, .par 2, .ff]⟩,
  ⟨.matvec_N, [.scal .s, .obj (.viewDense .mat) .s true, .obj (.view1D .ten) .s true, .scal .s, .obj (.view1D .vec) .s false], .matvec, .s, [.par 0, .par 1, .par 2, .par 3, .par 4, .ff]⟩,
  ⟨.matvec_N, [.obj (.viewDense .ten) .s true, .obj (.view1D .ten) .s true, .obj (.view1D .vec) .s false], .matvec, .s, [.one, .par 0, .par 1, .zero, .par 2, .ff]⟩,
  ⟨.matvec_N, [.scal .s, .obj (.viewDense .ten) .s true, .obj (.view1D .ten) .s true, .scal .s, .obj (.view1D .vec) .s false], .matvec, .s, [.par 0, .par 1, .par 2, .par 3, .par 4, .ff]⟩,
  ⟨.matvec_N, [.obj .dense .s true, .obj (.view1D .ten) .s true, .obj (.view1D .mat) .s false], .matvec, .s, [.one, .par 0, .par 1, .zero, .par 2, .ff]⟩,
  ⟨.matvec_N, [.scal .s, .obj .dense .s true, .obj (.view1D .ten) .s true, .scal .s, .obj (.view1D .mat) .s false], .matvec, .s, [.par 0, .par 1, .par 2, .par 3, .par 4, .ff]⟩,
  ⟨.matvec_N, [.obj (.viewDense .vec) .s true, .obj (.view1D .ten) .s true, .obj (.view1D .mat) .s false], .matvec, .s, [.one, .par 0, .par 1, .zero, .par 2, .ff]⟩,
  ⟨.matvec_N, [.scal .s, .obj (.viewDense .vec) .s true, .obj (.view1D .ten) .s true, .scal .s, .obj (.view1D .mat) .s false], .matvec, .s, [.par 0, .par 1, .par 2, .par 3, .par 4, .ff]⟩,
  ⟨.matvec_N, [.obj (.viewDense .mat) .s true, .obj (.view1D .ten) .s true, .obj (.view1D .mat) .s false], .matvec, .s, [.one, .par 0, .par 1, .zero, .par 2, .ff]⟩,
  ⟨.matvec_N, [.scal .s, .obj (.viewDense .mat) .s true, .obj (.view1D .ten) .s true, .scal .s, .obj (.view1D .mat) .s false], .matvec, .s, [.par 0, .par 1, .par 2, .par 3, .par 4, .ff]⟩,
  ⟨.matvec_N, [.obj (.viewDense .ten) .s true, .obj (.view1D .ten) .s true, .obj (.view1D .mat) .s false], .matvec, .s, [.one, .par 0, .par 1, .zero, .par 2, .ff]⟩,
  ⟨.matvec_N, [.scal .s, .obj (.viewDense .ten) .s true, .obj (.view1D .ten) .s true, .scal .s, .obj (.view1D .mat) .s false], .matvec, .s, [.par 0, .par 1, .par 2, .par 3, .par 4, .ff]⟩,
  ⟨.matvec_N, [.obj .dense .s true, .obj (.view1D .ten) .s true, .obj (.view1D .ten) .s false], .matvec, .s, [.one, .par 0, .par 1, .zero, .par 2, .ff]⟩,
  ⟨.matvec_N, [.scal .s, .obj .dense .s true, .obj (.view1D .ten) .s true, .scal .s, .obj (.view1D .ten) .s false], .matvec, .s, [.par 0, .par 1, .par 2, .par 3, .par 4, .ff]⟩,
  ⟨.matvec_N, [.obj (.viewDense .vec) .s true, .obj (.view1D .ten) .s true, .obj (.view1D .ten) .s false], .matvec, .s, [.one, .par 0, .par 1, .zero, .par 2, .ff]⟩,
  ⟨.matvec_N, [.scal .s, .obj (.viewDense .vec) .s true, .obj (.view1D .ten) .s true, .scal .s, .obj (.view1D .ten) .s false], .matvec, .s, [.par 0, .par 1, .par 2, .par 3, .par 4, .ff]⟩,
  ⟨.matvec_N, [.obj (.viewDense .mat) .s true, .obj (.view1D .ten) .s true, .obj (.view1D .ten) .s false], .matvec, .s, [.one, .par 0, .par 1, .zero, .par 2, .ff]⟩,
  ⟨.matvec_N, [.scal .s, .obj (.viewDense .mat) .s true, .obj (.view1D .ten) .s true, .scal .s, .obj (.view1D .ten) .s false], .matvec, .s, [.par 0, .par 1, .par 2, .par 3, .par 4, .ff]⟩,
  ⟨.matvec_N, [.obj (.viewDense .ten) .s true, .obj (.view1D .ten) .s true, .obj (.view1D .ten) .s false], .matvec, .s, [.one, .par 0, .par 1, .zero, .par 2, .ff]⟩,
  ⟨.matvec_N, [.scal .s, .obj (.viewDense .ten) .s true, .obj (.view1D .ten) .s true, .scal .s, .obj (.view1D .ten) .s false], .matvec, .s, [.par 0, .par 1, .par 2, .par 3, .par 4, .ff]⟩,
  ⟨.matvec_T, [.obj .dense .d true, .obj .vector .d true, .obj .vector .d false], .matvec, .d, [.one, .par 0, .par 1, .zero, .par 2, .tt]⟩,
  ⟨.matvec_T, [.scal .d, .obj .dense .d true, .obj .vector .d true, .scal .d, .obj .vector .d false], .matvec, .d, [.par 0, .par 1, .par 2, .par 3, .par 4, .tt]⟩,
  ⟨.matvec_T, [.obj (.viewDense .vec) .d true, .obj .vector .d true, .obj .vector .d false], .matvec, .d, [.one, .par 0, .par 1, .zero, .par 2, .tt]⟩,
  ⟨.matvec_T, [.scal .d, .obj (.viewDense .vec) .d true, .obj .vector .d true, .scal .d, .obj .vector .d false], .matvec, .d, [.par 0, .par 1, .par 2, .par 3, .par 4, .tt]⟩,
  ⟨.matvec_T, [.obj (.viewDense .mat) .d true, .obj .vector .d true, .obj .vector .d false], .matvec, .d, [.one, .par 0, .par 1, .zero, .par 2, .tt]⟩,
  ⟨.matvec_T, [.scal .d, .obj (.viewDense .mat) .d true, .obj .vector .d true, .scal .d, .obj .vector .d false], .matvec, .d, [.par 0, .par 1, .par 2, .par 3, .par 4, .tt]⟩,
  ⟨.matvec_T, [.obj (.viewDense .ten) .d true, .obj .vector .d true, .obj .vector .d false], .matvec, .d, [.one, .par 0, .par 1, .zero, .par 2, .tt]⟩,
  ⟨.matvec_T, [.scal .d, .obj (.viewDense .ten) .d true, .obj .vector .d true, .scal .d, .obj .vector .d false], .matvec, .d, [.par 0, .par 1, .par 2, .par 3, .par 4, .tt]⟩,
  ⟨.matvec_T, [.obj .dense .d true, .obj .vector .d true, .obj (.view1D .vec) .d false], .matvec, .d, [.one, .par 0, .par 1, .zero, .par 2, .tt]⟩,
  ⟨.matvec_T, [.scal .d, .obj .dense .d true, .obj .vector .d true, .scal .d, .obj (.view1D .vec) .d false], .matvec, .d, [.par 0, .par 1, .par 2, .par 3, .par 4, .tt]⟩,
  ⟨.matvec_T, [.obj (.viewDense .vec) .d true, .obj .vector .d true, .obj (.view1D .vec) .d false], .matvec, .d, [.one, .par 0, .par 1, .zero, .par 2, .tt]⟩,
  ⟨.matvec_T, [.scal .d, .obj (.viewDense .vec) .d true, .obj .vector .d true, .scal .d, .obj (.view1D .vec) .d false], .matvec, .d, [.par 0, .par 1, .par 2, .par 3, .par 4, .tt]⟩,
  ⟨.matvec_T, [.obj (.viewDense .mat) .d true, .obj .vector .d true, .obj (.view1D .vec) .d false], .matvec, .d, [.one, .par 0, .par 1, .zero, .par 2, .tt]⟩,
  ⟨.matvec_T, [.scal .d, .obj (.viewDense .mat) .d true, .obj .vector .d true, .scal .d, .obj (.view1D .vec) .d false], .matvec, .d, [.par 0, .par 1, .par 2, .par 3, .par 4, .tt]⟩,
  ⟨.matvec_T, [.obj (.viewDense .ten) .d true, .obj .vector .d true, .obj (.view1D .vec) .d false], .matvec, .d, [.one, .par 0, .par 1, .zero, .par 2, .tt]⟩,
  ⟨.matvec_T, [.scal .d, .obj (.viewDense .ten) .d true, .obj .vector .d true, .scal .d, .obj (.view1D .vec) .d false], .matvec, .d, [.par 0, .par 1, .par 2, .par 3, .par 4, .tt]⟩,
  ⟨.matvec_T, [.obj .dense .d true, .obj .vector .d true, .obj (.view1D .mat) .d false], .matvec, .d, [.one, .par 0, .par 1, .zero, .par 2, .tt]⟩,
  ⟨.matvec_T, [.scal .d, .obj .dense .d true, .obj .vector .d true, .scal .d, .obj (.view1D .mat) .d false], .matvec, .d, [.par 0, .par 1, .par 2, .par 3, .par 4, .tt]⟩,
  ⟨.matvec_T, [.obj (.viewDense .vec) .d true, .obj .vector .d true, .obj (.view1D .mat) .d false], .matvec, .d, [.one, .par 0, .par 1, .zero, .par 2, .tt]⟩,
  ⟨.matvec_T, [.scal .d, .obj (.viewDense .vec) .d true, .obj .vector .d true, .scal .d, .obj (.view1D .mat) .d false], .matvec, .d, [.par 0, .par 1, .par 2, .par 3, .par 4, .tt]⟩,
  ⟨.matvec_T, [.obj (.viewDense .mat) .d true, .obj .vector .d true, .obj (.view1D .mat) .d false], .matvec, .d, [.one, .par 0, .par 1, .zero, .par 2, .tt]⟩,
  ⟨.matvec_T, [.scal .d, .obj (.viewDense .mat) .d true, .obj .vector .d true, .scal .d, .obj (.view1D .mat) .d false], .matvec, .d, [.par 0, .par 1, .par 2, .par 3, .par 4, .tt]⟩,
  ⟨.matvec_T, [.obj (.viewDense .ten) .d true, .obj .vector .d true, .obj (.view1D .mat) .d false], .matvec, .d, [.one, .par 0, .par 1, .zero, .par 2, .tt]⟩,
  ⟨.matvec_T, [.scal .d, .obj (.viewDense .ten) .d true, .obj .vector .d true, .scal .d, .obj (.view1D .mat) .d false], .matvec, .d, [.par 0, .par 1, .par 2, .par 3, .par 4, .tt]⟩,
  ⟨.matvec_T, [.obj .dense .d true, .obj .vector .d true, .obj (.view1D .ten) .d false], .matvec, .d, [.one, .par 0, .par 1, .zero, .par 2, .tt]⟩,
  ⟨.matvec_T, [.scal .d, .obj .dense .d true, .obj .vector .d true, .scal .d, .obj (.view1D .ten) .d false], .matvec, .d, [.par 0, .par 1, .par 2, .par 3, .par 4, .tt]⟩,
  ⟨.matvec_T, [.obj (.viewDense .vec) .d true, .obj .vector .d true, .obj (.view1D .ten) .d false], .matvec, .d, [.one, .par 0, .par 1, .zero, .par 2, .tt]⟩,
  ⟨.matvec_T, [.scal .d, .obj (.viewDense .vec) .d true, .obj .vector .d true, .scal .d, .obj (.view1D .ten) .d false], .matvec, .d, [.par 0, .par 1, .par 2, .par 3, .par 4, .tt]⟩,
  ⟨.matvec_T, [.obj (.viewDense .mat) .d true, .obj .vector .d true, .obj (.view1D .ten) .d false], .matvec, .d, [.one, .par 0, .par 1, .zero, .par 2, .tt]⟩,
  ⟨.matvec_T, [.scal .d, .obj (.viewDense .mat) .d true, .obj .vector .d true, .scal .d, .obj (.view1D .ten) .d false], .matvec, .d, [.par 0, .par 1, .par 2, .par 3, .par 4, .tt]⟩,
  ⟨.matvec_T, [.obj (.viewDense .ten) .d true, .obj .vector .d true, .obj (.view1D .ten) .d false], .matvec, .d, [.one, .par 0, .par 1, .zero, .par 2, .tt]⟩,
  ⟨.matvec_T, [.scal .d, .obj (.viewDense .ten) .d true, .obj .vector .d true, .scal .d, .obj (.view1D .ten) .d false], .matvec, .d, [.par 0, .par 1, .par 2, .par 3, .par 4, .tt]⟩,
  ⟨.matvec_T, [.obj .dense .d true, .obj (.view1D .vec) .d true, .obj .vector .d false], .matvec, .d, [.one, .par 0, .par 1, .zero, .par 2, .tt]⟩,
  ⟨.matvec_T, [.scal .d, .obj .dense .d true, .obj (.view1D .vec) .d true, .scal .d, .obj .vector .d false], .matvec, .d, [.par 0, .par 1, .par 2, .par 3, .par 4, .tt]⟩,
  ⟨.matvec_T, [.obj (.viewDense .vec) .d true, .obj (.view1D .vec) .d true, .obj .vector .d false], .matvec, .d, [.one, .par 0, .par 1, .zero, .par 2, .tt]⟩,
  ⟨.matvec_T, [.scal .d, .obj (.viewDense .vec) .d true, .obj (.view1D .vec) .d true, .scal .d, .obj .vector .d false], .matvec, .d, [.par 0, .par 1, .par 2, .par 3, .par 4, .tt]⟩,
  ⟨.matvec_T, [.obj (.viewDense .mat) .d true, .obj (.view1D .vec) .d true, .obj .vector .d false], .matvec, .d, [.one, .par 0, .par 1, .zero, .par 2, .tt]⟩,
  ⟨.matvec_T, [.scal .d, .obj (.viewDense .mat) .d true, .obj (.view1D .vec) .d true, .scal .d, .obj .vector .d false], .matvec, .d, [.par 0, .par 1, .par 2, .par 3, .par 4, .tt]⟩,
  ⟨.matvec_T, [.obj (.viewDense .ten) .d true, .obj (.view1D .vec) .d true, .obj .vector .d false], .matvec, .d, [.one, .par 0, .par 1, .zero, .par 2, .tt]⟩,
  ⟨.matvec_T, [.scal .d, .obj (.viewDense .ten) .d true, .obj (.view1D .vec) .d true, .scal .d, .obj .vector .d false], .matvec, .d, [.par 0, .par 1, .par 2, .par 3, .par 4, .tt]⟩,
  ⟨.matvec_T, [.obj .dense .d true, .obj (.view1D .vec) .d true, .obj (.view1D .vec) .d false], .matvec, .d, [.one, .par 0, .par 1, .zero, .par 2, .tt]⟩,
  ⟨.matvec_T, [.scal .d, .obj .dense .d true, .obj (.view1D .vec) .d true, .scal .d, .obj (.view1D .vec) .d false], .matvec, .d, [.par 0, .par 1, .par 2, .par 3, .par 4, .tt]⟩,
  ⟨.matvec_T, [.obj (.viewDense .vec) .d true, .obj (.view1D .vec) .d true, .obj (.view1D .vec) .d false], .matvec, .d, [.one, .par 0, .par 1, .zero, .par 2, .tt]⟩,
  ⟨.matvec_T, [.scal .d, .obj (.viewDense .vec) .d true, .obj (.view1D .vec) .d true, .scal .d, .obj (.view1D .vec) .d false], .matvec, .d, [.par 0, .par 1, .par 2, .par 3, .par 4, .tt]⟩,
  ⟨.matvec_T, [.obj (.viewDense .mat) .d true, .obj (.view1D .vec) .d true, .obj (.view1D .vec) .d false], .matvec, .d, [.one, .par 0, .par 1, .zero, .par 2, .tt]⟩,
  ⟨.matvec_T, [.scal .d, .obj (.viewDense .mat) .d true, .obj (.view1D .vec) .d true, .scal .d, .obj (.view1D .vec) .d false], .matvec, .d, [.par 0, .par 1, .par 2, .par 3, .par 4, .tt]⟩,
  ⟨.matvec_T, [.obj (.viewDense .ten) .d true, .obj (.view1D .vec) .d true, .obj (.view1D .vec) .d false], .matvec, .d, [.one, .par 0, .par 1, .zero, .par 2, .tt]⟩,
  ⟨.matvec_T, [.scal .d, .obj (.viewDense .ten) .d true, .obj (.view1D .vec) .d true, .scal .d, .obj (.view1D .vec) .d false], .matvec, .d, [.par 0, .par 1, .par 2, .par 3, .par 4, .tt]⟩]

/-- src/blas/matrix/matvec/matvec_blas.cpp:2794-3217 -/
def tMatvec_7 : List Overload := [
  ⟨.matvec_T, [.obj .dense .d true, .obj (.view1D .vec) .d true, .obj (.view1D .mat) .d false], .matvec, .d, [.one, .par 0, .par 1, .zero, .par 2, .tt]⟩,
  ⟨.matvec_T, [.scal .d, .obj .dense .d true, .obj (.view1D .vec) .d true, .scal .d, .obj (.view1D .mat) .d false], .matvec, .d, [.par 0, .par 1, .par 2, .par 3, .par 4, .tt]⟩,
  ⟨.matvec_T, [.obj (.viewDense .vec) .d true, .obj (.view1D .vec) .d true, .obj (.view1D .mat) .d false], .matvec, .d, [.one, .par 0, .par 1, .zero, .par 2, .tt]⟩,
  ⟨.matvec_T, [.scal .d, .obj (.viewDense .vec) .d true, .obj (.view1D .vec) .d true, .scal .d, .obj (.view1D .mat) .d false], .matvec, .d, [.par 0, .par 1, .par 2, .par 3, .par 4, .tt]⟩,
  ⟨.matvec_T, [.obj (.viewDense .mat) .d true, .obj (.view1D .vec) .d true, .obj (.view1D .mat) .d false], .matvec, .d, [.one, .par 0, .par 1, .zero, .par 2, .tt]⟩,
  ⟨.matvec_T, [.scal .d, .obj (.viewDense .mat) .d true, .obj (.view1D .vec) .d true, .scal .d, .obj (.view1D .mat) .d false], .matvec, .d, [.par 0, .par 1, .par 2, .par 3, .par 4, .tt]⟩,
  ⟨.matvec_T, [.obj (.viewDense .ten) .d true, .obj (.view1D .vec) .d true, .obj (.view1D .mat) .d false], .matvec, .d, [.one, .par 0, .par 1, .zero, .par 2, .tt]⟩,
  ⟨.matvec_T, [.scal .d, .obj (.viewDense .ten) .d true, .obj (.view1D .vec) .d true, .scal .d, .obj (.view1D .mat) .d false], .matvec, .d, [.par 0, .par 1, .par 2, .par 3, .par 4, .tt]⟩,
  ⟨.matvec_T, [.obj .dense .d true, .obj (.view1D .vec) .d true, .obj (.view1D .ten) .d false], .matvec, .d, [.one, .par 0, .par 1, .zero, .par 2, .tt]⟩,
  ⟨.matvec_T, [.scal .d, .obj .dense .d true, .obj (.view1D .vec) .d true, .scal .d, .obj (.view1D .ten) .d false], .matvec, .d, [.par 0, .par 1, .par 2, .par 3, .par 4, .tt]⟩,
  ⟨.matvec_T, [.obj (.viewDense .vec) .d true, .obj (.view1D .vec) .d true, .obj (.view1D .ten) .d false], .matvec, .d, [.one, .par 0, .par 1, .zero, .par 2, .tt]⟩,
  ⟨.matvec_T, [.scal .d, .obj (.viewDense .vec) .d true, .obj (.view1D .vec) .d true, .scal .d, .obj (.view1D .ten) .d false], .matvec, .d, [.par 0, .par 1, .par 2, .par 3, .par 4, .tt]⟩,
  ⟨.matvec_T, [.obj (.viewDense .mat) .d true, .obj (.view1D .vec) .d true, .obj (.view1D .ten) .d false], .matvec, .d, [.one, .par 0, .par 1, .zero, .par 2, .tt]⟩,
  ⟨.matvec_T, [.scal .d, .obj (.viewDense .mat) .d true, .obj (.view1D .vec) .d true, .scal .d, .obj (.view1D .ten) .d false], .matvec, .d, [.par 0, .par 1, .par 2, .par 3, .par 4, .tt]⟩,
  ⟨.matvec_T, [.obj (.viewDense .ten) .d true, .obj (.view1D .vec) .d true, .obj (.view1D .ten) .d false], .matvec, .d, [.one, .par 0, .par 1, .zero, .par 2, .tt]⟩,
  ⟨.matvec_T, [.scal .d, .obj (.viewDense .ten) .d true, .obj (.view1D .vec) .d true, .scal .d, .obj (.view1D .ten) .d false], .matvec, .d, [.par 0, .par 1, .par 2, .par 3, .par 4, .tt]⟩,
  ⟨.matvec_T, [.obj .dense .d true, .obj (.view1D .mat) .d true, .obj .vector .d false], .matvec, .d, [.one, .par 0, .par 1, .zero, .par 2, .tt]⟩,
  ⟨.matvec_T, [.scal .d, .obj .dense .d true, .obj (.view1D .mat) .d true, .scal .d, .obj .vector .d false], .matvec, .d, [.par 0, .par 1, .par 2, .par 3, .par 4, .tt]⟩,
  ⟨.matvec_T, [.obj (.viewDense .vec) .d true, .obj (.view1D .mat) .d true, .obj .vector .d false], .matvec, .d, [.one, .par 0, .par 1, .zero, .par 2, .tt]⟩,
  ⟨.matvec_T, [.scal .d, .obj (.viewDense .vec) .d true, .obj (.view1D .mat) .d true, .scal .d, .obj .vector .d false], .matvec, .d, [.par 0, .par 1, .par 2, .par 3, .par 4, .tt]⟩,
  ⟨.matvec_T, [.obj (.viewDense .mat) .d true, .obj (.view1D .mat) .d true, .obj .vector .d false], .matvec, .d, [.one, .par 0, .par 1, .zero, .par 2, .tt]⟩,
  ⟨.matvec_T, [.scal .d, .obj (.viewDense .mat) .d true, .obj (.view1D .mat) .d true, .scal .d, .obj .vector .d false], .matvec, .d, [.par 0, .par 1, .par 2, .par 3, .par 4, .tt]⟩,
  ⟨.matvec_T, [.obj (.viewDense .ten) .d true, .obj (.view1D .mat) .d true, .obj .vector .d false], .matvec, .d, [.one, .par 0, .par 1, .zero, .par 2, .tt]⟩,
  ⟨.matvec_T, [.scal .d, .obj (.viewDense .ten) .d true, .obj (.view1D .mat) .d true, .scal .d, .obj .vector .d false], .matvec, .d, [.par 0, .par 1, .par 2, .par 3, .par 4, .tt]⟩,
  ⟨.matvec_T, [.obj .dense .d true, .obj (.view1D .mat) .d true, .obj (.view1D .vec) .d false], .matvec, .d, [.one, .par 0, .par 1, .zero, .par 2, .tt]⟩,
  ⟨.matvec_T, [.scal .d, .obj .dense .d true, .obj (.view1D .mat) .d true, .scal .d, .obj (.view1D .vec) .d false], .matvec, .d, [.par 0, .par 1, .par 2, .par 3, .par 4, .tt]⟩,
  ⟨.matvec_T, [.obj (.viewDense .vec) .d true, .obj (.view1D .mat) .d true, .obj (.view1D .vec) .d false], .matvec, .d, [.one, .par 0, .par 1, .zero, .par 2, .tt]⟩,
  ⟨.matvec_T, [.scal .d, .obj (.viewDense .vec) .d true, .obj (.view1D .mat) .d true, .scal .d, .obj (.view1D .vec) .d false], .matvec, .d, [.par 0, .par 1, .par 2, .par 3, .par 4, .tt]⟩,
  ⟨.matvec_T, [.obj (.viewDense .mat) .d true, .obj (.view1D .mat) .d true, .obj (.view1D .vec) .d false], .matvec, .d, [.one, .par 0, .par 1, .zero, .par 2, .tt]⟩,
  ⟨.matvec_T, [.scal .d, .obj (.viewDense .mat) .d true, .obj (.view1D .mat) .d true, .scal .d, .obj (.view1D .vec) .d false], .matvec, .d, [.par 0, .par 1, .par 2, .par 3, .par 4, .tt]⟩,
  ⟨.matvec_T, [.obj (.viewDense .ten) .d true, .obj (.view1D .mat) .d true, .obj (.view1D .vec) .d false], .matvec, .d, [.one, .par 0, .par 1, .zero, .par 2, .tt]⟩,
  ⟨.matvec_T, [.scal .d, .obj (.viewDense .ten) .d true, .obj (.view1D .mat) .d true, .scal .d, .obj (.view1D .vec) .d false], .matvec, .d, [.par 0, .par 1, .par 2, .par 3, .par 4, .tt]⟩,
  ⟨.matvec_T, [.obj .dense .d true, .obj (.view1D .mat) .d true, .obj (.view1D .mat) .d false], .matvec, .d, [.one, .par 0, .par 1, .zero, .par 2, .tt]⟩,
  ⟨.matvec_T, [.scal .d, .obj .dense .d true, .obj (.view1D .mat) .d true, .scal .d, .obj (.view1D .mat) .d false], .matvec, .d, [.par 0, .par 1, .par 2, .par 3, .par 4, .tt]⟩,
  ⟨.matvec_T, [.obj (.viewDense .vec) .d true, .obj (.view1D .mat) .d true, .obj (.view1D .mat) .d false], .matvec, .d, [.one, .par 0, .par 1, .zero, .par 2, .tt]⟩,
  ⟨.matvec_T, [.scal .d, .obj (.viewDense .vec) .d true, .obj (.view1D .mat) .d true, .scal .d, .obj (.view1D .mat) .d false], .matvec, .d, [.par 0, .par 1, .par 2, .par 3, .par 4, .tt]⟩,
  ⟨.matvec_T, [.obj (.viewDense .mat) .d true, .obj (.view1D .mat) .d true, .obj (.view1D .mat) .d false], .matvec, .d, [.one, .par 0, .par 1, .zero, .par 2, .tt]⟩,
  ⟨.matvec_T, [.scal .d, .obj (.viewDense .mat) .d true, .obj (.view1D .mat) .d true, .scal .d, .obj (.view1D .mat) .d false], .matvec, .d, [.par 0, .par 1, .par 2, .par 3, .par 4, .tt]⟩,
  ⟨.matvec_T, [.obj (.viewDense .ten) .d true, .obj (.view1D .mat) .d true, .obj (.view1D .mat) .d false], .matvec, .d, [.one, .par 0, .par 1, .zero, .par 2, .tt]⟩,
  ⟨.matvec_T, [.scal .d, .obj (.viewDense .ten) .d true, .obj (.view1D .mat) .d true, .scal .d, .obj (.view1D .mat) .d false], .matvec, .d, [.par 0, .par 1, .par 2, .par 3, .par 4, .tt]⟩,
  ⟨.matvec_T, [.obj .dense .d true, .obj (.view1D .mat) .d true, .obj (.view1D .ten) .d false], .matvec, .d, [.one, .par 0, .par 1, .zero, .par 2, .tt]⟩,
  ⟨.matvec_T, [.scal .d, .obj .dense .d true, .obj (.view1D .mat) .d true, .scal .d, .obj (.view1D .ten) .d false], .matvec, .d, [.par 0, .par 1, .par 2, .par 3, .par 4, .tt]⟩,
  ⟨.matvec_T, [.obj (.viewDense .vec) .d true, .obj (.view1D .mat) .d true, .obj (.view1D .ten) .d false], .matvec, .d, [.one, .par 0, .par 1, .zero, .par 2, .tt]⟩,
  ⟨.matvec_T, [.scal .d, .obj (.viewDense .vec) .d true, .obj (.view1D .mat) .d true, .scal .d, .obj (.view1D .ten) .d false], .matvec, .d, [.par 0, .par 1, .par 2, .par 3, .par 4, .tt]⟩,
  ⟨.matvec_T, [.obj (.viewDense .mat) .d true, .obj (.view1D .mat) .d true, .obj (.view1D .ten) .d false], .matvec, .d, [.one, .par 0, .par 1, .zero, .par 2, .tt]⟩,
  ⟨.matvec_T, [.scal .d, .obj (.viewDense .mat) .d true, .obj (.view1D .mat) .d true, .scal .d, .obj (.view1D .ten) .d false], .matvec, .d, [.par 0, .par 1, .par 2, .par 3, .par 4, .tt]⟩,
  ⟨.matvec_T, [.obj (.viewDense .ten) .d true, .obj (.view1D .mat) .d true, .obj (.view1D .ten) .d false], .matvec, .d, [.one, .par 0, .par 1, .zero, .par 2, .tt]⟩,
  ⟨.matvec_T, [.scal .d, .obj (.viewDense .ten) .d true, .obj (.view1D .mat) .d true, .scal .d, .obj (.view1D .ten) .d false], .matvec, .d, [.par 0, .par 1, .par 2, .par 3, .par 4, .tt]⟩,
  ⟨.matvec_T, [.obj .dense .d true, .obj (.view1D .ten) .d true, .obj .vector .d false], .matvec, .d, [.one, .par 0, .par 1, .zero, .par 2, .tt]⟩,
  ⟨.matvec_T, [.scal .d, .obj .dense .d true, .obj (.view1D .ten) .d true, .scal .d, .obj .vector .d false], .matvec, .d, [.par 0, .par 1, .par 2, .par 3, .par 4, .tt]⟩,
  ⟨.matvec_T, [.obj (.viewDense .vec) .d true, .obj (.view1D .ten) .d true, .obj .vector .d false], .matvec, .d, [.one, .par 0, .par 1, .zero, .par 2, .tt]⟩,
  ⟨.matvec_T, [.scal .d, .obj (.viewDense .vec) .d true, .obj (.view1D .ten) .d true, .scal .d, .obj .vector .d false], .matvec, .d, [.par 0, .par 1, .par 2, .par 3, .par 4, .tt]⟩,
  ⟨.matvec_T, [.obj (.viewDense .mat) .d true, .obj (.view1D .ten) .d true, .obj .vector .d false], .matvec, .d, [.one, .par 0, .par 1, .zero, .par 2, .tt]⟩,
  ⟨.matvec_T, [.scal .d, .obj (.viewDense .mat) .d true, .obj (.view1D .ten) .d true, .scal .d, .obj .vector .d false], .matvec, .d, [.par 0, .par 1, .par 2, .par 3, .par 4, .tt]⟩,
  ⟨.matvec_T, [.obj (.viewDense .ten) .d true, .obj (.view1D .ten) .d true, .obj .vector .d false], .matvec, .d, [.one, .par 0, .par 1, .zero, .par 2, .tt]⟩,
  ⟨.matvec_T, [.scal .d, .obj (.viewDense .ten) .d true, .obj (.view1D .ten) .d true, .scal .d, .obj .vector .d false], .matvec, .d, [.par 0, .par 1, .par 2, .par 3, .par 4, .tt]⟩,
  ⟨.matvec_T, [.obj .dense .d true, .obj (.view1D .ten) .d true, .obj (.view1D .vec) .d false], .matvec, .d, [.one, .par 0, .par 1, .zero, .par 2, .tt]⟩,
  ⟨.matvec_T, [.scal .d, .obj .dense .d true, .obj (.view1D .ten) .d true, .scal .d, .obj (.view1D .vec) .d false], .matvec, .d, [.par 0, .par 1, .par 2, .par 3, .par 4, .tt]⟩,
  ⟨.matvec_T, [.obj (.viewDense .vec) .d true, .obj (.view1D .ten) .d true, .obj (.view1D .vec) .d false], .matvec, .d, [.one, .par 0, .par 1, .zero, .par 2, .tt]⟩,
  ⟨.matvec_T, [.scal .d, .obj (.viewDense .vec) .d true, .obj (.view1D .ten) .d true, .scal .d, .obj (.view1D .vec) .d false], .matvec, .d, [.par 0, .par 1, .par 2, .par 3, .par 4, .tt]⟩,
  ⟨.matvec_T, [.obj (.viewDense .mat) .d true, .obj (.view1D .ten) .d true, .obj (.view1D .vec) .d false], .matvec, .d, [.one, .par 0, .par 1, .zero, .par 2, .tt]⟩,
  ⟨.matvec_T, [.scal .d, .obj (.viewDense .mat) .d true, .obj (.view1D .ten) .d true, .scal .d, .obj (.view1D .vec) .d false], .matvec, .d, [.par 0, .par 1, .par 2, .par 3, .par 4, .tt]⟩,
  ⟨.matvec_T, [.obj (.viewDense .ten) .d true, .obj (.view1D .ten) .d true, .obj (.view1D .vec) .d false], .matvec, .d, [.one, .par 0, .par 1, .zero, .par 2, .tt]⟩,
  ⟨.matvec_T, [.scal .d, .obj (.viewDense .ten) .d true, .obj (.view1D .ten) .d true, .scal .d, .obj (.view1D .vec) .d false], .matvec, .d, [.par 0, .par 1, .par 2, .par 3, .par 4, .tt]⟩,
  ⟨.matvec_T, [.obj .dense .d true, .obj (.view1D .ten) .d true, .obj (.view1D .mat) .d false], .matvec, .d, [.one, .par 0, .par 1, .zero, .par 2, .tt]⟩,
  ⟨.matvec_T, [.scal .d, .obj .dense .d true, .obj (.view1D .ten) .d true, .scal .d, .obj (.view1D .mat) .d false], .matvec, .d, [.par 0, .par 1, .par 2, .par 3, .par 4, .tt]⟩,
  ⟨.matvec_T, [.obj (.viewDense .vec) .d true, .obj (.view1D .ten) .d true, .obj (.view1D .mat) .d false], .matvec, .d, [.one, .par 0, .par 1, .zero, .par 2, .tt]⟩,
  ⟨.matvec_T, [.scal .d, .obj (.viewDense .vec) .d true, .obj (.view1D .ten) .d true, .scal .d, .obj (.view1D .mat) .d false], .matvec, .d, [.par 0, .par 1, .par 2, .par 3, .par 4, .tt]⟩,
  ⟨.matvec_T, [.obj (.viewDense .mat) .d true, .obj (.view1D .ten) .d true, .obj (.view1D .mat) .d false], .matvec, .d, [.one, .par 0, .par 1, .zero, .par 2, .tt]⟩,
  ⟨.matvec_T, [.scal .d, .obj (.viewDense .mat) .d true, .obj (.view1D .ten) .d true, .scal .d, .obj (.view1D .mat) .d false], .matvec, .d, [.par 0, .par 1, .par 2, .par 3, .par 4, .tt]⟩,
  ⟨.matvec_T, [.obj (.viewDense .ten) .d true, .obj (.view1D .ten) .d true, .obj (.view1D .mat) .d false], .matvec, .d, [.one, .par 0, .par 1, .zero, .par 2, .tt]⟩,
  ⟨.matvec_T, [.scal .d, .obj (.viewDense .ten) .d true, .obj (.view1D .ten) .d true, .scal .d, .obj (.view1D .mat) .d false], .matvec, .d, [.par 0, .par 1, .par 2, .par 3, .par 4, .tt]⟩,
  ⟨.matvec_T, [.obj .dense .d true, .obj (.view1D .ten) .d true, .obj (.view1D .ten) .d false], .matvec, .d, [.one, .par 0, .par 1, .zero, .par 2, .tt]⟩,
  ⟨.matvec_T, [.scal .d, .obj .dense .d true, .obj (.view1D .ten) .d true, .scal .d, .obj (.view1D .ten) .d false], .matvec, .d, [.par 0, .par 1, .par 2, .par 3, .par 4, .tt]⟩,
  ⟨.matvec_T, [.obj (.viewDense .vec) .d true, .obj (.view1D .ten) .d true, .obj (.view1D .ten) .d false], .matvec, .d, [.one, .par 0, .par 1, .zero, .par 2, .tt]⟩,
  ⟨.matvec_T, [.scal .d, .obj (.viewDense .vec) .d true, .obj (.view1D .ten) .d true, .scal .d, .obj (.view1D .ten) .d false], .matvec, .d, [.par 0, .par 1, .par 2, .par 3, .par 4, .tt]⟩,
  ⟨.matvec_T, [.obj (.viewDense .mat) .d true, .obj (.view1D .ten) .d true, .obj (.view1D .ten) .d false], .matvec, .d, [.one, .par 0, .par 1, .zero, .par 2, .tt]⟩,
  ⟨.matvec_T, [.scal .d, .obj (.viewDense .mat) .d true, .obj (.view1D .ten) .d true, .scal .d, .obj (.view1D .ten) .d false], .matvec, .d, [.par 0, .par 1, .par 2, .par 3, .par 4, .tt]⟩,
  ⟨.matvec_T, [.obj (.viewDense .ten) .d true, .obj (.view1D .ten) .d true, .obj (.view1D .ten) .d false], .matvec, .d, [.one, .par 0, .par 1, .zero, .par 2, .tt]⟩,
  ⟨.matvec_T, [.scal .d, .obj (.viewDense .ten) .d true, .obj (.view1D .ten) .d true, .scal .d, .obj (.view1D .ten) .d false], .matvec, .d, [.par 0, .par 1, .par 2, .par 3, .par 4, .tt]⟩]

/-- src/blas/matrix/matvec/matvec_blas.cpp:3218-3601 -/
def tMatvec_8 : List Overload := [
  ⟨.matvec_T, [.obj .dense .s true, .obj .vector .s true, .obj .vector .s false], .matvec, .s, [.one, .par 0, .par 1, .zero, .par 2, .tt]⟩,
  ⟨.matvec_T, [.scal .s, .obj .dense .s true, .obj .vector .s true, .scal .s, .obj .vector .s false], .matvec, .s, [.par 0, .par 1, .par 2, .par 3, .par 4, .tt]⟩,
  ⟨.matvec_T, [.obj (.viewDense .vec) .s true, .obj .vector .s true, .obj .vector .s false], .matvec, .s, [.one, .par 0, .par 1, .zero, .par 2, .tt]⟩,
  ⟨.matvec_T, [.scal .s, .obj (.viewDense .vec) .s true, .obj .vector .s true, .scal .s, .obj .vector .s false], .matvec, .s, [.par 0, .par 1, .par 2, .par 3, .par 4, .tt]⟩,
  ⟨.matvec_T, [.obj (.viewDense .mat) .s true, .obj .vector .s true, .obj .vector .s false], .matvec, .s, [.one, .par 0, .par 1, .zero, .par 2, .tt]⟩,
  ⟨.matvec_T, [.scal .s, .obj (.viewDense .mat) .s true, .obj .vector .s true, .scal .s, .obj .vector .s false], .matvec, .s, [.par 0, .par 1, .par 2, .par 3, .par 4, .tt]⟩,
  ⟨.matvec_T, [.obj (.viewDense .ten) .s true, .obj .vector .s true, .obj .vector .s false], .matvec, .s, [.one, .par 0, .par 1, .zero, .par 2, .tt]⟩,
  ⟨.matvec_T, [.scal .s, .obj (.viewDense .ten) .s true, .obj .vector .s true, .scal .s, .obj .vector .s false], .matvec, .s, [.par 0, .par 1, .par 2, .par 3, .par 4, .tt]⟩,
  ⟨.matvec_T, [.obj .dense .s true, .obj .vector .s true, .obj (.view1D .vec) .s false], .matvec, .s, [.one, .par 0, .par 1, .zero, .par 2, .tt]⟩,
  ⟨.matvec_T, [.scal .s, .obj .dense .s true, .obj .vector .s true, .scal .s, .obj (.view1D .vec) .s false], .matvec, .s, [.par 0, .par 1, .par 2, .par 3, .par 4, .tt]⟩,
  ⟨.matvec_T, [.obj (.viewDense .vec) .s true, .obj .vector .s true, .obj (.view1D .vec) .s false], .matvec, .s, [.one, .par 0, .par 1, .zero, .par 2, .tt]⟩,
  ⟨.matvec_T, [.scal .s, .obj (.viewDense .vec) .s true, .obj .vector .s true, .scal .s, .obj (.view1D .vec) .s false], .matvec, .s, [.par 0, .par 1, .par 2, .par 3, .par 4, .tt]⟩,
  ⟨.matvec_T, [.obj (.viewDense .mat) .s true, .obj .vector .s true, .obj (.view1D .vec) .s false], .matvec, .s, [.one, .par 0, .par 1, .zero, .par 2, .tt]⟩,
  ⟨.matvec_T, [.scal .s, .obj (.viewDense .mat) .s true, .obj .vector .s true, .scal .s, .obj (.view1D .vec) .s false], .matvec, .s, [.par 0, .par 1, .par 2, .par 3, .par 4, .tt]⟩,
  ⟨.matvec_T, [.obj (.viewDense .ten) .s true, .obj .vector .s true, .obj (.view1D .vec) .s false], .matvec, .s, [.one, .par 0, .par 1, .zero, .par 2, .tt]⟩,
  ⟨.matvec_T, [.scal .s, .obj (.viewDense .ten) .s true, .obj .vector .s true, .scal .s, .obj (.view1D .vec) .s false], .matvec, .s, [.par 0, .par 1, .par 2, .par 3, .par 4, .tt]⟩,
  ⟨.matvec_T, [.obj .dense .s true, .obj .vector .s true, .obj (.view1D .mat) .s false], .matvec, .s, [.one, .par 0, .par 1, .zero, .par 2, .tt]⟩,
  ⟨.matvec_T, [.scal .s, .obj .dense .s true, .obj .vector .s true, .scal .s, .obj (.view1D .mat) .s false], .matvec, .s, [.par 0, .par 1, .par 2, .par 3, .par 4, .tt]⟩,
  ⟨.matvec_T, [.obj (.viewDense .vec) .s true, .obj .vector .s true, .obj (.view1D .mat) .s false], .matvec, .s, [.one, .par 0, .par 1, .zero, .par 2, .tt]⟩,
  ⟨.matvec_T, [.scal .s, .obj (.viewDense .vec) .s true, .obj .vector .s true, .scal .s, .obj (.view1D .mat) .s false], .matvec, .s, [.par 0, .par 1, .par 2, .par 3, .par 4, .tt]⟩,
  ⟨.matvec_T, [.obj (.viewDense .mat) .s true, .obj .vector .s true, .obj (.view1D .mat) .s false], .matvec, .s, [.one, .par 0, .par 1, .zero, .par 2, .tt]⟩,
  ⟨.matvec_T, [.scal .s, .obj (.viewDense .mat) .s true, .obj .vector .s true, .scal .s, .obj (.view1D .mat) .s false], .matvec, .s, [.par 0, .par 1, .par 2, .par 3, .par 4, .tt]⟩,
  ⟨.matvec_T, [.obj (.viewDense .ten) .s true, .obj .vector .s true, .obj (.view1D .mat) .s false], .matvec, .s, [.one, .par 0, .par 1, .zero, .par 2, .tt]⟩,
  ⟨.matvec_T, [.scal .s, .obj (.viewDense .ten) .s true, .obj .vector .s true, .scal .s, .obj (.view1D .mat) .s false], .matvec, .s, [.par 0, .par 1, .par 2, .par 3, .par 4, .tt]⟩,
  ⟨.matvec_T, [.obj .dense .s true, .obj .vector .s true, .obj (.view1D .ten) .s false], .matvec, .s, [.one, .par 0, .par 1, .zero, .par 2, .tt]⟩,
  ⟨.matvec_T, [.scal .s, .obj .dense .s true, .obj .vector .s true, .scal .s, .obj (.view1D .ten) .s false], .matvec, .s, [.par 0, .par 1, .par 2, .par 3, .par 4, .tt]⟩,
  ⟨.matvec_T, [.obj (.viewDense .vec) .s true, .obj .vector .s true, .obj (.view1D .ten) .s false], .matvec, .s, [.one, .par 0, .par 1, .zero, .par 2, .tt]⟩,
  ⟨.matvec_T, [.scal .s, .obj (.viewDense .vec) .s true, .obj .vector .s true, .scal .s, .obj (.view1D .ten) .s false], .matvec, .s, [.par 0, .par 1, .par 2, .par 3, .par 4, .tt]⟩,
  ⟨.matvec_T, [.obj (.viewDense .mat) .s true, .obj .vector .s true, .obj (.view1D .ten) .s false], .matvec, .s, [.one, .par 0, .par 1, .zero, .par 2, .tt]⟩,
  ⟨.matvec_T, [.scal .s, .obj (.viewDense .mat) .s true, .obj .vector .s true, .scal .s, .obj (.view1D .ten) .s false], .matvec, .s, [.par 0, .par 1, .par 2, .par 3, .par 4, .tt]⟩,
  ⟨.matvec_T, [.obj (.viewDense .ten) .s true, .obj .vector .s true, .obj (.view1D .ten) .s false], .matvec, .s, [.one, .par 0, .par 1, .zero, .par 2, .tt]⟩,
  ⟨.matvec_T, [.scal .s, .obj (.viewDense .ten) .s true, .obj .vector .s true, .scal .s, .obj (.view1D .ten) .s false], .matvec, .s, [.par 0, .par 1, .par 2, .par 3, .par 4, .tt]⟩,
  ⟨.matvec_T, [.obj .dense .s true, .obj (.view1D .vec) .s true, .obj .vector .s false], .matvec, .s, [.one, .par 0, .par 1, .zero, .par 2, .tt]⟩,
  ⟨.matvec_T, [.scal .s, .obj .dense .s true, .obj (.view1D .vec) .s true, .scal .s, .obj .vector .s false], .matvec, .s, [.par 0, .par 1, .par 2, .par 3, .par 4, .tt]⟩,
  ⟨.matvec_T, [.obj (.viewDense .vec) .s true, .obj (.view1D .vec) .s true, .obj .vector .s false], .matvec, .s, [.one, .par 0, .par 1, .zero, .par 2, .tt]⟩,
  ⟨.matvec_T, [.scal .s, .obj (.viewDense .vec) .s true, .obj (.view1D .vec) .s true, .scal .s, .obj .vector .s false], .matvec, .s, [.par 0, .par 1, .par 2, .par 3, .par 4, .tt]⟩,
  ⟨.matvec_T, [.obj (.viewDense .mat) .s true, .obj (.view1D .vec) .s true, .obj .vector .s false], .matvec, .s, [.one, .par 0, .par 1, .zero, .par 2, .tt]⟩,
  ⟨.matvec_T, [.scal .s, .obj (.viewDense .mat) .s true, .obj (.view1D .vec) .s true, .scal .s, .obj .vector .s false], .matvec, .s, [.par 0, .par 1, .par 2, .par 3, .par 4, .tt]⟩,
  ⟨.matvec_T, [.obj (.viewDense .ten) .s true, .obj (.view1D .vec) .s true, .obj .vector .s false], .matvec, .s, [.one, .par 0, .par 1, .zero, .par 2, .tt]⟩,
  ⟨.matvec_T, [.scal .s, .obj (.viewDense .ten) .s true, .obj (.view1D .vec) .s true, .scal .s, .obj .vector .s false], .matvec, .s, [.par 0, .par 1, .par 2, .par 3, .par 4, .tt]⟩,
  ⟨.matvec_T, [.obj .dense .s true, .obj (.view1D .vec) .s true, .obj (.view1D .vec) .s false], .matvec, .s, [.one, .par 0, .par 1, .zero, .par 2, .tt]⟩,
  ⟨.matvec_T, [.scal .s, .obj .dense .s true, .obj (.view1D .vec) .s true, .scal .s, .obj (.view1D .vec) .s false], .matvec, .s, [.par 0, .par 1, .par 2, .par 3, .par 4, .tt]⟩,
  ⟨.matvec_T, [.obj (.viewDense .vec) .s true, .obj (.view1D .vec) .s true, .obj (.view1D .vec) .s false], .matvec, .s, [.one, .par 0, .par 1, .zero, .par 2, .tt]⟩,
  ⟨.matvec_T, [.scal .s, .obj (.viewDense .vec) .s true, .obj (.view1D .vec) .s true, .scal .s, .obj (.view1D .vec) .s false], .matvec, .s, [.par 0, .par 1, .par 2, .par 3, .par 4, .tt]⟩,
  ⟨.matvec_T, [.obj (.viewDense .mat) .s true, .obj (.view1D .vec) .s true, .obj (.view1D .vec) .s false], .matvec, .s, [.one, .par 0, .par 1, .zero, .par 2, .tt]⟩,
  ⟨.matvec_T, [.scal .s, .obj (.viewDense .mat) .s true, .obj (.view1D .vec) .s true, .scal .s, .obj (.view1D .vec) .s false], .matvec, .s, [.par 0, .par 1, .par 2, .par 3, .par 4, .tt]⟩,
  ⟨.matvec_T, [.obj (.viewDense .ten) .s true, .obj (.view1D .vec) .s true, .obj (.view1D .vec) .s false], .matvec, .s, [.one, .par 0, .par 1, .zero, .par 2, .tt]⟩,
  ⟨.matvec_T, [.scal .s, .obj (.viewDense .ten) .s true, .obj (.view1D .vec) .s true, .scal .s, .obj (.view1D .vec) .s false], .matvec, .s, [.par 0, .par 1, .par 2, .par 3, .par 4, .tt]⟩,
  ⟨.matvec_T, [.obj .dense .s true, .obj (.view1D .vec) .s true, .obj (.view1D .mat) .s false], .matvec, .s, [.one, .par 0, .par 1, .zero, .par 2, .tt]⟩,
  ⟨.matvec_T, [.scal .s, .obj .dense .s true, .obj (.view1D .vec) .s true, .scal .s, .obj (.view1D .mat) .s false], .matvec, .s, [.par 0, .par 1, .par 2, .par 3, .par 4, .tt]⟩,
  ⟨.matvec_T, [.obj (.viewDense .vec) .s true, .obj (.view1D .vec) .s true, .obj (.view1D .mat) .s false], .matvec, .s, [.one, .par 0, .par 1, .zero, .par 2, .tt]⟩,
  ⟨.matvec_T, [.scal .s, .obj (.viewDense .vec) .s true, .obj (.view1D .vec) .s true, .scal .s, .obj (.view1D .mat) .s false], .matvec, .s, [.par 0, .par 1, .par 2, .par 3, .par 4, .tt]⟩,
  ⟨.matvec_T, [.obj (.viewDense .mat) .s true, .obj (.view1D .vec) .s true, .obj (.view1D .mat) .s false], .matvec, .s, [.one, .par 0, .par 1, .zero, .par 2, .tt]⟩,
  ⟨.matvec_T, [.scal .s, .obj (.viewDense .mat) .s true, .obj (.view1D .vec) .s true, .scal .s, .obj (.view1D .mat) .s false], .matvec, .s, [.par 0, .par 1, .par 2, .par 3, .par 4, .tt]⟩,
  ⟨.matvec_T, [.obj (.viewDense .ten) .s true, .obj (.view1D .vec) .s true, .obj (.view1D .mat) .s false], .matvec, .s, [.one, .par 0, .par 1, .zero, .par 2, .tt]⟩,
  ⟨.matvec_T, [.scal .s, .obj (.viewDense .ten) .s true, .obj (.view1D .vec) .s true, .scal .s, .obj (.view1D .mat) .s false], .matvec, .s, [.par 0, .par 1, .par 2, .par 3, .par 4, .tt]⟩,
  ⟨.matvec_T, [.obj .dense .s true, .obj (.view1D .vec) .s true, .obj (.view1D .ten) .s false], .matvec, .s, [.one, .par 0, .par 1, .zero, .par 2, .tt]⟩,
  ⟨.matvec_T, [.scal .s, .obj .dense .s true, .obj (.view1D .vec) .s true, .scal .s, .obj (.view1D .ten) .s false], .matvec, .s, [.par 0, .par 1, .par 2, .par 3, .par 4, .tt]⟩,
  ⟨.matvec_T, [.obj (.viewDense .vec) .s true, .obj (.view1D .vec) .s true, .obj (.view1D .ten) .s false], .matvec, .s, [.one, .par 0, .par 1, .zero, .par 2, .tt]⟩,
  ⟨.matvec_T, [.scal .s, .obj (.viewDense .vec) .s true, .obj (.view1D .vec) .s true, .scal .s, .obj (.view1D .ten) .s false], .matvec, .s, [.par 0, .par 1, .par 2, .par 3, .par 4, .tt]⟩,
  ⟨.matvec_T, [.obj (.viewDense .mat) .s true, .obj (.view1D .vec) .s true, .obj (.view1D .ten) .s false], .matvec, .s, [.one, .par 0, .par 1, .zero, .par 2, .tt]⟩,
  ⟨.matvec_T, [.scal .s, .obj (.viewDense .mat) .s true, .obj (.view1D .vec) .s true, .scal .s, .obj (.view1D .ten) .s false], .matvec, .s, [.par 0, .par 1, .par 2, .par 3, .par 4, .tt]⟩,
  ⟨.matvec_T, [.obj (.viewDense .ten) .s true, .obj (.view1D .vec) .s true, .obj (.view1D .ten) .s false], .matvec, .s, [.one, .par 0, .par 1, .zero, .par 2, .tt]⟩,
  ⟨.matvec_T, [.scal .s, .obj (.viewDense .ten) .s true, .obj (.view1D .vec) .s true, .scal .s, .obj (.view1D .ten) .s false], .matvec, .s, [.par 0, .par 1, .par 2, .par 3, .par 4, .tt]⟩,
  ⟨.matvec_T, [.obj .dense .s true, .obj (.view1D .mat) .s true, .obj .vector .s false], .matvec, .s, [.one, .par 0, .par 1, .zero, .par 2, .tt]⟩,
  ⟨.matvec_T, [.scal .s, .obj .dense .s true, .obj (.view1D .mat) .s true, .scal .s, .obj .vector .s false], .matvec, .s, [.par 0, .par 1, .par 2, .par 3, .par 4, .tt]⟩,
  ⟨.matvec_T, [.obj (.viewDense .vec) .s true, .obj (.view1D .mat) .s true, .obj .vector .s false], .matvec, .s, [.one, .par 0, .par 1, .zero, .par 2, .tt]⟩,
  ⟨.matvec_T, [.scal .s, .obj (.viewDense .vec) .s true, .obj (.view1D .mat) .s true, .scal .s, .obj .vector .s false], .matvec, .s, [.par 0, .par 1, .par 2, .par 3, .par 4, .tt]⟩,
  ⟨.matvec_T, [.obj (.viewDense .mat) .s true, .obj (.view1D .mat) .s true, .obj .vector .s false], .matvec, .s, [.one, .par 0, .par 1, .zero, .par 2, .tt]⟩,
  ⟨.matvec_T, [.scal .s, .obj (.viewDense .mat) .s true, .obj (.view1D .mat) .s true, .scal .s, .obj .vector .s false], .matvec, .s, [.par 0, .par 1, .par 2, .par 3, .par 4, .tt]⟩,
  ⟨.matvec_T, [.obj (.viewDense .ten) .s true, .obj (.view1D .mat) .s true, .obj .vector .s false], .matvec, .s, [.one, .par 0, .par 1, .zero, .par 2, .tt]⟩,
  ⟨.matvec_T, [.scal .s, .obj (.viewDense .ten) .s true, .obj (.view1D .mat) .s true, .scal .s, .obj .vector .s false], .matvec, .s, [.par 0, .par 1, .par 2, .par 3, .par 4, .tt]⟩,
  ⟨.matvec_T, [.obj .dense .s true, .obj (.view1D .mat) .s true, .obj (.view1D .vec) .s false], .matvec, .s, [.one, .par 0, .par 1, .zero, .par 2, .tt]⟩,
  ⟨.matvec_T, [.scal .s, .obj .dense .s true, .obj (.view1D .mat) .s true, .scal .s, .obj (.view1D .vec) .s false], .matvec, .s, [.par 0, .par 1, .par 2, .par 3, .par 4, .tt]⟩,
  ⟨.matvec_T, [.obj (.viewDense .vec) .s true, .obj (.view1D .mat) .s true, .obj (.view1D .vec) .s false], .matvec, .s, [.one, .par 0, .par 1, .zero, .par 2, .tt]⟩,
  ⟨.matvec_T, [.scal .s, .obj (.viewDense .vec) .s true, .obj (.view1D .mat) .s true, .scal .s, .obj (.view1D .vec) .s false], .matvec, .s, [.par 0, .par 1, .par 2, .par 3, .par 4, .tt]⟩,
  ⟨.matvec_T, [.obj (.viewDense .mat) .s true, .obj (.view1D .mat) .s true, .obj (.view1D .vec) .s false], .matvec, .s, [.one, .par 0, .par 1, .zero, .par 2, .tt]⟩,
  ⟨.matvec_T, [.scal .s, .obj (.viewDense .mat) .s true, .obj (.view1D .mat) .s true, .scal .s, .obj (.view1D .vec) .s false], .matvec, .s, [.par 0, .par 1, .par 2, .par 3, .par 4, .tt]⟩,
  ⟨.matvec_T, [.obj (.viewDense .ten) .s true, .obj (.view1D .mat) .s true, .obj (.view1D .vec) .s false], .matvec, .s, [.one, .par 0, .par 1, .zero, .par 2, .tt]⟩,
  ⟨.matvec_T, [.scal .s, .obj (.viewDense .ten) .s true, .obj (.view1D .mat) .s true, .scal .s, .obj (.view1D .vec) .s false], .matvec, .s, [.par 0, .par 1, .par 2, .par 3, .par 4, .tt]⟩]

/-- src/blas/matrix/matvec/matvec_blas.cpp:3602-4001 -/
def tMatvec_9 : List Overload := [
  ⟨.matvec_T, [.obj .dense .s true, .obj (.view1D .mat) .s true, .obj (.view1D .mat) .s false], .matvec, .s, [.one, .par 0, .par 1, .zero, .par 2, .tt]⟩,
  ⟨.matvec_T, [.scal .s, .obj .dense .s true, .obj (.view1D .mat) .s true, .scal .s, .obj (.view1D .mat) .s false], .matvec, .s, [.par 0, .par 1, .par 2, .par 3, .par 4, .tt]⟩,
  ⟨.matvec_T, [.obj (.viewDense .vec) .s true, .obj (.view1D .mat) .s true, .obj (.view1D .mat) .s false], .matvec, .s, [.one, .par 0, .par 1, .zero, .par 2, .tt]⟩,
  ⟨.matvec_T, [.scal .s, .obj (.viewDense .vec) .s true, .obj (.view1D .mat) .s true, .scal .s, .obj (.view1D .mat) .s false], .matvec, .s, [.par 0, .par 1, .par 2, .par 3, .par 4, .tt]⟩,
  ⟨.matvec_T, [.obj (.viewDense .mat) .s true, .obj (.view1D .mat) .s true, .obj (.view1D .mat) .s false], .matvec, .s, [.one, .par 0, .par 1, .zero, .par 2, .tt]⟩,
  ⟨.matvec_T, [.scal .s, .obj (.viewDense .mat) .s true, .obj (.view1D .mat) .s true, .scal .s, .obj (.view1D .mat) .s false], .matvec, .s, [.par 0, .par 1, .par 2, .par 3, .par 4, .tt]⟩,
  ⟨.matvec_T, [.obj (.viewDense .ten) .s true, .obj (.view1D .mat) .s true, .obj (.view1D .mat) .s false], .matvec, .s, [.one, .par 0, .par 1, .zero, .par 2, .tt]⟩,
  ⟨.matvec_T, [.scal .s, .obj (.viewDense .ten) .s true, .obj (.view1D .mat) .s true, .scal .s, .obj (.view1D .mat) .s false], .matvec, .s, [.par 0, .par 1, .par 2, .par 3, .par 4, .tt]⟩,
  ⟨.matvec_T, [.obj .dense .s true, .obj (.view1D .mat) .s true, .obj (.view1D .ten) .s false], .matvec, .s, [.one, .par 0, .par 1, .zero, .par 2, .tt]⟩,
  ⟨.matvec_T, [.scal .s, .obj .dense .s true, .obj (.view1D .mat) .s true, .scal .s, .obj (.view1D .ten) .s false], .matvec, .s, [.par 0, .par 1, .par 2, .par 3, .par 4, .tt]⟩,
  ⟨.matvec_T, [.obj (.viewDense .vec) .s true, .obj (.view1D .mat) .s true, .obj (.view1D .ten) .s false], .matvec, .s, [.one, .par 0, .par 1, .zero, .par 2, .tt]⟩,
  ⟨.matvec_T, [.scal .s, .obj (.viewDense .vec) .s true, .obj (.view1D .mat) .s true, .scal .s, .obj (.view1D .ten) .s false], .matvec, .s, [.par 0, .par 1, .par 2, .par 3, .par 4, .tt]⟩,
  ⟨.matvec_T, [.obj (.viewDense .mat) .s true, .obj (.view1D .mat) .s true, .obj (.view1D .ten) .s false], .matvec, .s, [.one, .par 0, .par 1, .zero, .par 2, .tt]⟩,
  ⟨.matvec_T, [.scal .s, .obj (.viewDense .mat) .s true, .obj (.view1D .mat) .s true, .scal .s, .obj (.view1D .ten) .s false], .matvec, .s, [.par 0, .par 1, .par 2, .par 3, .par 4, .tt]⟩,
  ⟨.matvec_T, [.obj (.viewDense .ten) .s true, .obj (.view1D .mat) .s true, .obj (.view1D .ten) .s false], .matvec, .s, [.one, .par 0, .par 1, .zero, .par 2, .tt]⟩,
  ⟨.matvec_T, [.scal .s, .obj (.viewDense .ten) .s true, .obj (.view1D .mat) .s true, .scal .s, .obj (.view1D .ten) .s false], .matvec, .s, [.par 0, .par 1, .par 2, .par 3, .par 4, .tt]⟩,
  ⟨.matvec_T, [.obj .dense .s true, .obj (.view1D .ten) .s true, .obj .vector .s false], .matvec, .s, [.one, .par 0, .par 1, .zero, .par 2, .tt]⟩,
  ⟨.matvec_T, [.scal .s, .obj .dense .s true, .obj (.view1D .ten) .s true, .scal .s, .obj .vector .s false], .matvec, .s, [.par 0, .par 1, .par 2, .par 3, .par 4, .tt]⟩,
  ⟨.matvec_T, [.obj (.viewDense .vec) .s true, .obj (.view1D .ten) .s true, .obj .vector .s false], .matvec, .s, [.one, .par 0, .par 1, .zero, .par 2, .tt]⟩,
  ⟨.matvec_T, [.scal .s, .obj (.viewDense .vec) .s true, .obj (.view1D .ten) .s true, .scal .s, .obj .vector .s false], .matvec, .s, [.par 0, .par 1, .par 2, .par 3, .par 4, .tt]⟩,
  ⟨.matvec_T, [.obj (.viewDense .mat) .s true, .obj (.view1D .ten) .s true, .obj .vector .s false], .matvec, .s, [.one, .par 0, .par 1, .zero, .par 2, .tt]⟩,
  ⟨.matvec_T, [.scal .s, .obj (.viewDense .mat) .s true, .obj (.view1D .ten) .s true, .scal .s, .obj .vector .s false], .matvec, .s, [.par 0, .par 1, .par 2, .par 3, .par 4, .tt]⟩,
  ⟨.matvec_T, [.obj (.viewDense .ten) .s true, .obj (.view1D .ten) .s true, .obj .vector .s false], .matvec, .s, [.one, .par 0, .par 1, .zero, .par 2, .tt]⟩,
  ⟨.matvec_T, [.scal .s, .obj (.viewDense .ten) .s true, .obj (.view1D .ten) .s true, .scal .s, .obj .vector .s false], .matvec, .s, [.par 0, .par 1, .par 2, .par 3, .par 4, .tt]⟩,
  ⟨.matvec_T, [.obj .dense .s true, .obj (.view1D .ten) .s true, .obj (.view1D .vec) .s false], .matvec, .s, [.one, .par 0, .par 1, .zero, .par 2, .tt]⟩,
  ⟨.matvec_T, [.scal .s, .obj .dense .s true, .obj (.view1D .ten) .s true, .scal .s, .obj (.view1D .vec) .s false], .matvec, .s, [.par 0, .par 1, .par 2, .par 3, .par 4, .tt]⟩,
  ⟨.matvec_T, [.obj (.viewDense .vec) .s true, .obj (.view1D .ten) .s true, .obj (.view1D .vec) .s false], .matvec, .s, [.one, .par 0, .par 1, .zero, .par 2, .tt]⟩,
  ⟨.matvec_T, [.scal .s, .obj (.viewDense .vec) .s true, .obj (.view1D .ten) .s true, .scal .s, .obj (.view1D .vec) .s false], .matvec, .s, [.par 0, .par 1, .par 2, .par 3, .par 4, .tt]⟩,
  ⟨.matvec_T, [.obj (.viewDense .mat) .s true, .obj (.view1D .ten) .s true, .obj (.view1D .vec) .s false], .matvec, .s, [.one, .par 0, .par 1, .zero, .par 2, .tt]⟩,
  ⟨.matvec_T, [.scal .s, .obj (.viewDense .mat) .s true, .obj (.view1D .ten) .s true, .scal .s, .obj (.view1D .vec) .s false], .matvec, .s, [.par 0, .par 1, .par 2, .par 3, .par 4, .tt]⟩,
  ⟨.matvec_T, [.obj (.viewDense .ten) .s true, .obj (.view1D .ten) .s true, .obj (.view1D .vec) .s false], .matvec, .s, [.one, .par 0, .par 1, .zero, .par 2, .tt]⟩,
  ⟨.matvec_T, [.scal .s, .obj (.viewDense .ten) .s true, .obj (.view1D .ten) .s true, .scal .s, .obj (.view1D .vec) .s false], .matvec, .s, [.par 0, .par 1, .par 2, .par 3, .par 4, .tt]⟩,
  ⟨.matvec_T, [.obj .dense .s true, .obj (.view1D .ten) .s true, .obj (.view1D .mat) .s false], .matvec, .s, [.one, .par 0, .par 1, .zero, .par 2, .tt]⟩,
  ⟨.matvec_T, [.scal .s, .obj .dense .s true, .obj (.view1D .ten) .s true, .scal .s, .obj (.view1D .mat) .s false], .matvec, .s, [.par 0, .par 1, .par 2, .par 3, .par 4, .tt]⟩,
  ⟨.matvec_T, [.obj (.viewDense .vec) .s true, .obj (.view1D .ten) .s true, .obj (.view1D .mat) .s false], .matvec, .s, [.one, .par 0, .par 1, .zero, .par 2, .tt]⟩,
  ⟨.matvec_T, [.scal .s, .obj (.viewDense .vec) .s true, .obj (.view1D .ten) .s true, .scal .s, .obj (.view1D .mat) .s false], .matvec, .s, [.par 0, .par 1, .par 2, .par 3, .par 4, .tt]⟩,
  ⟨.matvec_T, [.obj (.viewDense .mat) .s true, .obj (.view1D .ten) .s true, .obj (.view1D .mat) .s false], .matvec, .s, [.one, .par 0, .par 1, .zero, .par 2, .tt]⟩,
  ⟨.matvec_T, [.scal .s, .obj (.viewDense .mat) .s true, .obj (.view1D .ten) .s true, .scal .s, .obj (.view1D .mat) .s false], .matvec, .s, [.par 0, .par 1, .par 2, .par 3, .par 4, .tt]⟩,
  ⟨.matvec_T, [.obj (.viewDense .ten) .s true, .obj (.view1D .ten) .s true, .obj (.view1D .mat) .s false], .matvec, .s, [.one, .par 0, .par 1, .zero, .par 2, .tt]⟩,
  ⟨.matvec_T, [.scal .s, .obj (.viewDense .ten) .s true, .obj (.view1D .ten) .s true, .scal .s, .obj (.view1D .mat) .s false], .matvec, .s, [.par 0, .par 1, .par 2, .par 3, .par 4, .tt]⟩,
  ⟨.matvec_T, [.obj .dense .s true, .obj (.view1D .ten) .s true, .obj (.view1D .ten) .s false], .matvec, .s, [.one, .par 0, .par 1, .zero, .par 2, .tt]⟩,
  ⟨.matvec_T, [.scal .s, .obj .dense .s true, .obj (.view1D .ten) .s true, .scal .s, .obj (.view1D .ten) .s false], .matvec, .s, [.par 0, .par 1, .par 2, .par 3, .par 4, .tt]⟩,
  ⟨.matvec_T, [.obj (.viewDense .vec) .s true, .obj (.view1D .ten) .s true, .obj (.view1D .ten) .s false], .matvec, .s, [.one, .par 0, .par 1, .zero, .par 2, .tt]⟩,
  ⟨.matvec_T, [.scal .s, .obj (.viewDense .vec) .s true, .obj (.view1D .ten) .s true, .scal .s, .obj (.view1D .ten) .s false], .matvec, .s, [.par 0, .par 1, .par 2, .par 3, .par 4, .tt]⟩,
  ⟨.matvec_T, [.obj (.viewDense .mat) .s true, .obj (.view1D .ten) .s true, .obj (.view1D .ten) .s false], .matvec, .s, [.one, .par 0, .par 1, .zero, .par 2, .tt]⟩,
  ⟨.matvec_T, [.scal .s, .obj (.viewDense .mat) .s true, .obj (.view1D .ten) .s true, .scal .s, .obj (.view1D .ten) .s false], .matvec, .s, [.par 0, .par 1, .par 2, .par 3, .par 4, .tt]⟩,
  ⟨.matvec_T, [.obj (.viewDense .ten) .s true, .obj (.view1D .ten) .s true, .obj (.view1D .ten) .s false], .matvec, .s, [.one, .par 0, .par 1, .zero, .par 2, .tt]⟩,
  ⟨.matvec_T, [.scal .s, .obj (.viewDense .ten) .s true, .obj (.view1D .ten) .s true, .scal .s, .obj (.view1D .ten) .s false], .matvec, .s, [.par 0, .par 1, .par 2, .par 3, .par 4, .tt]⟩,
  ⟨.matvec, [.obj .crs .d true, .obj .vector .d true, .obj .vector .d false], .matvec, .d, [.one, .par 0, .par 1, .zero, .par 2, .ff]⟩,
  ⟨.matvec, [.scal .d, .obj .crs .d true, .obj .vector .d true, .scal .d, .obj .vector .d false], .matvec, .d, [.par 0, .par 1, .par 2, .par 3, .par 4, .ff]⟩,
  ⟨.matvec, [.obj .crs .d true, .obj .vector .d true, .obj (.view1D .vec) .d false], .matvec, .d, [.one, .par 0, .par 1, .zero, .par 2, .ff]⟩,
  ⟨.matvec, [.scal .d, .obj .crs .d true, .obj .vector .d true, .scal .d, .obj (.view1D .vec) .d false], .matvec, .d, [.par 0, .par 1, .par 2, .par 3, .par 4, .ff]⟩,
  ⟨.matvec, [.obj .crs .d true, .obj .vector .d true, .obj (.view1D .mat) .d false], .matvec, .d, [.one, .par 0, .par 1, .zero, .par 2, .ff]⟩,
  ⟨.matvec, [.scal .d, .obj .crs .d true, .obj .vector .d true, .scal .d, .obj (.view1D .mat) .d false], .matvec, .d, [.par 0, .par 1, .par 2, .par 3, .par 4, .ff]⟩,
  ⟨.matvec, [.obj .crs .d true, .obj .vector .d true, .obj (.view1D .ten) .d false], .matvec, .d, [.one, .par 0, .par 1, .zero, .par 2, .ff]⟩,
  ⟨.matvec, [.scal .d, .obj .crs .d true, .obj .vector .d true, .scal .d, .obj (.view1D .ten) .d false], .matvec, .d, [.par 0, .par 1, .par 2, .par 3, .par 4, .ff]⟩,
  ⟨.matvec, [.obj .crs .d true, .obj (.view1D .vec) .d true, .obj .vector .d false], .matvec, .d, [.one, .par 0, .par 1, .zero, .par 2, .ff]⟩,
  ⟨.matvec, [.scal .d, .obj .crs .d true, .obj (.view1D .vec) .d true, .scal .d, .obj .vector .d false], .matvec, .d, [.par 0, .par 1, .par 2, .par 3, .par 4, .ff]⟩,
  ⟨.matvec, [.obj .crs .d true, .obj (.view1D .vec) .d true, .obj (.view1D .vec) .d false], .matvec, .d, [.one, .par 0, .par 1, .zero, .par 2, .ff]⟩,
  ⟨.matvec, [.scal .d, .obj .crs .d true, .obj (.view1D .vec) .d true, .scal .d, .obj (.view1D .vec) .d false], .matvec, .d, [.par 0, .par 1, .par 2, .par 3, .par 4, .ff]⟩,
  ⟨.matvec, [.obj .crs .d true, .obj (.view1D .vec) .d true, .obj (.view1D .mat) .d false], .matvec, .d, [.one, .par 0, .par 1, .zero, .par 2, .ff]⟩,
  ⟨.matvec, [.scal .d, .obj .crs .d true, .obj (.view1D .vec) .d true, .scal .d, .obj (.view1D .mat) .d false], .matvec, .d, [.par 0, .par 1, .par 2, .par 3, .par 4, .ff]⟩,
  ⟨.matvec, [.obj .crs .d true, .obj (.view1D .vec) .d true, .obj (.view1D .ten) .d false], .matvec, .d, [.one, .par 0, .par 1, .zero, .par 2, .ff]⟩,
  ⟨.matvec, [.scal .d, .obj .crs .d true, .obj (.view1D .vec) .d true, .scal .d, .obj (.view1D .ten) .d false], .matvec, .d, [.par 0, .par 1, .par 2, .par 3, .par 4, .ff]⟩,
  ⟨.matvec, [.obj .crs .d true, .obj (.view1D .mat) .d true, .obj .vector .d false], .matvec, .d, [.one, .par 0, .par 1, .zero, .par 2, .ff]⟩,
  ⟨.matvec, [.scal .d, .obj .crs .d true, .obj (.view1D .mat) .d true, .scal .d, .obj .vector .d false], .matvec, .d, [.par 0, .par 1, .par 2, .par 3, .par 4, .ff]⟩,
  ⟨.matvec, [.obj .crs .d true, .obj (.view1D .mat) .d true, .obj (.view1D .vec) .d false], .matvec, .d, [.one, .par 0, .par 1, .zero, .par 2, .ff]⟩,
  ⟨.matvec, [.scal .d, .obj .crs .d true, .obj (.view1D .mat) .d true, .scal .d, .obj (.view1D .vec) .d false], .matvec, .d, [.par 0, .par 1, .par 2, .par 3, .par 4, .ff]⟩,
  ⟨.matvec, [.obj .crs .d true, .obj (.view1D .mat) .d true, .obj (.view1D .mat) .d false], .matvec, .d, [.one, .par 0, .par 1, .zero, .par 2, .ff]⟩,
  ⟨.matvec, [.scal .d, .obj .crs .d true, .obj (.view1D .mat) .d true, .scal .d, .obj (.view1D .mat) .d false], .matvec, .d, [.par 0, .par 1, .par 2, .par 3, .par 4, .ff]⟩,
  ⟨.matvec, [.obj .crs .d true, .obj (.view1D .mat) .d true, .obj (.view1D .ten) .d false], .matvec, .d, [.one, .par 0, .par 1, .zero, .par 2, .ff]⟩,
  ⟨.matvec, [.scal .d, .obj .crs .d true, .obj (.view1D .mat) .d true, .scal .d, .obj (.view1D .ten) .d false], .matvec, .d, [.par 0, .par 1, .par 2, .par 3, .par 4, .ff]⟩,
  ⟨.matvec, [.obj .crs .d true, .obj (.view1D .ten) .d true, .obj .vector .d false], .matvec, .d, [.one, .par 0, .par 1, .zero, .par 2, .ff]⟩,
  ⟨.matvec, [.scal .d, .obj .crs .d true, .obj (.view1D .ten) .d true, .scal .d, .obj .vector .d false], .matvec, .d, [.par 0, .par 1, .par 2, .par 3, .par 4, .ff]⟩,
  ⟨.matvec, [.obj .crs .d true, .obj (.view1D .ten) .d true, .obj (.view1D .vec) .d false], .matvec, .d, [.one, .par 0, .par 1, .zero, .par 2, .ff]⟩,
  ⟨.matvec, [.scal .d, .obj .crs .d true, .obj (.view1D .ten) .d true, .scal .d, .obj (.view1D .vec) .d false], .matvec, .d, [.par 0, .par 1, .par 2, .par 3, .par 4, .ff]⟩,
  ⟨.matvec, [.obj .crs .d true, .obj (.view1D .ten) .d true, .obj (.view1D .mat) .d false], .matvec, .d, [.one, .par 0, .par 1, .zero, .par 2, .ff]⟩,
  ⟨.matvec, [.scal .d, .obj .crs .d true, .obj (.view1D .ten) .d true, .scal .d, .obj (.view1D .mat) .d false], .matvec, .d, [.par 0, .par 1, .par 2, .par 3, .par 4, .ff]⟩,
  ⟨.matvec, [.obj .crs .d true, .obj (.view1D .ten) .d true, .obj (.view1D .ten) .d false], .matvec, .d, [.one, .par 0, .par 1, .zero, .par 2, .ff]⟩,
  ⟨.matvec, [.scal .d, .obj .crs .d true, .obj (.view1D .ten) .d true, .scal .d, .obj (.view1D .ten) .d false], .matvec, .d, [.par 0, .par 1, .par 2, .par 3, .par 4, .ff]⟩]

/-- src/blas/matrix/matvec/matvec_blas.cpp:4002-4378 -/
def tMatvec_10 : List Overload := [
  ⟨.matvec, [.obj .crs .s true, .obj .vector .s true, .obj .vector .s false], .matvec, .s, [.one, .par 0, .par 1, .zero, .par 2, .ff]⟩,
  ⟨.matvec, [.scal .s, .obj .crs .s true, .obj .vector .s true, .scal .s, .obj .vector .s false], .matvec, .s, [.par 0, .par 1, .par 2, .par 3, .par 4, .ff]⟩,
  ⟨.matvec, [.obj .crs .s true, .obj .vector .s true, .obj (.view1D .vec) .s false], .matvec, .s, [.one, .par 0, .par 1, .zero, .par 2, .ff]⟩,
  ⟨.matvec, [.scal .s, .obj .crs .s true, .obj .vector .s true, .scal .s, .obj (.view1D .vec) .s false], .matvec, .s, [.par 0, .par 1, .par 2, .par 3, .par 4, .ff]⟩,
  ⟨.matvec, [.obj .crs .s true, .obj .vector .s true, .obj (.view1D .mat) .s false], .matvec, .s, [.one, .par 0, .par 1, .zero, .par 2, .ff]⟩,
  ⟨.matvec, [.scal .s, .obj .crs .s true, .obj .vector .s true, .scal .s, .obj (.view1D .mat) .s false], .matvec, .s, [.par 0, .par 1, .par 2, .par 3, .par 4, .ff]⟩,
  ⟨.matvec, [.obj .crs .s true, .obj .vector .s true, .obj (.view1D .ten) .s false], .matvec, .s, [.one, .par 0, .par 1, .zero, .par 2, .ff]⟩,
  ⟨.matvec, [.scal .s, .obj .crs .s true, .obj .vector .s true, .scal .s, .obj (.view1D .ten) .s false], .matvec, .s, [.par 0, .par 1, .par 2, .par 3, .par 4, .ff]⟩,
  ⟨.matvec, [.obj .crs .s true, .obj (.view1D .vec) .s true, .obj .vector .s false], .matvec, .s, [.one, .par 0, .par 1, .zero, .par 2, .ff]⟩,
  ⟨.matvec, [.scal .s, .obj .crs .s true, .obj (.view1D .vec) .s true, .scal .s, .obj .vector .s false], .matvec, .s, [.par 0, .par 1, .par 2, .par 3, .par 4, .ff]⟩,
  ⟨.matvec, [.obj .crs .s true, .obj (.view1D .vec) .s true, .obj (.view1D .vec) .s false], .matvec, .s, [.one, .par 0, .par 1, .zero, .par 2, .ff]⟩,
  ⟨.matvec, [.scal .s, .obj .crs .s true, .obj (.view1D .vec) .s true, .scal .s, .obj (.view1D .vec) .s false], .matvec, .s, [.par 0, .par 1, .par 2, .par 3, .par 4, .ff]⟩,
  ⟨.matvec, [.obj .crs .s true, .obj (.view1D .vec) .s true, .obj (.view1D .mat) .s false], .matvec, .s, [.one, .par 0, .par 1, .zero, .par 2, .ff]⟩,
  ⟨.matvec, [.scal .s, .obj .crs .s true, .obj (.view1D .vec) .s true, .scal .s, .obj (.view1D .mat) .s false], .matvec, .s, [.par 0, .par 1, .par 2, .par 3, .par 4, .ff]⟩,
  ⟨.matvec, [.obj .crs .s true, .obj (.view1D .vec) .s true, .obj (.view1D .ten) .s false], .matvec, .s, [.one, .par 0, .par 1, .zero, .par 2, .ff]⟩,
  ⟨.matvec, [.scal .s, .obj .crs .s true, .obj (.view1D .vec) .s true, .scal .s, .obj (.view1D .ten) .s false], .matvec, .s, [.par 0, .par 1, .par 2, .par 3, .par 4, .ff]⟩,
  ⟨.matvec, [.obj .crs .s true, .obj (.view1D .mat) .s true, .obj .vector .s false], .matvec, .s, [.one, .par 0, .par 1, .zero, .par 2, .ff]⟩,
  ⟨.matvec, [.scal .s, .obj .crs .s true, .obj (.view1D .mat) .s true, .scal .s, .obj .vector .s false], .matvec, .s, [.par 0, .par 1, .par 2, .par 3, .par 4, .ff]⟩,
  ⟨.matvec, [.obj .crs .s true, .obj (.view1D .mat) .s true, .obj (.view1D .vec) .s false], .matvec, .s, [.one, .par 0, .par 1, .zero, .par 2, .ff]⟩,
  ⟨.matvec, [.scal .s, .obj .crs .s true, .obj (.view1D .mat) .s true, .scal .s, .obj (.view1D .vec) .s false], .matvec, .s, [.par 0, .par 1, .par 2, .par 3, .par 4, .ff]⟩,
  ⟨.matvec, [.obj .crs .s true, .obj (.view1D .mat) .s true, .obj (.view1D .mat) .s false], .matvec, .s, [.one, .par 0, .par 1, .zero, .par 2, .ff]⟩,
  ⟨.matvec, [.scal .s, .obj .crs .s true, .obj (.view1D .mat) .s true, .scal .s, .obj (.view1D .mat) .s false], .matvec, .s, [.par 0, .par 1, .par 2, .par 3, .par 4, .ff]⟩,
  ⟨.matvec, [.obj .crs .s true, .obj (.view1D .mat) .s true, .obj (.view1D .ten) .s false], .matvec, .s, [.one, .par 0, .par 1, .zero, .par 2, .ff]⟩,
  ⟨.matvec, [.scal .s, .obj .crs .s true, .obj (.view1D .mat) .s true, .scal .s, .obj (.view1D .ten) .s false], .matvec, .s, [.par 0, .par 1, .par 2, .par 3, .par 4, .ff]⟩,
  ⟨.matvec, [.obj .crs .s true, .obj (.view1D .ten) .s true, .obj .vector .s false], .matvec, .s, [.one, .par 0, .par 1, .zero, .par 2, .ff]⟩,
  ⟨.matvec, [.scal .s, .obj .crs .s true, .obj (.view1D .ten) .s true, .scal .s, .obj .vector .s false], .matvec, .s, [.par 0, .par 1, .par 2, .par 3, .par 4, .ff]⟩,
  ⟨.matvec, [.obj .crs .s true, .obj (.view1D .ten) .s true, .obj (.view1D .vec) .s false], .matvec, .s, [.one, .par 0, .par 1, .zero, .par 2, .ff]⟩,
  ⟨.matvec, [.scal .s, .obj .crs .s true, .obj (.view1D .ten) .s true, .scal .s, .obj (.view1D .vec) .s false], .matvec, .s, [.par 0, .par 1, .par 2, .par 3, .par 4, .ff]⟩,
  ⟨.matvec, [.obj .crs .s true, .obj (.view1D .ten) .s true, .obj (.view1D .mat) .s false], .matvec, .s, [.one, .par 0, .par 1, .zero, .par 2, .ff]⟩,
  ⟨.matvec, [.scal .s, .obj .crs .s true, .obj (.view1D .ten) .s true, .scal .s, .obj (.view1D .mat) .s false], .matvec, .s, [.par 0, .par 1, .par 2, .par 3, .par 4, .ff]⟩,
  ⟨.matvec, [.obj .crs .s true, .obj (.view1D .ten) .s true, .obj (.view1D .ten) .s false], .matvec, .s, [.one, .par 0, .par 1, .zero, .par 2, .ff]⟩,
  ⟨.matvec, [.scal .s, .obj .crs .s true, .obj (.view1D .ten) .s true, .scal .s, .obj (.view1D .ten) .s false], .matvec, .s, [.par 0, .par 1, .par 2, .par 3, .par 4, .ff]⟩,
  ⟨.matvec_N, [.obj .crs .d true, .obj .vector .d true, .obj .vector .d false], .matvec, .d, [.one, .par 0, .par 1, .zero, .par 2, .ff]⟩,
  ⟨.matvec_N, [.scal .d, .obj .crs .d true, .obj .vector .d true, .scal .d, .obj .vector .d false], .matvec, .d, [.par 0, .par 1, .par 2, .par 3, .par 4, .ff]⟩,
  ⟨.matvec_N, [.obj .crs .d true, .obj .vector .d true, .obj (.view1D .vec) .d false], .matvec, .d, [.one, .par 0, .par 1, .zero, .par 2, .ff]⟩,
  ⟨.matvec_N, [.scal .d, .obj .crs .d true, .obj .vector .d true, .scal .d, .obj (.view1D .vec) .d false], .matvec, .d, [.par 0, .par 1, .par 2, .par 3, .par 4, .ff]⟩,
  ⟨.matvec_N, [.obj .crs .d true, .obj .vector .d true, .obj (.view1D .mat) .d false], .matvec, .d, [.one, .par 0, .par 1, .zero, .par 2, .ff]⟩,
  ⟨.matvec_N, [.scal .d, .obj .crs .d true, .obj .vector .d true, .scal .d, .obj (.view1D .mat) .d false], .matvec, .d, [.par 0, .par 1, .par 2, .par 3, .par 4, .ff]⟩,
  ⟨.matvec_N, [.obj .crs .d true, .obj .vector .d true, .obj (.view1D .ten) .d false], .matvec, .d, [.one, .par 0, .par 1, .zero, .par 2, .ff]⟩,
  ⟨.matvec_N, [.scal .d, .obj .crs .d true, .obj .vector .d true, .scal .d, .obj (.view1D .ten) .d false], .matvec, .d, [.par 0, .par 1, .par 2, .par 3, .par 4, .ff]⟩,
  ⟨.matvec_N, [.obj .crs .d true, .obj (.view1D .vec) .d true, .obj .vector .d false], .matvec, .d, [.one, .par 0, .par 1, .zero, .par 2, .ff]⟩,
  ⟨.matvec_N, [.scal .d, .obj .crs .d true, .obj (.view1D .vec) .d true, .scal .d, .obj .vector .d false], .matvec, .d, [.par 0, .par 1, .par 2, .par 3, .par 4, .ff]⟩,
  ⟨.matvec_N, [.obj .crs .d true, .obj (.view1D .vec) .d true, .obj (.view1D .vec) .d false], .matvec, .d, [.one, .par 0, .par 1, .zero, .par 2, .ff]⟩,
  ⟨.matvec_N, [.scal .d, .obj .crs .d true, .obj (.view1D .vec) .d true, .scal .d, .obj (.view1D .vec) .d false], .matvec, .d, [.par 0, .par 1, .par 2, .par 3, .par 4, .ff]⟩,
  ⟨.matvec_N, [.obj .crs .d true, .obj (.view1D .vec) .d true, .obj (.view1D .mat) .d false], .matvec, .d, [.one, .par 0, .par 1, .zero, .par 2, .ff]⟩,
  ⟨.matvec_N, [.scal .d, .obj .crs .d true, .obj (.view1D .vec) .d true, .scal .d, .obj (.view1D .mat) .d false], .matvec, .d, [.par 0, .par 1, .par 2, .par 3, .par 4, .ff]⟩,
  ⟨.matvec_N, [.obj .crs .d true, .obj (.view1D .vec) .d true, .obj (.view1D .ten) .d false], .matvec, .d, [.one, .par 0, .par 1, .zero, .par 2, .ff]⟩,
  ⟨.matvec_N, [.scal .d, .obj .crs .d true, .obj (.view1D .vec) .d true, .scal .d, .obj (.view1D .ten) .d false], .matvec, .d, [.par 0, .par 1, .par 2, .par 3, .par 4, .ff]⟩,
  ⟨.matvec_N, [.obj .crs .d true, .obj (.view1D .mat) .d true, .obj .vector .d false], .matvec, .d, [.one, .par 0, .par 1, .zero, .par 2, .ff]⟩,
  ⟨.matvec_N, [.scal .d, .obj .crs .d true, .obj (.view1D .mat) .d true, .scal .d, .obj .vector .d false], .matvec, .d, [.par 0, .par 1, .par 2, .par 3, .par 4, .ff]⟩,
  ⟨.matvec_N, [.obj .crs .d true, .obj (.view1D .mat) .d true, .obj (.view1D .vec) .d false], .matvec, .d, [.one, .par 0, .par 1, .zero, .par 2, .ff]⟩,
  ⟨.matvec_N, [.scal .d, .obj .crs .d true, .obj (.view1D .mat) .d true, .scal .d, .obj (.view1D .vec) .d false], .matvec, .d, [.par 0, .par 1, .par 2, .par 3, .par 4, .ff]⟩,
  ⟨.matvec_N, [.obj .crs .d true, .obj (.view1D .mat) .d true, .obj (.view1D .mat) .d false], .matvec, .d, [.one, .par 0, .par 1, .zero, .par 2, .ff]⟩,
  ⟨.matvec_N, [.scal .d, .obj .crs .d true, .obj (.view1D .mat) .d true, .scal .d, .obj (.view1D .mat) .d false], .matvec, .d, [.par 0, .par 1, .par 2, .par 3, .par 4, .ff]⟩,
  ⟨.matvec_N, [.obj .crs .d true, .obj (.view1D .mat) .d true, .obj (.view1D .ten) .d false], .matvec, .d, [.one, .par 0, .par 1, .zero, .par 2, .ff]⟩,
  ⟨.matvec_N, [.scal .d, .obj .crs .d true, .obj (.view1D .mat) .d true, .scal .d, .obj (.view1D .ten) .d false], .matvec, .d, [.par 0, .par 1, .par 2, .par 3, .par 4, .ff]⟩,
  ⟨.matvec_N, [.obj .crs .d true, .obj (.view1D .ten) .d true, .obj .vector .d false], .matvec, .d, [.one, .par 0, .par 1, .zero, .par 2, .ff]⟩,
  ⟨.matvec_N, [.scal .d, .obj .crs .d true, .obj (.view1D .ten) .d true, .scal .d, .obj .vector .d false], .matvec, .d, [.par 0, .par 1, .par 2, .par 3, .par 4, .ff]⟩,
  ⟨.matvec_N, [.obj .crs .d true, .obj (.view1D .ten) .d true, .obj (.view1D .vec) .d false], .matvec, .d, [.one, .par 0, .par 1, .zero, .par 2, .ff]⟩,
  ⟨.matvec_N, [.scal .d, .obj .crs .d true, .obj (.view1D .ten) .d true, .scal .d, .obj (.view1D .vec) .d false], .matvec, .d, [.par 0, .par 1, .par 2, .par 3, .par 4, .ff]⟩,
  ⟨.matvec_N, [.obj .crs .d true, .obj (.view1D .ten) .d true, .obj (.view1D .mat) .d false], .matvec, .d, [.one, .par 0, .par 1, .zero, .par 2, .ff]⟩,
  ⟨.matvec_N, [.scal .d, .obj .crs .d true, .obj (.view1D .ten) .d true, .scal .d, .obj (.view1D .mat) .d false], .matvec, .d, [.par 0, .par 1, .par 2, .par 3, .par 4, .ff]⟩,
  ⟨.matvec_N, [.obj .crs .d true, .obj (.view1D .ten) .d true, .obj (.view1D .ten) .d false], .matvec, .d, [.one, .par 0, .par 1, .zero, .par 2, .ff]⟩,
  ⟨.matvec_N, [.scal .d, .obj .crs .d true, .obj (.view1D .ten) .d true, .scal .d, .obj (.view1D .ten) .d false], .matvec, .d, [.par 0, .par 1, .par 2, .par 3, .par 4, .ff]⟩,
  ⟨.matvec_N, [.obj .crs .s true, .obj .vector .s true, .obj .vector .s false], .matvec, .s, [.one, .par 0, .par 1, .zero, .par 2, .ff]⟩,
  ⟨.matvec_N, [.scal .s, .obj .crs .s true, .obj .vector .s true, .scal .s, .obj .vector .s false], .matvec, .s, [.par 0, .par 1, .par 2, .par 3, .par 4, .ff]⟩,
  ⟨.matvec_N, [.obj .crs .s true, .obj .vector .s true, .obj (.view1D .vec) .s false], .matvec, .s, [.one, .par 0, .par 1, .zero, .par 2, .ff]⟩,
  ⟨.matvec_N, [.scal .s, .obj .crs .s true, .obj .vector .s true, .scal .s, .obj (.view1D .vec) .s false], .matvec, .s, [.par 0, .par 1, .par 2, .par 3, .par 4, .ff]⟩,
  ⟨.matvec_N, [.obj .crs .s true, .obj .vector .s true, .obj (.view1D .mat) .s false], .matvec, .s, [.one, .par 0, .par 1, .zero, .par 2, .ff]⟩,
  ⟨.matvec_N, [.scal .s, .obj .crs .s true, .obj .vector .s true, .scal .s, .obj (.view1D .mat) .s false], .matvec, .s, [.par 0, .par 1, .par 2, .par 3, .par 4, .ff]⟩,
  ⟨.matvec_N, [.obj .crs .s true, .obj .vector .s true, .obj (.view1D .ten) .s false], .matvec, .s, [.one, .par 0, .par 1, .zero, .par 2, .ff]⟩,
  ⟨.matvec_N, [.scal .s, .obj .crs .s true, .obj .vector .s true, .scal .s, .obj (.view1D .ten) .s false], .matvec, .s, [.par 0, .par 1, .par 2, .par 3, .par 4, .ff]⟩,
  ⟨.matvec_N, [.obj .crs .s true, .obj (.view1D .vec) .s true, .obj .vector .s false], .matvec, .s, [.one, .par 0, .par 1, .zero, .par 2, .ff]⟩,
  ⟨.matvec_N, [.scal .s, .obj .crs .s true, .obj (.view1D .vec) .s true, .scal .s, .obj .vector .s false], .matvec, .s, [.par 0, .par 1, .par 2, .par 3, .par 4, .ff]⟩,
  ⟨.matvec_N, [.obj .crs .s true, .obj (.view1D .vec) .s true, .obj (.view1D .vec) .s false], .matvec, .s, [.one, .par 0, .par 1, .zero, .par 2, .ff]⟩,
  ⟨.matvec_N, [.scal .s, .obj .crs .s true, .obj (.view1D .vec) .s true, .scal .s, .obj (.view1D .vec) .s false], .matvec, .s, [.par 0, .par 1, .par 2, .par 3, .par 4, .ff]⟩,
  ⟨.matvec_N, [.obj .crs .s true, .obj (.view1D .vec) .s true, .obj (.view1D .mat) .s false], .matvec, .s, [.one, .par 0, .par 1, .zero, .par 2, .ff]⟩,
  ⟨.matvec_N, [.scal .s, .obj .crs .s true, .obj (.view1D .vec) .s true, .scal .s, .obj (.view1D .mat) .s false], .matvec, .s, [.par 0, .par 1, .par 2, .par 3, .par 4, .ff]⟩,
  ⟨.matvec_N, [.obj .crs .s true, .obj (.view1D .vec) .s true, .obj (.view1D .ten) .s false], .matvec, .s, [.one, .par 0, .par 1, .zero, .par 2, .ff]⟩,
  ⟨.matvec_N, [.scal .s, .obj .crs .s true, .obj (.view1D .vec) .s true, .scal .s, .obj (.view1D .ten) .s false], .matvec, .s, [.par 0, .par 1, .par 2, .par 3, .par 4, .ff]⟩]

/-- src/blas/matrix/matvec/matvec_blas.cpp:4379-4765 -/
def tMatvec_11 : List Overload := [
  ⟨.matvec_N, [.obj .crs .s true, .obj (.view1D .mat) .s true, .obj .vector .s false], .matvec, .s, [.one, .par 0, .par 1, .zero, .par 2, .ff]⟩,
  ⟨.matvec_N, [.scal .s, .obj .crs .s true, .obj (.view1D .mat) .s true, .scal .s, .obj .vector .s false], .matvec, .s, [.par 0, .par 1, .par 2, .par 3, .par 4, .ff]⟩,
  ⟨.matvec_N, [.obj .crs .s true, .obj (.view1D .mat) .s true, .obj (.view1D .vec) .s false], .matvec, .s, [.one, .par 0, .par 1, .zero, .par 2, .ff]⟩,
  ⟨.matvec_N, [.scal .s, .obj .crs .s true, .obj (.view1D .mat) .s true, .scal .s, .obj (.view1D .vec) .s false], .matvec, .s, [.par 0, .par 1, .par 2, .par 3, .par 4, .ff]⟩,
  ⟨.matvec_N, [.obj .crs .s true, .obj (.view1D .mat) .s true, .obj (.view1D .mat) .s false], .matvec, .s, [.one, .par 0, .par 1, .zero, .par 2, .ff]⟩,
  ⟨.matvec_N, [.scal .s, .obj .crs .s true, .obj (.view1D .mat) .s true, .scal .s, .obj (.view1D .mat) .s false], .matvec, .s, [.par 0, .par 1, .par 2, .par 3, .par 4, .ff]⟩,
  ⟨.matvec_N, [.obj .crs .s true, .obj (.view1D .mat) .s true, .obj (.view1D .ten) .s false], .matvec, .s, [.one, .par 0, .par 1, .zero, .par 2, .ff]⟩,
  ⟨.matvec_N, [.scal .s, .obj .crs .s true, .obj (.view1D .mat) .s true, .scal .s, .obj (.view1D .ten) .s false], .matvec, .s, [.par 0, .par 1, .par 2, .par 3, .par 4, .ff]⟩,
  ⟨.matvec_N, [.obj .crs .s true, .obj (.view1D .ten) .s true, .obj .vector .s false], .matvec, .s, [.one, .par 0, .par 1, .zero, .par 2, .ff]⟩,
  ⟨.matvec_N, [.scal .s, .obj .crs .s true, .obj (.view1D .ten) .s true, .scal .s, .obj .vector .s false], .matvec, .s, [.par 0, .par 1, .par 2, .par 3, .par 4, .ff]⟩,
  ⟨.matvec_N, [.obj .crs .s true, .obj (.view1D .ten) .s true, .obj (.view1D .vec) .s false], .matvec, .s, [.one, .par 0, .par 1, .zero, .par 2, .ff]⟩,
  ⟨.matvec_N, [.scal .s, .obj .crs .s true, .obj (.view1D .ten) .s true, .scal .s, .obj (.view1D .vec) .s false], .matvec, .s, [.par 0, .par 1, .par 2, .par 3, .par 4, .ff]⟩,
  ⟨.matvec_N, [.obj .crs .s true, .obj (.view1D .ten) .s true, .obj (.view1D .mat) .s false], .matvec, .s, [.one, .par 0, .par 1, .zero, .par 2, .ff]⟩,
  ⟨.matvec_N, [.scal .s, .obj .crs .s true, .obj (.view1D .ten) .s true, .scal .s, .obj (.view1D .mat) .s false], .matvec, .s, [.par 0, .par 1, .par 2, .par 3, .par 4, .ff]⟩,
  ⟨.matvec_N, [.obj .crs .s true, .obj (.view1D .ten) .s true, .obj (.view1D .ten) .s false], .matvec, .s, [.one, .par 0, .par 1, .zero, .par 2, .ff]⟩,
  ⟨.matvec_N, [.scal .s, .obj .crs .s true, .obj (.view1D .ten) .s true, .scal .s, .obj (.view1D .ten) .s false], .matvec, .s, [.par 0, .par 1, .par 2, .par 3, .par 4, .ff]⟩,
  ⟨.matvec_T, [.obj .crs .d true, .obj .vector .d true, .obj .vector .d false], .matvec, .d, [.one, .par 0, .par 1, .zero, .par 2, .tt]⟩,
  ⟨.matvec_T, [.scal .d, .obj .crs .d true, .obj .vector .d true, .scal .d, .obj .vector .d false], .matvec, .d, [.par 0, .par 1, .par 2, .par 3, .par 4, .tt]⟩,
  ⟨.matvec_T, [.obj .crs .d true, .obj .vector .d true, .obj (.view1D .vec) .d false], .matvec, .d, [.one, .par 0, .par 1, .zero, .par 2, .tt]⟩,
  ⟨.matvec_T, [.scal .d, .obj .crs .d true, .obj .vector .d true, .scal .d, .obj (.view1D .vec) .d false], .matvec, .d, [.par 0, .par 1, .par 2, .par 3, .par 4, .tt]⟩,
  ⟨.matvec_T, [.obj .crs .d true, .obj .vector .d true, .obj (.view1D .mat) .d false], .matvec, .d, [.one, .par 0, .par 1, .zero, .par 2, .tt]⟩,
  ⟨.matvec_T, [.scal .d, .obj .crs .d true, .obj .vector .d true, .scal .d, .obj (.view1D .mat) .d false], .matvec, .d, [.par 0, .par 1, .par 2, .par 3, .par 4, .tt]⟩,
  ⟨.matvec_T, [.obj .crs .d true, .obj .vector .d true, .obj (.view1D .ten) .d false], .matvec, .d, [.one, .par 0, .par 1, .zero, .par 2, .tt]⟩,
  ⟨.matvec_T, [.scal .d, .obj .crs .d true, .obj .vector .d true, .scal .d, .obj (.view1D .ten) .d false], .matvec, .d, [.par 0, .par 1, .par 2, .par 3, .par 4, .tt]⟩,
  ⟨.matvec_T, [.obj .crs .d true, .obj (.view1D .vec) .d true, .obj .vector .d false], .matvec, .d, [.one, .par 0, .par 1, .zero, .par 2, .tt]⟩,
  ⟨.matvec_T, [.scal .d, .obj .crs .d true, .obj (.view1D .vec) .d true, .scal .d, .obj .vector .d false], .matvec, .d, [.par 0, .par 1, .par 2, .par 3, .par 4, .tt]⟩,
  ⟨.matvec_T, [.obj .crs .d true, .obj (.view1D .vec) .d true, .obj (.view1D .vec) .d false], .matvec, .d, [.one, .par 0, .par 1, .zero, .par 2, .tt]⟩,
  ⟨.matvec_T, [.scal .d, .obj .crs .d true, .obj (.view1D .vec) .d true, .scal .d, .obj (.view1D .vec) .d false], .matvec, .d, [.par 0, .par 1, .par 2, .par 3, .par 4, .tt]⟩,
  ⟨.matvec_T, [.obj .crs .d true, .obj (.view1D .vec) .d true, .obj (.view1D .mat) .d false], .matvec, .d, [.one, .par 0, .par 1, .zero, .par 2, .tt]⟩,
  ⟨.matvec_T, [.scal .d, .obj .crs .d true, .obj (.view1D .vec) .d true, .scal .d, .obj (.view1D .mat) .d false], .matvec, .d, [.par 0, .par 1, .par 2, .par 3, .par 4, .tt]⟩,
  ⟨.matvec_T, [.obj .crs .d true, .obj (.view1D .vec) .d true, .obj (.view1D .ten) .d false], .matvec, .d, [.one, .par 0, .par 1, .zero, .par 2, .tt]⟩,
  ⟨.matvec_T, [.scal .d, .obj .crs .d true, .obj (.view1D .vec) .d true, .scal .d, .obj (.view1D .ten) .d false], .matvec, .d, [.par 0, .par 1, .par 2, .par 3, .par 4, .tt]⟩,
  ⟨.matvec_T, [.obj .crs .d true, .obj (.view1D .mat) .d true, .obj .vector .d false], .matvec, .d, [.one, .par 0, .par 1, .zero, .par 2, .tt]⟩,
  ⟨.matvec_T, [.scal .d, .obj .crs .d true, .obj (.view1D .mat) .d true, .scal .d, .obj .vector .d false], .matvec, .d, [.par 0, .par 1, .par 2, .par 3, .par 4, .tt]⟩,
  ⟨.matvec_T, [.obj .crs .d true, .obj (.view1D .mat) .d true, .obj (.view1D .vec) .d false], .matvec, .d, [.one, .par 0, .par 1, .zero, .par 2, .tt]⟩,
  ⟨.matvec_T, [.scal .d, .obj .crs .d true, .obj (.view1D .mat) .d true, .scal .d, .obj (.view1D .vec) .d false], .matvec, .d, [.par 0, .par 1, .par 2, .par 3, .par 4, .tt]⟩,
  ⟨.matvec_T, [.obj .crs .d true, .obj (.view1D .mat) .d true, .obj (.view1D .mat) .d false], .matvec, .d, [.one, .par 0, .par 1, .zero, .par 2, .tt]⟩,
  ⟨.matvec_T, [.scal .d, .obj .crs .d true, .obj (.view1D .mat) .d true, .scal .d, .obj (.view1D .mat) .d false], .matvec, .d, [.par 0, .par 1, .par 2, .par 3, .par 4, .tt]⟩,
  ⟨.matvec_T, [.obj .crs .d true, .obj (.view1D .mat) .d true, .obj (.view1D .ten) .d false], .matvec, .d, [.one, .par 0, .par 1, .zero, .par 2, .tt]⟩,
  ⟨.matvec_T, [.scal .d, .obj .crs .d true, .obj (.view1D .mat) .d true, .scal .d, .obj (.view1D .ten) .d false], .matvec, .d, [.par 0, .par 1, .par 2, .par 3, .par 4, .tt]⟩,
  ⟨.matvec_T, [.obj .crs .d true, .obj (.view1D .ten) .d true, .obj .vector .d false], .matvec, .d, [.one, .par 0, .par 1, .zero, .par 2, .tt]⟩,
  ⟨.matvec_T, [.scal .d, .obj .crs .d true, .obj (.view1D .ten) .d true, .scal .d, .obj .vector .d false], .matvec, .d, [.par 0, .par 1, .par 2, .par 3, .par 4, .tt]⟩,
  ⟨.matvec_T, [.obj .crs .d true, .obj (.view1D .ten) .d true, .obj (.view1D .vec) .d false], .matvec, .d, [.one, .par 0, .par 1, .zero, .par 2, .tt]⟩,
  ⟨.matvec_T, [.scal .d, .obj .crs .d true, .obj (.view1D .ten) .d true, .scal .d, .obj (.view1D .vec) .d false], .matvec, .d, [.par 0, .par 1, .par 2, .par 3, .par 4, .tt]⟩,
  ⟨.matvec_T, [.obj .crs .d true, .obj (.view1D .ten) .d true, .obj (.view1D .mat) .d false], .matvec, .d, [.one, .par 0, .par 1, .zero, .par 2, .tt]⟩,
  ⟨.matvec_T, [.scal .d, .obj .crs .d true, .obj (.view1D .ten) .d true, .scal .d, .obj (.view1D .mat) .d false], .matvec, .d, [.par 0, .par 1, .par 2, .par 3, .par 4, .tt]⟩,
  ⟨.matvec_T, [.obj .crs .d true, .obj (.view1D .ten) .d true, .obj (.view1D .ten) .d false], .matvec, .d, [.one, .par 0, .par 1, .zero, .par 2, .tt]⟩,
  ⟨.matvec_T, [.scal .d, .obj .crs .d true, .obj (.view1D .ten) .d true, .scal .d, .obj (.view1D .ten) .d false], .matvec, .d, [.par 0, .par 1, .par 2, .par 3, .par 4, .tt]⟩,
  ⟨.matvec_T, [.obj .crs .s true, .obj .vector .s true, .obj .vector .s false], .matvec, .s, [.one, .par 0, .par 1, .zero, .par 2, .tt]⟩,
  ⟨.matvec_T, [.scal .s, .obj .crs .s true, .obj .vector .s true, .scal .s, .obj .vector .s false], .matvec, .s, [.par 0, .par 1, .par 2, .par 3, .par 4, .tt]⟩,
  ⟨.matvec_T, [.obj .crs .s true, .obj .vector .s true, .obj (.view1D .vec) .s false], .matvec, .s, [.one, .par 0, .par 1, .zero, .par 2, .tt]⟩,
  ⟨.matvec_T, [.scal .s, .obj .crs .s true, .obj .vector .s true, .scal .s, .obj (.view1D .vec) .s false], .matvec, .s, [.par 0, .par 1, .par 2, .par 3, .par 4, .tt]⟩,
  ⟨.matvec_T, [.obj .crs .s true, .obj .vector .s true, .obj (.view1D .mat) .s false], .matvec, .s, [.one, .par 0, .par 1, .zero, .par 2, .tt]⟩,
  ⟨.matvec_T, [.scal .s, .obj .crs .s true, .obj .vector .s true, .scal .s, .obj (.view1D .mat) .s false], .matvec, .s, [.par 0, .par 1, .par 2, .par 3, .par 4, .tt]⟩,
  ⟨.matvec_T, [.obj .crs .s true, .obj .vector .s true, .obj (.view1D .ten) .s false], .matvec, .s, [.one, .par 0, .par 1, .zero, .par 2, .tt]⟩,
  ⟨.matvec_T, [.scal .s, .obj .crs .s true, .obj .vector .s true, .scal .s, .obj (.view1D .ten) .s false], .matvec, .s, [.par 0, .par 1, .par 2, .par 3, .par 4, .tt]⟩,
  ⟨.matvec_T, [.obj .crs .s true, .obj (.view1D .vec) .s true, .obj .vector .s false], .matvec, .s, [.one, .par 0, .par 1, .zero, .par 2, .tt]⟩,
  ⟨.matvec_T, [.scal .s, .obj .crs .s true, .obj (.view1D .vec) .s true, .scal .s, .obj .vector .s false], .matvec, .s, [.par 0, .par 1, .par 2, .par 3, .par 4, .tt]⟩,
  ⟨.matvec_T, [.obj .crs .s true, .obj (.view1D .vec) .s true, .obj (.view1D .vec) .s false], .matvec, .s, [.one, .par 0, .par 1, .zero, .par 2, .tt]⟩,
  ⟨.matvec_T, [.scal .s, .obj .crs .s true, .obj (.view1D .vec) .s true, .scal .s, .obj (.view1D .vec) .s false], .matvec, .s, [.par 0, .par 1, .par 2, .par 3, .par 4, .tt]⟩,
  ⟨.matvec_T, [.obj .crs .s true, .obj (.view1D .vec) .s true, .obj (.view1D .mat) .s false], .matvec, .s, [.one, .par 0, .par 1, .zero, .par 2, .tt]⟩,
  ⟨.matvec_T, [.scal .s, .obj .crs .s true, .obj (.view1D .vec) .s true, .scal .s, .obj (.view1D .mat) .s false], .matvec, .s, [.par 0, .par 1, .par 2, .par 3, .par 4, .tt]⟩,
  ⟨.matvec_T, [.obj .crs .s true, .obj (.view1D .vec) .s true, .obj (.view1D .ten) .s false], .matvec, .s, [.one, .par 0, .par 1, .zero, .par 2, .tt]⟩,
  ⟨.matvec_T, [.scal .s, .obj .crs .s true, .obj (.view1D .vec) .s true, .scal .s, .obj (.view1D .ten) .s false], .matvec, .s, [.par 0, .par 1, .par 2, .par 3, .par 4, .tt]⟩,
  ⟨.matvec_T, [.obj .crs .s true, .obj (.view1D .mat) .s true, .obj .vector .s false], .matvec, .s, [.one, .par 0, .par 1, .zero, .par 2, .tt]⟩,
  ⟨.matvec_T, [.scal .s, .obj .crs .s true, .obj (.view1D .mat) .s true, .scal .s, .obj .vector .s false], .matvec, .s, [.par 0, .par 1, .par 2, .par 3, .par 4, .tt]⟩,
  ⟨.matvec_T, [.obj .crs .s true, .obj (.view1D .mat) .s true, .obj (.view1D .vec) .s false], .matvec, .s, [.one, .par 0, .par 1, .zero, .par 2, .tt]⟩,
  ⟨.matvec_T, [.scal .s, .obj .crs .s true, .obj (.view1D .mat) .s true, .scal .s, .obj (.view1D .vec) .s false], .matvec, .s, [.par 0, .par 1, .par 2, .par 3, .par 4, .tt]⟩,
  ⟨.matvec_T, [.obj .crs .s true, .obj (.view1D .mat) .s true, .obj (.view1D .mat) .s false], .matvec, .s, [.one, .par 0, .par 1, .zero, .par 2, .tt]⟩,
  ⟨.matvec_T, [.scal .s, .obj .crs .s true, .obj (.view1D .mat) .s true, .scal .s, .obj (.view1D .mat) .s false], .matvec, .s, [.par 0, .par 1, .par 2, .par 3, .par 4, .tt]⟩,
  ⟨.matvec_T, [.obj .crs .s true, .obj (.view1D .mat) .s true, .obj (.view1D .ten) .s false], .matvec, .s, [.one, .par 0, .par 1, .zero, .par 2, .tt]⟩,
  ⟨.matvec_T, [.scal .s, .obj .crs .s true, .obj (.view1D .mat) .s true, .scal .s, .obj (.view1D .ten) .s false], .matvec, .s, [.par 0, .par 1, .par 2, .par 3, .par 4, .tt]⟩,
  ⟨.matvec_T, [.obj .crs .s true, .obj (.view1D .ten) .s true, .obj .vector .s false], .matvec, .s, [.one, .par 0, .par 1, .zero, .par 2, .tt]⟩,
  ⟨.matvec_T, [.scal .s, .obj .crs .s true, .obj (.view1D .ten) .s true, .scal .s, .obj .vector .s false], .matvec, .s, [.par 0, .par 1, .par 2, .par 3, .par 4, .tt]⟩,
  ⟨.matvec_T, [.obj .crs .s true, .obj (.view1D .ten) .s true, .obj (.view1D .vec) .s false], .matvec, .s, [.one, .par 0, .par 1, .zero, .par 2, .tt]⟩,
  ⟨.matvec_T, [.scal .s, .obj .crs .s true, .obj (.view1D .ten) .s true, .scal .s, .obj (.view1D .vec) .s false], .matvec, .s, [.par 0, .par 1, .par 2, .par 3, .par 4, .tt]⟩,
  ⟨.matvec_T, [.obj .crs .s true, .obj (.view1D .ten) .s true, .obj (.view1D .mat) .s false], .matvec, .s, [.one, .par 0, .par 1, .zero, .par 2, .tt]⟩,
  ⟨.matvec_T, [.scal .s, .obj .crs .s true, .obj (.view1D .ten) .s true, .scal .s, .obj (.view1D .mat) .s false], .matvec, .s, [.par 0, .par 1, .par 2, .par 3, .par 4, .tt]⟩,
  ⟨.matvec_T, [.obj .crs .s true, .obj (.view1D .ten) .s true, .obj (.view1D .ten) .s false], .matvec, .s, [.one, .par 0, .par 1, .zero, .par 2, .tt]⟩,
  ⟨.matvec_T, [.scal .s, .obj .crs .s true, .obj (.view1D .ten) .s true, .scal .s, .obj (.view1D .ten) .s false], .matvec, .s, [.par 0, .par 1, .par 2, .par 3, .par 4, .tt]⟩]

/-- the product overloads of src/blas/matrix/matvec/matvec_blas.cpp (960 of them; 64 with a LinearOperator left out) -/
def tMatvec : List (List Overload) :=
  [tMatvec_0, tMatvec_1, tMatvec_2, tMatvec_3, tMatvec_4, tMatvec_5, tMatvec_6, tMatvec_7, tMatvec_8, tMatvec_9, tMatvec_10, tMatvec_11]

/-- src/blas/matrix/matmul/matmul_blas.cpp:11-406 -/
def tMatmul_0 : List Overload := [
  ⟨.matmul, [.obj .dense .d true, .obj .dense .d true, .obj .dense .d false], .matmul_dense, .d, [.one, .par 0, .par 1, .zero, .par 2, .ff, .ff]⟩,
  ⟨.matmul, [.scal .d, .obj .dense .d true, .obj .dense .d true, .scal .d, .obj .dense .d false], .matmul_dense, .d, [.par 0, .par 1, .par 2, .par 3, .par 4, .ff, .ff]⟩,
  ⟨.matmul, [.obj .dense .d true, .obj .dense .d true, .obj (.viewDense .vec) .d false], .matmul_dense, .d, [.one, .par 0, .par 1, .zero, .par 2, .ff, .ff]⟩,
  ⟨.matmul, [.scal .d, .obj .dense .d true, .obj .dense .d true, .scal .d, .obj (.viewDense .vec) .d false], .matmul_dense, .d, [.par 0, .par 1, .par 2, .par 3, .par 4, .ff, .ff]⟩,
  ⟨.matmul, [.obj .dense .d true, .obj .dense .d true, .obj (.viewDense .mat) .d false], .matmul_dense, .d, [.one, .par 0, .par 1, .zero, .par 2, .ff, .ff]⟩,
  ⟨.matmul, [.scal .d, .obj .dense .d true, .obj .dense .d true, .scal .d, .obj (.viewDense .mat) .d false], .matmul_dense, .d, [.par 0, .par 1, .par 2, .par 3, .par 4, .ff, .ff]⟩,
  ⟨.matmul, [.obj .dense .d true, .obj .dense .d true, .obj (.viewDense .ten) .d false], .matmul_dense, .d, [.one, .par 0, .par 1, .zero, .par 2, .ff, .ff]⟩,
  ⟨.matmul, [.scal .d, .obj .dense .d true, .obj .dense .d true, .scal .d, .obj (.viewDense .ten) .d false], .matmul_dense, .d, [.par 0, .par 1, .par 2, .par 3, .par 4, .ff, .ff]⟩,
  ⟨.matmul, [.obj .dense .d true, .obj (.viewDense .vec) .d true, .obj .dense .d false], .matmul_dense, .d, [.one, .par 0, .par 1, .zero, .par 2, .ff, .ff]⟩,
  ⟨.matmul, [.scal .d, .obj .dense .d true, .obj (.viewDense .vec) .d true, .scal .d, .obj .dense .d false], .matmul_dense, .d, [.par 0, .par 1, .par 2, .par 3, .par 4, .ff, .ff]⟩,
  ⟨.matmul, [.obj .dense .d true, .obj (.viewDense .vec) .d true, .obj (.viewDense .vec) .d false], .matmul_dense, .d, [.one, .par 0, .par 1, .zero, .par 2, .ff, .ff]⟩,
  ⟨.matmul, [.scal .d, .obj .dense .d true, .obj (.viewDense .vec) .d true, .scal .d, .obj (.viewDense .vec) .d false], .matmul_dense, .d, [.par 0, .par 1, .par 2, .par 3, .par 4, .ff, .ff]⟩,
  ⟨.matmul, [.obj .dense .d true, .obj (.viewDense .vec) .d true, .obj (.viewDense .mat) .d false], .matmul_dense, .d, [.one, .par 0, .par 1, .zero, .par 2, .ff, .ff]⟩,
  ⟨.matmul, [.scal .d, .obj .dense .d true, .obj (.viewDense .vec) .d true, .scal .d, .obj (.viewDense .mat) .d false], .matmul_dense, .d, [.par 0, .par 1, .par 2, .par 3, .par 4, .ff, .ff]⟩,
  ⟨.matmul, [.obj .dense .d true, .obj (.viewDense .vec) .d true, .obj (.viewDense .ten) .d false], .matmul_dense, .d, [.one, .par 0, .par 1, .zero, .par 2, .ff, .ff]⟩,
  ⟨.matmul, [.scal .d, .obj .dense .d true, .obj (.viewDense .vec) .d true, .scal .d, .obj (.viewDense .ten) .d false], .matmul_dense, .d, [.par 0, .par 1, .par 2, .par 3, .par 4, .ff, .ff]⟩,
  ⟨.matmul, [.obj .dense .d true, .obj (.viewDense .mat) .d true, .obj .dense .d false], .matmul_dense, .d, [.one, .par 0, .par 1, .zero, .par 2, .ff, .ff]⟩,
  ⟨.matmul, [.scal .d, .obj .dense .d true, .obj (.viewDense .mat) .d true, .scal .d, .obj .dense .d false], .matmul_dense, .d, [.par 0, .par 1, .par 2, .par 3, .par 4, .ff, .ff]⟩,
  ⟨.matmul, [.obj .dense .d true, .obj (.viewDense .mat) .d true, .obj (.viewDense .vec) .d false], .matmul_dense, .d, [.one, .par 0, .par 1, .zero, .par 2, .ff, .ff]⟩,
  ⟨.matmul, [.scal .d, .obj .dense .d true, .obj (.viewDense .mat) .d true, .scal .d, .obj (.viewDense .vec) .d false], .matmul_dense, .d, [.par 0, .par 1, .par 2, .par 3, .par 4, .ff, .ff]⟩,
  ⟨.matmul, [.obj .dense .d true, .obj (.viewDense .mat) .d true, .obj (.viewDense .mat) .d false], .matmul_dense, .d, [.one, .par 0, .par 1, .zero, .par 2, .ff, .ff]⟩,
  ⟨.matmul, [.scal .d, .obj .dense .d true, .obj (.viewDense .mat) .d true, .scal .d, .obj (.viewDense .mat) .d false], .matmul_dense, .d, [.par 0, .par 1, .par 2, .par 3, .par 4, .ff, .ff]⟩,
  ⟨.matmul, [.obj .dense .d true, .obj (.viewDense .mat) .d true, .obj (.viewDense .ten) .d false], .matmul_dense, .d, [.one, .par 0, .par 1, .zero, .par 2, .ff, .ff]⟩,
  ⟨.matmul, [.scal .d, .obj .dense .d true, .obj (.viewDense .mat) .d true, .scal .d, .obj (.viewDense .ten) .d false], .matmul_dense, .d, [.par 0, .par 1, .par 2, .par 3, .par 4, .ff, .ff]⟩,
  ⟨.matmul, [.obj .dense .d true, .obj (.viewDense .ten) .d true, .obj .dense .d false], .matmul_dense, .d, [.one, .par 0, .par 1, .zero, .par 2, .ff, .ff]⟩,
  ⟨.matmul, [.scal .d, .obj .dense .d true, .obj (.viewDense .ten) .d true, .scal .d, .obj .dense .d false], .matmul_dense, .d, [.par 0, .par 1, .par 2, .par 3, .par 4, .ff, .ff]⟩,
  ⟨.matmul, [.obj .dense .d true, .obj (.viewDense .ten) .d true, .obj (.viewDense .vec) .d false], .matmul_dense, .d, [.one, .par 0, .par 1, .zero, .par 2, .ff, .ff]⟩,
  ⟨.matmul, [.scal .d, .obj .dense .d true, .obj (.viewDense .ten) .d true, .scal .d, .obj (.viewDense .vec) .d false], .matmul_dense, .d, [.par 0, .par 1, .par 2, .par 3, .par 4, .ff, .ff]⟩,
  ⟨.matmul, [.obj .dense .d true, .obj (.viewDense .ten) .d true, .obj (.viewDense .mat) .d false], .matmul_dense, .d, [.one, .par 0, .par 1, .zero, .par 2, .ff, .ff]⟩,
  ⟨.matmul, [.scal .d, .obj .dense .d true, .obj (.viewDense .ten) .d true, .scal .d, .obj (.viewDense .mat) .d false], .matmul_dense, .d, [.par 0, .par 1, .par 2, .par 3, .par 4, .ff, .ff]⟩,
  ⟨.matmul, [.obj .dense .d true, .obj (.viewDense .ten) .d true, .obj (.viewDense .ten) .d false], .matmul_dense, .d, [.one, .par 0, .par 1, .zero, .par 2, .ff, .ff]⟩,
  ⟨.matmul, [.scal .d, .obj .dense .d true, .obj (.viewDense .ten) .d true, .scal .d, .obj (.viewDense .ten) .d false], .matmul_dense, .d, [.par 0, .par 1, .par 2, .par 3, .par 4, .ff, .ff]⟩,
  ⟨.matmul, [.obj (.viewDense .vec) .d true, .obj .dense .d true, .obj .dense .d false], .matmul_dense, .d, [.one, .par 0, .par 1, .zero, .par 2, .ff, .ff]⟩,
  ⟨.matmul, [.scal .d, .obj (.viewDense .vec) .d true, .obj .dense .d true, .scal .d, .obj .dense .d false], .matmul_dense, .d, [.par 0, .par 1, .par 2, .par 3, .par 4, .ff, .ff]⟩,
  ⟨.matmul, [.obj (.viewDense .vec) .d true, .obj .dense .d true, .obj (.viewDense .vec) .d false], .matmul_dense, .d, [.one, .par 0, .par 1, .zero, .par 2, .ff, .ff]⟩,
  ⟨.matmul, [.scal .d, .obj (.viewDense .vec) .d true, .obj .dense .d true, .scal .d, .obj (.viewDense .vec) .d false], .matmul_dense, .d, [.par 0, .par 1, .par 2, .par 3, .par 4, .ff, .ff]⟩,
  ⟨.matmul, [.obj (.viewDense .vec) .d true, .obj .dense .d true, .obj (.viewDense .mat) .d false], .matmul_dense, .d, [.one, .par 0, .par 1, .zero, .par 2, .ff, .ff]⟩,
  ⟨.matmul, [.scal .d, .obj (.viewDense .vec) .d true, .obj .dense .d true, .scal .d, .obj (.viewDense .mat) .d false], .matmul_dense, .d, [.par 0, .par 1, .par 2, .par 3, .par 4, .ff, .ff]⟩,
  ⟨.matmul, [.obj (.viewDense .vec) .d true, .obj .dense .d true, .obj (.viewDense .ten) .d false], .matmul_dense, .d, [.one, .par 0, .par 1, .zero, .par 2, .ff, .ff]⟩,
  ⟨.matmul, [.scal .d, .obj (.viewDense .vec) .d true, .obj .dense .d true, .scal .d, .obj (.viewDense .ten) .d false], .matmul_dense, .d, [.par 0, .par 1, .par 2, .par 3, .par 4, .ff, .ff]⟩,
  ⟨.matmul, [.obj (.viewDense .vec) .d true, .obj (.viewDense .vec) .d true, .obj .dense .d false], .matmul_dense, .d, [.one, .par 0, .par 1, .zero, .par 2, .ff, .ff]⟩,
  ⟨.matmul, [.scal .d, .obj (.viewDense .vec) .d true, .obj (.viewDense .vec) .d true, .scal .d, .obj .dense .d false], .matmul_dense, .d, [.par 0, .par 1, .par 2, .par 3, .par 4, .ff, .ff]⟩,
  ⟨.matmul, [.obj (.viewDense .vec) .d true, .obj (.viewDense .vec) .d true, .obj (.viewDense .vec) .d false], .matmul_dense, .d, [.one, .par 0, .par 1, .zero, .par 2, .ff, .ff]⟩,
  ⟨.matmul, [.scal .d, .obj (.viewDense .vec) .d true, .obj (.viewDense .vec) .d true, .scal .d, .obj (.viewDense .vec) .d false], .matmul_dense, .d, [.par 0, .par 1, .par 2, .par 3, .par 4, .ff, .ff]⟩,
  ⟨.matmul, [.obj (.viewDense .vec) .d true, .obj (.viewDense .vec) .d true, .obj (.viewDense .mat) .d false], .matmul_dense, .d, [.one, .par 0, .par 1, .zero, .par 2, .ff, .ff]⟩,
  ⟨.matmul, [.scal .d, .obj (.viewDense .vec) .d true, .obj (.viewDense .vec) .d true, .scal .d, .obj (.viewDense .mat) .d false], .matmul_dense, .d, [.par 0, .par 1, .par 2, .par 3, .par 4, .ff, .ff]⟩,
  ⟨.matmul, [.obj (.viewDense .vec) .d true, .obj (.viewDense .vec) .d true, .obj (.viewDense .ten) .d false], .matmul_dense, .d, [.one, .par 0, .par 1, .zero, .par 2, .ff, .ff]⟩,
  ⟨.matmul, [.scal .d, .obj (.viewDense .vec) .d true, .obj (.viewDense .vec) .d true, .scal .d, .obj (.viewDense .ten) .d false], .matmul_dense, .d, [.par 0, .par 1, .par 2, .par 3, .par 4, .ff, .ff]⟩,
  ⟨.matmul, [.obj (.viewDense .vec) .d true, .obj (.viewDense .mat) .d true, .obj .dense .d false], .matmul_dense, .d, [.one, .par 0, .par 1, .zero, .par 2, .ff, .ff]⟩,
  ⟨.matmul, [.scal .d, .obj (.viewDense .vec) .d true, .obj (.viewDense .mat) .d true, .scal .d, .obj .dense .d false], .matmul_dense, .d, [.par 0, .par 1, .par 2, .par 3, .par 4, .ff, .ff]⟩,
  ⟨.matmul, [.obj (.viewDense .vec) .d true, .obj (.viewDense .mat) .d true, .obj (.viewDense .vec) .d false], .matmul_dense, .d, [.one, .par 0, .par 1, .zero, .par 2, .ff, .ff]⟩,
  ⟨.matmul, [.scal .d, .obj (.viewDense .vec) .d true, .obj (.viewDense .mat) .d true, .scal .d, .obj (.viewDense .vec) .d false], .matmul_dense, .d, [.par 0, .par 1, .par 2, .par 3, .par 4, .ff, .ff]⟩,
  ⟨.matmul, [.obj (.viewDense .vec) .d true, .obj (.viewDense .mat) .d true, .obj (.viewDense .mat) .d false], .matmul_dense, .d, [.one, .par 0, .par 1, .zero, .par 2, .ff, .ff]⟩,
  ⟨.matmul, [.scal .d, .obj (.viewDense .vec) .d true, .obj (.viewDense .mat) .d true, .scal .d, .obj (.viewDense .mat) .d false], .matmul_dense, .d, [.par 0, .par 1, .par 2, .par 3, .par 4, .ff, .ff]⟩,
  ⟨.matmul, [.obj (.viewDense .vec) .d true, .obj (.viewDense .mat) .d true, .obj (.viewDense .ten) .d false], .matmul_dense, .d, [.one, .par 0, .par 1, .zero, .par 2, .ff, .ff]⟩,
  ⟨.matmul, [.scal .d, .obj (.viewDense .vec) .d true, .obj (.viewDense .mat) .d true, .scal .d, .obj (.viewDense .ten) .d false], .matmul_dense, .d, [.par 0, .par 1, .par 2, .par 3, .par 4, .ff, .ff]⟩,
  ⟨.matmul, [.obj (.viewDense .vec) .d true, .obj (.viewDense .ten) .d true, .obj .dense .d false], .matmul_dense, .d, [.one, .par 0, .par 1, .zero, .par 2, .ff, .ff]⟩,
  ⟨.matmul, [.scal .d, .obj (.viewDense .vec) .d true, .obj (.viewDense .ten) .d true, .scal .d, .obj .dense .d false], .matmul_dense, .d, [.par 0, .par 1, .par 2, .par 3, .par 4, .ff, .ff]⟩,
  ⟨.matmul, [.obj (.viewDense .vec) .d true, .obj (.viewDense .ten) .d true, .obj (.viewDense .vec) .d false], .matmul_dense, .d, [.one, .par 0, .par 1, .zero, .par 2, .ff, .ff]⟩,
  ⟨.matmul, [.scal .d, .obj (.viewDense .vec) .d true, .obj (.viewDense .ten) .d true, .scal .d, .obj (.viewDense .vec) .d false], .matmul_dense, .d, [.par 0, .par 1, .par 2, .par 3, .par 4, .ff, .ff]⟩,
  ⟨.matmul, [.obj (.viewDense .vec) .d true, .obj (.viewDense .ten) .d true, .obj (.viewDense .mat) .d false], .matmul_dense, .d, [.one, .par 0, .par 1, .zero, .par 2, .ff, .ff]⟩,
  ⟨.matmul, [.scal .d, .obj (.viewDense .vec) .d true, .obj (.viewDense .ten) .d true, .scal .d, .obj (.viewDense .mat) .d false], .matmul_dense, .d, [.par 0, .par 1, .par 2, .par 3, .par 4, .ff, .ff]⟩,
  ⟨.matmul, [.obj (.viewDense .vec) .d true, .obj (.viewDense .ten) .d true, .obj (.viewDense .ten) .d false], .matmul_dense, .d, [.one, .par 0, .par 1, .zero, .par 2, .ff, .ff]⟩,
  ⟨.matmul, [.scal .d, .obj (.viewDense .vec) .d true, .obj (.viewDense .ten) .d true, .scal .d, .obj (.viewDense .ten) .d false], .matmul_dense, .d, [.par 0, .par 1, .par 2, .par 3, .par 4, .ff, .ff]⟩,
  ⟨.matmul, [.obj (.viewDense .mat) .d true, .obj .dense .d true, .obj .dense .d false], .matmul_dense, .d, [.one, .par 0, .par 1, .zero, .par 2, .ff, .ff]⟩,
  ⟨.matmul, [.scal .d, .obj (.viewDense .mat) .d true, .obj .dense .d true, .scal .d, .obj .dense .d false], .matmul_dense, .d, [.par 0, .par 1, .par 2, .par 3, .par 4, .ff, .ff]⟩,
  ⟨.matmul, [.obj (.viewDense .mat) .d true, .obj .dense .d true, .obj (.viewDense .vec) .d false], .matmul_dense, .d, [.one, .par 0, .par 1, .zero, .par 2, .ff, .ff]⟩,
  ⟨.matmul, [.scal .d, .obj (.viewDense .mat) .d true, .obj .dense .d true, .scal .d, .obj (.viewDense .vec) .d false], .matmul_dense, .d, [.par 0, .par 1, .par 2, .par 3, .par 4, .ff, .ff]⟩,
  ⟨.matmul, [.obj (.viewDense .mat) .d true, .obj .dense .d true, .obj (.viewDense .mat) .d false], .matmul_dense, .d, [.one, .par 0, .par 1, .zero, .par 2, .ff, .ff]⟩,
  ⟨.matmul, [.scal .d, .obj (.viewDense .mat) .d true, .obj .dense .d true, .scal .d, .obj (.viewDense .mat) .d false], .matmul_dense, .d, [.par 0, .par 1, .par 2, .par 3, .par 4, .ff, .ff]⟩,
  ⟨.matmul, [.obj (.viewDense .mat) .d true, .obj .dense .d true, .obj (.viewDense .ten) .d false], .matmul_dense, .d, [.one, .par 0, .par 1, .zero, .par 2, .ff, .ff]⟩,
  ⟨.matmul, [.scal .d, .obj (.viewDense .mat) .d true, .obj .dense .d true, .scal .d, .obj (.viewDense .ten) .d false], .matmul_dense, .d, [.par 0, .par 1, .par 2, .par 3, .par 4, .ff, .ff]⟩,
  ⟨.matmul, [.obj (.viewDense .mat) .d true, .obj (.viewDense .vec) .d true, .obj .dense .d false], .matmul_dense, .d, [.one, .par 0, .par 1, .zero, .par 2, .ff, .ff]⟩,
  ⟨.matmul, [.scal .d, .obj (.viewDense .mat) .d true, .obj (.viewDense .vec) .d true, .scal .d, .obj .dense .d false], .matmul_dense, .d, [.par 0, .par 1, .par 2, .par 3, .par 4, .ff, .ff]⟩,
  ⟨.matmul, [.obj (.viewDense .mat) .d true, .obj (.viewDense .vec) .d true, .obj (.viewDense .vec) .d false], .matmul_dense, .d, [.one, .par 0, .par 1, .zero, .par 2, .ff, .ff]⟩,
  ⟨.matmul, [.scal .d, .obj (.viewDense .mat) .d true, .obj (.viewDense .vec) .d true, .scal .d, .obj (.viewDense .vec) .d false], .matmul_dense, .d, [.par 0, .par 1, .par 2, .par 3, .par 4, .ff, .ff]⟩,
  ⟨.matmul, [.obj (.viewDense .mat) .d true, .obj (.viewDense .vec) .d true, .obj (.viewDense .mat) .d false], .matmul_dense, .d, [.one, .par 0, .par 1, .zero, .par 2, .ff, .ff]⟩,
  ⟨.matmul, [.scal .d, .obj (.viewDense .mat) .d true, .obj (.viewDense .vec) .d true, .scal .d, .obj (.viewDense .mat) .d false], .matmul_dense, .d, [.par 0, .par 1, .par 2, .par 3, .par 4, .ff, .ff]⟩,
  ⟨.matmul, [.obj (.viewDense .mat) .d true, .obj (.viewDense .vec) .d true, .obj (.viewDense .ten) .d false], .matmul_dense, .d, [.one, .par 0, .par 1, .zero, .par 2, .ff, .ff]⟩,
  ⟨.matmul, [.scal .d, .obj (.viewDense .mat) .d true, .obj (.viewDense .vec) .d true, .scal .d, .obj (.viewDense .ten) .d false], .matmul_dense, .d, [.par 0, .par 1, .par 2, .par 3, .par 4, .ff, .ff]⟩]

/-- src/blas/matrix/matmul/matmul_blas.cpp:407-819 -/
def tMatmul_1 : List Overload := [
  ⟨.matmul, [.obj (.viewDense .mat) .d true, .obj (.viewDense .mat) .d true, .obj .dense .d false], .matmul_dense, .d, [.one, .par 0, .par 1, .zero, .par 2, .ff, .ff]⟩,
  ⟨.matmul, [.scal .d, .obj (.viewDense .mat) .d true, .obj (.viewDense .mat) .d true, .scal .d, .obj .dense .d false], .matmul_dense, .d, [.par 0, .par 1, .par 2, .par 3, .par 4, .ff, .ff]⟩,
  ⟨.matmul, [.obj (.viewDense .mat) .d true, .obj (.viewDense .mat) .d true, .obj (.viewDense .vec) .d false], .matmul_dense, .d, [.one, .par 0, .par 1, .zero, .par 2, .ff, .ff]⟩,
  ⟨.matmul, [.scal .d, .obj (.viewDense .mat) .d true, .obj (.viewDense .mat) .d true, .scal .d, .obj (.viewDense .vec) .d false], .matmul_dense, .d, [.par 0, .par 1, .par 2, .par 3, .par 4, .ff, .ff]⟩,
  ⟨.matmul, [.obj (.viewDense .mat) .d true, .obj (.viewDense .mat) .d true, .obj (.viewDense .mat) .d false], .matmul_dense, .d, [.one, .par 0, .par 1, .zero, .par 2, .ff, .ff]⟩,
  ⟨.matmul, [.scal .d, .obj (.viewDense .mat) .d true, .obj (.viewDense .mat) .d true, .scal .d, .obj (.viewDense .mat) .d false], .matmul_dense, .d, [.par 0, .par 1, .par 2, .par 3, .par 4, .ff, .ff]⟩,
  ⟨.matmul, [.obj (.viewDense .mat) .d true, .obj (.viewDense .mat) .d true, .obj (.viewDense .ten) .d false], .matmul_dense, .d, [.one, .par 0, .par 1, .zero, .par 2, .ff, .ff]⟩,
  ⟨.matmul, [.scal .d, .obj (.viewDense .mat) .d true, .obj (.viewDense .mat) .d true, .scal .d, .obj (.viewDense .ten) .d false], .matmul_dense, .d, [.par 0, .par 1, .par 2, .par 3, .par 4, .ff, .ff]⟩,
  ⟨.matmul, [.obj (.viewDense .mat) .d true, .obj (.viewDense .ten) .d true, .obj .dense .d false], .matmul_dense, .d, [.one, .par 0, .par 1, .zero, .par 2, .ff, .ff]⟩,
  ⟨.matmul, [.scal .d, .obj (.viewDense .mat) .d true, .obj (.viewDense .ten) .d true, .scal .d, .obj .dense .d false], .matmul_dense, .d, [.par 0, .par 1, .par 2, .par 3, .par 4, .ff, .ff]⟩,
  ⟨.matmul, [.obj (.viewDense .mat) .d true, .obj (.viewDense .ten) .d true, .obj (.viewDense .vec) .d false], .matmul_dense, .d, [.one, .par 0, .par 1, .zero, .par 2, .ff, .ff]⟩,
  ⟨.matmul, [.scal .d, .obj (.viewDense .mat) .d true, .obj (.viewDense .ten) .d true, .scal .d, .obj (.viewDense .vec) .d false], .matmul_dense, .d, [.par 0, .par 1, .par 2, .par 3, .par 4, .ff, .ff]⟩,
  ⟨.matmul, [.obj (.viewDense .mat) .d true, .obj (.viewDense .ten) .d true, .obj (.viewDense .mat) .d false], .matmul_dense, .d, [.one, .par 0, .par 1, .zero, .par 2, .ff, .ff]⟩,
  ⟨.matmul, [.scal .d, .obj (.viewDense .mat) .d true, .obj (.viewDense .ten) .d true, .scal .d, .obj (.viewDense .mat) .d false], .matmul_dense, .d, [.par 0, .par 1, .par 2, .par 3, .par 4, .ff, .ff]⟩,
  ⟨.matmul, [.obj (.viewDense .mat) .d true, .obj (.viewDense .ten) .d true, .obj (.viewDense .ten) .d false], .matmul_dense, .d, [.one, .par 0, .par 1, .zero, .par 2, .ff, .ff]⟩,
  ⟨.matmul, [.scal .d, .obj (.viewDense .mat) .d true, .obj (.viewDense .ten) .d true, .scal .d, .obj (.viewDense .ten) .d false], .matmul_dense, .d, [.par 0, .par 1, .par 2, .par 3, .par 4, .ff, .ff]⟩,
  ⟨.matmul, [.obj (.viewDense .ten) .d true, .obj .dense .d true, .obj .dense .d false], .matmul_dense, .d, [.one, .par 0, .par 1, .zero, .par 2, .ff, .ff]⟩,
  ⟨.matmul, [.scal .d, .obj (.viewDense .ten) .d true, .obj .dense .d true, .scal .d, .obj .dense .d false], .matmul_dense, .d, [.par 0, .par 1, .par 2, .par 3, .par 4, .ff, .ff]⟩,
  ⟨.matmul, [.obj (.viewDense .ten) .d true, .obj .dense .d true, .obj (.viewDense .vec) .d false], .matmul_dense, .d, [.one, .par 0, .par 1, .zero, .par 2, .ff, .ff]⟩,
  ⟨.matmul, [.scal .d, .obj (.viewDense .ten) .d true, .obj .dense .d true, .scal .d, .obj (.viewDense .vec) .d false], .matmul_dense, .d, [.par 0, .par 1, .par 2, .par 3, .par 4, .ff, .ff]⟩,
  ⟨.matmul, [.obj (.viewDense .ten) .d true, .obj .dense .d true, .obj (.viewDense .mat) .d false], .matmul_dense, .d, [.one, .par 0, .par 1, .zero, .par 2, .ff, .ff]⟩,
  ⟨.matmul, [.scal .d, .obj (.viewDense .ten) .d true, .obj .dense .d true, .scal .d, .obj (.viewDense .mat) .d false], .matmul_dense, .d, [.par 0, .par 1, .par 2, .par 3, .par 4, .ff, .ff]⟩,
  ⟨.matmul, [.obj (.viewDense .ten) .d true, .obj .dense .d true, .obj (.viewDense .ten) .d false], .matmul_dense, .d, [.one, .par 0, .par 1, .zero, .par 2, .ff, .ff]⟩,
  ⟨.matmul, [.scal .d, .obj (.viewDense .ten) .d true, .obj .dense .d true, .scal .d, .obj (.viewDense .ten) .d false], .matmul_dense, .d, [.par 0, .par 1, .par 2, .par 3, .par 4, .ff, .ff]⟩,
  ⟨.matmul, [.obj (.viewDense .ten) .d true, .obj (.viewDense .vec) .d true, .obj .dense .d false], .matmul_dense, .d, [.one, .par 0, .par 1, .zero, .par 2, .ff, .ff]⟩,
  ⟨.matmul, [.scal .d, .obj (.viewDense .ten) .d true, .obj (.viewDense .vec) .d true, .scal .d, .obj .dense .d false], .matmul_dense, .d, [.par 0, .par 1, .par 2, .par 3, .par 4, .ff, .ff]⟩,
  ⟨.matmul, [.obj (.viewDense .ten) .d true, .obj (.viewDense .vec) .d true, .obj (.viewDense .vec) .d false], .matmul_dense, .d, [.one, .par 0, .par 1, .zero, .par 2, .ff, .ff]⟩,
  ⟨.matmul, [.scal .d, .obj (.viewDense .ten) .d true, .obj (.viewDense .vec) .d true, .scal .d, .obj (.viewDense .vec) .d false], .matmul_dense, .d, [.par 0, .par 1, .par 2, .par 3, .par 4, .ff, .ff]⟩,
  ⟨.matmul, [.obj (.viewDense .ten) .d true, .obj (.viewDense .vec) .d true, .obj (.viewDense .mat) .d false], .matmul_dense, .d, [.one, .par 0, .par 1, .zero, .par 2, .ff, .ff]⟩,
  ⟨.matmul, [.scal .d, .obj (.viewDense .ten) .d true, .obj (.viewDense .vec) .d true, .scal .d, .obj (.viewDense .mat) .d false], .matmul_dense, .d, [.par 0, .par 1, .par 2, .par 3, .par 4, .ff, .ff]⟩,
  ⟨.matmul, [.obj (.viewDense .ten) .d true, .obj (.viewDense .vec) .d true, .obj (.viewDense .ten) .d false], .matmul_dense, .d, [.one, .par 0, .par 1, .zero, .par 2, .ff, .ff]⟩,
  ⟨.matmul, [.scal .d, .obj (.viewDense .ten) .d true, .obj (.viewDense .vec) .d true, .scal .d, .obj (.viewDense .ten) .d false], .matmul_dense, .d, [.par 0, .par 1, .par 2, .par 3, .par 4, .ff, .ff]⟩,
  ⟨.matmul, [.obj (.viewDense .ten) .d true, .obj (.viewDense .mat) .d true, .obj .dense .d false], .matmul_dense, .d, [.one, .par 0, .par 1, .zero, .par 2, .ff, .ff]⟩,
  ⟨.matmul, [.scal .d, .obj (.viewDense .ten) .d true, .obj (.viewDense .mat) .d true, .scal .d, .obj .dense .d false], .matmul_dense, .d, [.par 0, .par 1, .par 2, .par 3, .par 4, .ff, .ff]⟩,
  ⟨.matmul, [.obj (.viewDense .ten) .d true, .obj (.viewDense .mat) .d true, .obj (.viewDense .vec) .d false], .matmul_dense, .d, [.one, .par 0, .par 1, .zero, .par 2, .ff, .ff]⟩,
  ⟨.matmul, [.scal .d, .obj (.viewDense .ten) .d true, .obj (.viewDense .mat) .d true, .scal .d, .obj (.viewDense .vec) .d false], .matmul_dense, .d, [.par 0, .par 1, .par 2, .par 3, .par 4, .ff, .ff]⟩,
  ⟨.matmul, [.obj (.viewDense .ten) .d true, .obj (.viewDense .mat) .d true, .obj (.viewDense .mat) .d false], .matmul_dense, .d, [.one, .par 0, .par 1, .zero, .par 2, .ff, .ff]⟩,
  ⟨.matmul, [.scal .d, .obj (.viewDense .ten) .d true, .obj (.viewDense .mat) .d true, .scal .d, .obj (.viewDense .mat) .d false], .matmul_dense, .d, [.par 0, .par 1, .par 2, .par 3, .par 4, .ff, .ff]⟩,
  ⟨.matmul, [.obj (.viewDense .ten) .d true, .obj (.viewDense .mat) .d true, .obj (.viewDense .ten) .d false], .matmul_dense, .d, [.one, .par 0, .par 1, .zero, .par 2, .ff, .ff]⟩,
  ⟨.matmul, [.scal .d, .obj (.viewDense .ten) .d true, .obj (.viewDense .mat) .d true, .scal .d, .obj (.viewDense .ten) .d false], .matmul_dense, .d, [.par 0, .par 1, .par 2, .par 3, .par 4, .ff, .ff]⟩,
  ⟨.matmul, [.obj (.viewDense .ten) .d true, .obj (.viewDense .ten) .d true, .obj .dense .d false], .matmul_dense, .d, [.one, .par 0, .par 1, .zero, .par 2, .ff, .ff]⟩,
  ⟨.matmul, [.scal .d, .obj (.viewDense .ten) .d true, .obj (.viewDense .ten) .d true, .scal .d, .obj .dense .d false], .matmul_dense, .d, [.par 0, .par 1, .par 2, .par 3, .par 4, .ff, .ff]⟩,
  ⟨.matmul, [.obj (.viewDense .ten) .d true, .obj (.viewDense .ten) .d true, .obj (.viewDense .vec) .d false], .matmul_dense, .d, [.one, .par 0, .par 1, .zero, .par 2, .ff, .ff]⟩,
  ⟨.matmul, [.scal .d, .obj (.viewDense .ten) .d true, .obj (.viewDense .ten) .d true, .scal .d, .obj (.viewDense .vec) .d false], .matmul_dense, .d, [.par 0, .par 1, .par 2, .par 3, .par 4, .ff, .ff]⟩,
  ⟨.matmul, [.obj (.viewDense .ten) .d true, .obj (.viewDense .ten) .d true, .obj (.viewDense .mat) .d false], .matmul_dense, .d, [.one, .par 0, .par 1, .zero, .par 2, .ff, .ff]⟩,
  ⟨.matmul, [.scal .d, .obj (.viewDense .ten) .d true, .obj (.viewDense .ten) .d true, .scal .d, .obj (.viewDense .mat) .d false], .matmul_dense, .d, [.par 0, .par 1, .par 2, .par 3, .par 4, .ff, .ff]⟩,
  ⟨.matmul, [.obj (.viewDense .ten) .d true, .obj (.viewDense .ten) .d true, .obj (.viewDense .ten) .d false], .matmul_dense, .d, [.one, .par 0, .par 1, .zero, .par 2, .ff, .ff]⟩,
  ⟨.matmul, [.scal .d, .obj (.viewDense .ten) .d true, .obj (.viewDense .ten) .d true, .scal .d, .obj (.viewDense .ten) .d false], .matmul_dense, .d, [.par 0, .par 1, .par 2, .par 3, .par 4, .ff, .ff]⟩,
  ⟨.matmul, [.obj .dense .s true, .obj .dense .s true, .obj .dense .s false], .matmul_dense, .s, [.one, .par 0, .par 1, .zero, .par 2, .ff, .ff]⟩,
  ⟨.matmul, [.scal .s, .obj .dense .s true, .obj .dense .s true, .scal .s, .obj .dense .s false], .matmul_dense, .s, [.par 0, .par 1, .par 2, .par 3, .par 4, .ff, .ff]⟩,
  ⟨.matmul, [.obj .dense .s true, .obj .dense .s true, .obj (.viewDense .vec) .s false], .matmul_dense, .s, [.one, .par 0, .par 1, .zero, .par 2, .ff, .ff]⟩,
  ⟨.matmul, [.scal .s, .obj .dense .s true, .obj .dense .s true, .scal .s, .obj (.viewDense .vec) .s false], .matmul_dense, .s, [.par 0, .par 1, .par 2, .par 3, .par 4, .ff, .ff]⟩,
  ⟨.matmul, [.obj .dense .s true, .obj .dense .s true, .obj (.viewDense .mat) .s false], .matmul_dense, .s, [.one, .par 0, .par 1, .zero, .par 2, .ff, .ff]⟩,
  ⟨.matmul, [.scal .s, .obj .dense .s true, .obj .dense .s true, .scal .s, .obj (.viewDense .mat) .s false], .matmul_dense, .s, [.par 0, .par 1, .par 2, .par 3, .par 4, .ff, .ff]⟩,
  ⟨.matmul, [.obj .dense .s true, .obj .dense .s true, .obj (.viewDense .ten) .s false], .matmul_dense, .s, [.one, .par 0, .par 1, .zero, .par 2, .ff, .ff]⟩,
  ⟨.matmul, [.scal .s, .obj .dense .s true, .obj .dense .s true, .scal .s, .obj (.viewDense .ten) .s false], .matmul_dense, .s, [.par 0, .par 1, .par 2, .par 3, .par 4, .ff, .ff]⟩,
  ⟨.matmul, [.obj .dense .s true, .obj (.viewDense .vec) .s true, .obj .dense .s false], .matmul_dense, .s, [.one, .par 0, .par 1, .zero, .par 2, .ff, .ff]⟩,
  ⟨.matmul, [.scal .s, .obj .dense .s true, .obj (.viewDense .vec) .s true, .scal .s, .obj .dense .s false], .matmul_dense, .s, [.par 0, .par 1, .par 2, .par 3, .par 4, .ff, .ff]⟩,
  ⟨.matmul, [.obj .dense .s true, .obj (.viewDense .vec) .s true, .obj (.viewDense .vec) .s false], .matmul_dense, .s, [.one, .par 0, .par 1, .zero, .par 2, .ff, .ff]⟩,
  ⟨.matmul, [.scal .s, .obj .dense .s true, .obj (.viewDense .vec) .s true, .scal .s, .obj (.viewDense .vec) .s false], .matmul_dense, .s, [.par 0, .par 1, .par 2, .par 3, .par 4, .ff, .ff]⟩,
  ⟨.matmul, [.obj .dense .s true, .obj (.viewDense .vec) .s true, .obj (.viewDense .mat) .s false], .matmul_dense, .s, [.one, .par 0, .par 1, .zero, .par 2, .ff, .ff]⟩,
  ⟨.matmul, [.scal .s, .obj .dense .s true, .obj (.viewDense .vec) .s true, .scal .s, .obj (.viewDense .mat) .s false], .matmul_dense, .s, [.par 0, .par 1, .par 2, .par 3, .par 4, .ff, .ff]⟩,
  ⟨.matmul, [.obj .dense .s true, .obj (.viewDense .vec) .s true, .obj (.viewDense .ten) .s false], .matmul_dense, .s, [.one, .par 0, .par 1, .zero, .par 2, .ff, .ff]⟩,
  ⟨.matmul, [.scal .s, .obj .dense .s true, .obj (.viewDense .vec) .s true, .scal .s, .obj (.viewDense .ten) .s false], .matmul_dense, .s, [.par 0, .par 1, .par 2, .par 3, .par 4, .ff, .ff]⟩,
  ⟨.matmul, [.obj .dense .s true, .obj (.viewDense .mat) .s true, .obj .dense .s false], .matmul_dense, .s, [.one, .par 0, .par 1, .zero, .par 2, .ff, .ff]⟩,
  ⟨.matmul, [.scal .s, .obj .dense .s true, .obj (.viewDense .mat) .s true, .scal .s, .obj .dense .s false], .matmul_dense, .s, [.par 0, .par 1, .par 2, .par 3, .par 4, .ff, .ff]⟩,
  ⟨.matmul, [.obj .dense .s true, .obj (.viewDense .mat) .s true, .obj (.viewDense .vec) .s false], .matmul_dense, .s, [.one, .par 0, .par 1, .zero, .par 2, .ff, .ff]⟩,
  ⟨.matmul, [.scal .s, .obj .dense .s true, .obj (.viewDense .mat) .s true, .scal .s, .obj (.viewDense .vec) .s false], .matmul_dense, .s, [.par 0, .par 1, .par 2, .par 3, .par 4, .ff, .ff]⟩,
  ⟨.matmul, [.obj .dense .s true, .obj (.viewDense .mat) .s true, .obj (.viewDense .mat) .s false], .matmul_dense, .s, [.one, .par 0, .par 1, .zero, .par 2, .ff, .ff]⟩,
  ⟨.matmul, [.scal .s, .obj .dense .s true, .obj (.viewDense .mat) .s true, .scal .s, .obj (.viewDense .mat) .s false], .matmul_dense, .s, [.par 0, .par 1, .par 2, .par 3, .par 4, .ff, .ff]⟩,
  ⟨.matmul, [.obj .dense .s true, .obj (.viewDense .mat) .s true, .obj (.viewDense .ten) .s false], .matmul_dense, .s, [.one, .par 0, .par 1, .zero, .par 2, .ff, .ff]⟩,
  ⟨.matmul, [.scal .s, .obj .dense .s true, .obj (.viewDense .mat) .s true, .scal .s, .obj (.viewDense .ten) .s false], .matmul_dense, .s, [.par 0, .par 1, .par 2, .par 3, .par 4, .ff, .ff]⟩,
  ⟨.matmul, [.obj .dense .s true, .obj (.viewDense .ten) .s true, .obj .dense .s false], .matmul_dense, .s, [.one, .par 0, .par 1, .zero, .par 2, .ff, .ff]⟩,
  ⟨.matmul, [.scal .s, .obj .dense .s true, .obj (.viewDense .ten) .s true, .scal .s, .obj .dense .s false], .matmul_dense, .s, [.par 0, .par 1, .par 2, .par 3, .par 4, .ff, .ff]⟩,
  ⟨.matmul, [.obj .dense .s true, .obj (.viewDense .ten) .s true, .obj (.viewDense .vec) .s false], .matmul_dense, .s, [.one, .par 0, .par 1, .zero, .par 2, .ff, .ff]⟩,
  ⟨.matmul, [.scal .s, .obj .dense .s true, .obj (.viewDense .ten) .s true, .scal .s, .obj (.viewDense .vec) .s false], .matmul_dense, .s, [.par 0, .par 1, .par 2, .par 3, .par 4, .ff, .ff]⟩,
  ⟨.matmul, [.obj .dense .s true, .obj (.viewDense .ten) .s true, .obj (.viewDense .mat) .s false], .matmul_dense, .s, [.one, .par 0, .par 1, .zero, .par 2, .ff, .ff]⟩,
  ⟨.matmul, [.scal .s, .obj .dense .s true, .obj (.viewDense .ten) .s true, .scal .s, .obj (.viewDense .mat) .s false], .matmul_dense, .s, [.par 0, .par 1, .par 2, .par 3, .par 4, .ff, .ff]⟩,
  ⟨.matmul, [.obj .dense .s true, .obj (.viewDense .ten) .s true, .obj (.viewDense .ten) .s false], .matmul_dense, .s, [.one, .par 0, .par 1, .zero, .par 2, .ff, .ff]⟩,
  ⟨.matmul, [.scal .s, .obj .dense .s true, .obj (.viewDense .ten) .s true, .scal .s, .obj (.viewDense .ten) .s false], .matmul_dense, .s, [.par 0, .par 1, .par 2, .par 3, .par 4, .ff, .ff]⟩]

/-- src/blas/matrix/matmul/matmul_blas.cpp:820-1224 -/
def tMatmul_2 : List Overload := [
  ⟨.matmul, [.obj (.viewDense .vec) .s true, .obj .dense .s true, .obj .dense .s false], .matmul_dense, .s, [.one, .par 0, .par 1, .zero, .par 2, .ff, .ff]⟩,
  ⟨.matmul, [.scal .s, .obj (.viewDense .vec) .s true, .obj .dense .s true, .scal .s, .obj .dense .s false], .matmul_dense, .s, [.par 0, .par 1, .par 2, .par 3, .par 4, .ff, .ff]⟩,
  ⟨.matmul, [.obj (.viewDense .vec) .s true, .obj .dense .s true, .obj (.viewDense .vec) .s false], .matmul_dense, .s, [.one, .par 0, .par 1, .zero, .par 2, .ff, .ff]⟩,
  ⟨.matmul, [.scal .s, .obj (.viewDense .vec) .s true, .obj .dense .s true, .scal .s, .obj (.viewDense .vec) .s false], .matmul_dense, .s, [.par 0, .par 1, .par 2, .par 3, .par 4, .ff, .ff]⟩,
  ⟨.matmul, [.obj (.viewDense .vec) .s true, .obj .dense .s true, .obj (.viewDense .mat) .s false], .matmul_dense, .s, [.one, .par 0, .par 1, .zero, .par 2, .ff, .ff]⟩,
  ⟨.matmul, [.scal .s, .obj (.viewDense .vec) .s true, .obj .dense .s true, .scal .s, .obj (.viewDense .mat) .s false], .matmul_dense, .s, [.par 0, .par 1, .par 2, .par 3, .par 4, .ff, .ff]⟩,
  ⟨.matmul, [.obj (.viewDense .vec) .s true, .obj .dense .s true, .obj (.viewDense .ten) .s false], .matmul_dense, .s, [.one, .par 0, .par 1, .zero, .par 2, .ff, .ff]⟩,
  ⟨.matmul, [.scal .s, .obj (.viewDense .vec) .s true, .obj .dense .s true, .scal .s, .obj (.viewDense .ten) .s false], .matmul_dense, .s, [.par 0, .par 1, .par 2, .par 3, .par 4, .ff, .ff]⟩,
  ⟨.matmul, [.obj (.viewDense .vec) .s true, .obj (.viewDense .vec) .s true, .obj .dense .s false], .matmul_dense, .s, [.one, .par 0, .par 1, .zero, .par 2, .ff, .ff]⟩,
  ⟨.matmul, [.scal .s, .obj (.viewDense .vec) .s true, .obj (.viewDense .vec) .s true, .scal .s, .obj .dense .s false], .matmul_dense, .s, [.par 0, .par 1, .par 2, .par 3, .par 4, .ff, .ff]⟩,
  ⟨.matmul, [.obj (.viewDense .vec) .s true, .obj (.viewDense .vec) .s true, .obj (.viewDense .vec) .s false], .matmul_dense, .s, [.one, .par 0, .par 1, .zero, .par 2, .ff, .ff]⟩,
  ⟨.matmul, [.scal .s, .obj (.viewDense .vec) .s true, .obj (.viewDense .vec) .s true, .scal .s, .obj (.viewDense .vec) .s false], .matmul_dense, .s, [.par 0, .par 1, .par 2, .par 3, .par 4, .ff, .ff]⟩,
  ⟨.matmul, [.obj (.viewDense .vec) .s true, .obj (.viewDense .vec) .s true, .obj (.viewDense .mat) .s false], .matmul_dense, .s, [.one, .par 0, .par 1, .zero, .par 2, .ff, .ff]⟩,
  ⟨.matmul, [.scal .s, .obj (.viewDense .vec) .s true, .obj (.viewDense .vec) .s true, .scal .s, .obj (.viewDense .mat) .s false], .matmul_dense, .s, [.par 0, .par 1, .par 2, .par 3, .par 4, .ff, .ff]⟩,
  ⟨.matmul, [.obj (.viewDense .vec) .s true, .obj (.viewDense .vec) .s true, .obj (.viewDense .ten) .s false], .matmul_dense, .s, [.one, .par 0, .par 1, .zero, .par 2, .ff, .ff]⟩,
  ⟨.matmul, [.scal .s, .obj (.viewDense .vec) .s true, .obj (.viewDense .vec) .s true, .scal .s, .obj (.viewDense .ten) .s false], .matmul_dense, .s, [.par 0, .par 1, .par 2, .par 3, .par 4, .ff, .ff]⟩,
  ⟨.matmul, [.obj (.viewDense .vec) .s true, .obj (.viewDense .mat) .s true, .obj .dense .s false], .matmul_dense, .s, [.one, .par 0, .par 1, .zero, .par 2, .ff, .ff]⟩,
  ⟨.matmul, [.scal .s, .obj (.viewDense .vec) .s true, .obj (.viewDense .mat) .s true, .scal .s, .obj .dense .s false], .matmul_dense, .s, [.par 0, .par 1, .par 2, .par 3, .par 4, .ff, .ff]⟩,
  ⟨.matmul, [.obj (.viewDense .vec) .s true, .obj (.viewDense .mat) .s true, .obj (.viewDense .vec) .s false], .matmul_dense, .s, [.one, .par 0, .par 1, .zero, .par 2, .ff, .ff]⟩,
  ⟨.matmul, [.scal .s, .obj (.viewDense .vec) .s true, .obj (.viewDense .mat) .s true, .scal .s, .obj (.viewDense .vec) .s false], .matmul_dense, .s, [.par 0, .par 1, .par 2, .par 3, .par 4, .ff, .ff]⟩,
  ⟨.matmul, [.obj (.viewDense .vec) .s true, .obj (.viewDense .mat) .s true, .obj (.viewDense .mat) .s false], .matmul_dense, .s, [.one, .par 0, .par 1, .zero, .par 2, .ff, .ff]⟩,
  ⟨.matmul, [.scal .s, .obj (.viewDense .vec) .s true, .obj (.viewDense .mat) .s true, .scal .s, .obj (.viewDense .mat) .s false], .matmul_dense, .s, [.par 0, .par 1, .par 2, .par 3, .par 4, .ff, .ff]⟩,
  ⟨.matmul, [.obj (.viewDense .vec) .s true, .obj (.viewDense .mat) .s true, .obj (.viewDense .ten) .s false], .matmul_dense, .s, [.one, .par 0, .par 1, .zero, .par 2, .ff, .ff]⟩,
  ⟨.matmul, [.scal .s, .obj (.viewDense .vec) .s true, .obj (.viewDense .mat) .s true, .scal .s, .obj (.viewDense .ten) .s false], .matmul_dense, .s, [.par 0, .par 1, .par 2, .par 3, .par 4, .ff, .ff]⟩,
  ⟨.matmul, [.obj (.viewDense .vec) .s true, .obj (.viewDense .ten) .s true, .obj .dense .s false], .matmul_dense, .s, [.one, .par 0, .par 1, .zero, .par 2, .ff, .ff]⟩,
  ⟨.matmul, [.scal .s, .obj (.viewDense .vec) .s true, .obj (.viewDense .ten) .s true, .scal .s, .obj .dense .s false], .matmul_dense, .s, [.par 0, .par 1, .par 2, .par 3, .par 4, .ff, .ff]⟩,
  ⟨.matmul, [.obj (.viewDense .vec) .s true, .obj (.viewDense .ten) .s true, .obj (.viewDense .vec) .s false], .matmul_dense, .s, [.one, .par 0, .par 1, .zero, .par 2, .ff, .ff]⟩,
  ⟨.matmul, [.scal .s, .obj (.viewDense .vec) .s true, .obj (.viewDense .ten) .s true, .scal .s, .obj (.viewDense .vec) .s false], .matmul_dense, .s, [.par 0, .par 1, .par 2, .par 3, .par 4, .ff, .ff]⟩,
  ⟨.matmul, [.obj (.viewDense .vec) .s true, .obj (.viewDense .ten) .s true, .obj (.viewDense .mat) .s false], .matmul_dense, .s, [.one, .par 0, .par 1, .zero, .par 2, .ff, .ff]⟩,
  ⟨.matmul, [.scal .s, .obj (.viewDense .vec) .s true, .obj (.viewDense .ten) .s true, .scal .s, .obj (.viewDense .mat) .s false], .matmul_dense, .s, [.par 0, .par 1, .par 2, .par 3, .par 4, .ff, .ff]⟩,
  ⟨.matmul, [.obj (.viewDense .vec) .s true, .obj (.viewDense .ten) .s true, .obj (.viewDense .ten) .s false], .matmul_dense, .s, [.one, .par 0, .par 1, .zero, .par 2, .ff, .ff]⟩,
  ⟨.matmul, [.scal .s, .obj (.viewDense .vec) .s true, .obj (.viewDense .ten) .s true, .scal .s, .obj (.viewDense .ten) .s false], .matmul_dense, .s, [.par 0, .par 1, .par 2, .par 3, .par 4, .ff, .ff]⟩,
  ⟨.matmul, [.obj (.viewDense .mat) .s true, .obj .dense .s true, .obj .dense .s false], .matmul_dense, .s, [.one, .par 0, .par 1, .zero, .par 2, .ff, .ff]⟩,
  ⟨.matmul, [.scal .s, .obj (.viewDense .mat) .s true, .obj .dense .s true, .scal .s, .obj .dense .s false], .matmul_dense, .s, [.par 0, .par 1, .par 2, .par 3, .par 4, .ff, .ff]⟩,
  ⟨.matmul, [.obj (.viewDense .mat) .s true, .obj .dense .s true, .obj (.viewDense .vec) .s false], .matmul_dense, .s, [.one, .par 0, .par 1, .zero, .par 2, .ff, .ff]⟩,
  ⟨.matmul, [.scal .s, .obj (.viewDense .mat) .s true, .obj .dense .s true, .scal .s, .obj (.viewDense .vec) .s false], .matmul_dense, .s, [.par 0, .par 1, .par 2, .par 3, .par 4, .ff, .ff]⟩,
  ⟨.matmul, [.obj (.viewDense .mat) .s true, .obj .dense .s true, .obj (.viewDense .mat) .s false], .matmul_dense, .s, [.one, .par 0, .par 1, .zero, .par 2, .ff, .ff]⟩,
  ⟨.matmul, [.scal .s, .obj (.viewDense .mat) .s true, .obj .dense .s true, .scal .s, .obj (.viewDense .mat) .s false], .matmul_dense, .s, [.par 0, .par 1, .par 2, .par 3, .par 4, .ff, .ff]⟩,
  ⟨.matmul, [.obj (.viewDense .mat) .s true, .obj .dense .s true, .obj (.viewDense .ten) .s false], .matmul_dense, .s, [.one, .par 0, .par 1, .zero, .par 2, .ff, .ff]⟩,
  ⟨.matmul, [.scal .s, .obj (.viewDense .mat) .s true, .obj .dense .s true, .scal .s, .obj (.viewDense .ten) .s false], .matmul_dense, .s, [.par 0, .par 1, .par 2, .par 3, .par 4, .ff, .ff]⟩,
  ⟨.matmul, [.obj (.viewDense .mat) .s true, .obj (.viewDense .vec) .s true, .obj .dense .s false], .matmul_dense, .s, [.one, .par 0, .par 1, .zero, .par 2, .ff, .ff]⟩,
  ⟨.matmul, [.scal .s, .obj (.viewDense .mat) .s true, .obj (.viewDense .vec) .s true, .scal .s, .obj .dense .s false], .matmul_dense, .s, [.par 0, .par 1, .par 2, .par 3, .par 4, .ff, .ff]⟩,
  ⟨.matmul, [.obj (.viewDense .mat) .s true, .obj (.viewDense .vec) .s true, .obj (.viewDense .vec) .s false], .matmul_dense, .s, [.one, .par 0, .par 1, .zero, .par 2, .ff, .ff]⟩,
  ⟨.matmul, [.scal .s, .obj (.viewDense .mat) .s true, .obj (.viewDense .vec) .s true, .scal .s, .obj (.viewDense .vec) .s false], .matmul_dense, .s, [.par 0, .par 1, .par 2, .par 3, .par 4, .ff, .ff]⟩,
  ⟨.matmul, [.obj (.viewDense .mat) .s true, .obj (.viewDense .vec) .s true, .obj (.viewDense .mat) .s false], .matmul_dense, .s, [.one, .par 0, .par 1, .zero, .par 2, .ff, .ff]⟩,
  ⟨.matmul, [.scal .s, .obj (.viewDense .mat) .s true, .obj (.viewDense .vec) .s true, .scal .s, .obj (.viewDense .mat) .s false], .matmul_dense, .s, [.par 0, .par 1, .par 2, .par 3, .par 4, .ff, .ff]⟩,
  ⟨.matmul, [.obj (.viewDense .mat) .s true, .obj (.viewDense .vec) .s true, .obj (.viewDense .ten) .s false], .matmul_dense, .s, [.one, .par 0, .par 1, .zero, .par 2, .ff, .ff]⟩,
  ⟨.matmul, [.scal .s, .obj (.viewDense .mat) .s true, .obj (.viewDense .vec) .s true, .scal .s, .obj (.viewDense .ten) .s false], .matmul_dense, .s, [.par 0, .par 1, .par 2, .par 3, .par 4, .ff, .ff]⟩,
  ⟨.matmul, [.obj (.viewDense .mat) .s true, .obj (.viewDense .mat) .s true, .obj .dense .s false], .matmul_dense, .s, [.one, .par 0, .par 1, .zero, .par 2, .ff, .ff]⟩,
  ⟨.matmul, [.scal .s, .obj (.viewDense .mat) .s true, .obj (.viewDense .mat) .s true, .scal .s, .obj .dense .s false], .matmul_dense, .s, [.par 0, .par 1, .par 2, .par 3, .par 4, .ff, .ff]⟩,
  ⟨.matmul, [.obj (.viewDense .mat) .s true, .obj (.viewDense .mat) .s true, .obj (.viewDense .vec) .s false], .matmul_dense, .s, [.one, .par 0, .par 1, .zero, .par 2, .ff, .ff]⟩,
  ⟨.matmul, [.scal .s, .obj (.viewDense .mat) .s true, .obj (.viewDense .mat) .s true, .scal .s, .obj (.viewDense .vec) .s false], .matmul_dense, .s, [.par 0, .par 1, .par 2, .par 3, .par 4, .ff, .ff]⟩,
  ⟨.matmul, [.obj (.viewDense .mat) .s true, .obj (.viewDense .mat) .s true, .obj (.viewDense .mat) .s false], .matmul_dense, .s, [.one, .par 0, .par 1, .zero, .par 2, .ff, .ff]⟩,
  ⟨.matmul, [.scal .s, .obj (.viewDense .mat) .s true, .obj (.viewDense .mat) .s true, .scal .s, .obj (.viewDense .mat) .s false], .matmul_dense, .s, [.par 0, .par 1, .par 2, .par 3, .par 4, .ff, .ff]⟩,
  ⟨.matmul, [.obj (.viewDense .mat) .s true, .obj (.viewDense .mat) .s true, .obj (.viewDense .ten) .s false], .matmul_dense, .s, [.one, .par 0, .par 1, .zero, .par 2, .ff, .ff]⟩,
  ⟨.matmul, [.scal .s, .obj (.viewDense .mat) .s true, .obj (.viewDense .mat) .s true, .scal .s, .obj (.viewDense .ten) .s false], .matmul_dense, .s, [.par 0, .par 1, .par 2, .par 3, .par 4, .ff, .ff]⟩,
  ⟨.matmul, [.obj (.viewDense .mat) .s true, .obj (.viewDense .ten) .s true, .obj .dense .s false], .matmul_dense, .s, [.one, .par 0, .par 1, .zero, .par 2, .ff, .ff]⟩,
  ⟨.matmul, [.scal .s, .obj (.viewDense .mat) .s true, .obj (.viewDense .ten) .s true, .scal .s, .obj .dense .s false], .matmul_dense, .s, [.par 0, .par 1, .par 2, .par 3, .par 4, .ff, .ff]⟩,
  ⟨.matmul, [.obj (.viewDense .mat) .s true, .obj (.viewDense .ten) .s true, .obj (.viewDense .vec) .s false], .matmul_dense, .s, [.one, .par 0, .par 1, .zero, .par 2, .ff, .ff]⟩,
  ⟨.matmul, [.scal .s, .obj (.viewDense .mat) .s true, .obj (.viewDense .ten) .s true, .scal .s, .obj (.viewDense .vec) .s false], .matmul_dense, .s, [.par 0, .par 1, .par 2, .par 3, .par 4, .ff, .ff]⟩,
  ⟨.matmul, [.obj (.viewDense .mat) .s true, .obj (.viewDense .ten) .s true, .obj (.viewDense .mat) .s false], .matmul_dense, .s, [.one, .par 0, .par 1, .zero, .par 2, .ff, .ff]⟩,
  ⟨.matmul, [.scal .s, .obj (.viewDense .mat) .s true, .obj (.viewDense .ten) .s true, .scal .s, .obj (.viewDense .mat) .s false], .matmul_dense, .s, [.par 0, .par 1, .par 2, .par 3, .par 4, .ff, .ff]⟩,
  ⟨.matmul, [.obj (.viewDense .mat) .s true, .obj (.viewDense .ten) .s true, .obj (.viewDense .ten) .s false], .matmul_dense, .s, [.one, .par 0, .par 1, .zero, .par 2, .ff, .ff]⟩,
  ⟨.matmul, [.scal .s, .obj (.viewDense .mat) .s true, .obj (.viewDense .ten) .s true, .scal .s, .obj (.viewDense .ten) .s false], .matmul_dense, .s, [.par 0, .par 1, .par 2, .par 3, .par 4, .ff, .ff]⟩,
  ⟨.matmul, [.obj (.viewDense .ten) .s true, .obj .dense .s true, .obj .dense .s false], .matmul_dense, .s, [.one, .par 0, .par 1, .zero, .par 2, .ff, .ff]⟩,
  ⟨.matmul, [.scal .s, .obj (.viewDense .ten) .s true, .obj .dense .s true, .scal .s, .obj .dense .s false], .matmul_dense, .s, [.par 0, .par 1, .par 2, .par 3, .par 4, .ff, .ff]⟩,
  ⟨.matmul, [.obj (.viewDense .ten) .s true, .obj .dense .s true, .obj (.viewDense .vec) .s false], .matmul_dense, .s, [.one, .par 0, .par 1, .zero, .par 2, .ff, .ff]⟩,
  ⟨.matmul, [.scal .s, .obj (.viewDense .ten) .s true, .obj .dense .s true, .scal .s, .obj (.viewDense .vec) .s false], .matmul_dense, .s, [.par 0, .par 1, .par 2, .par 3, .par 4, .ff, .ff]⟩,
  ⟨.matmul, [.obj (.viewDense .ten) .s true, .obj .dense .s true, .obj (.viewDense .mat) .s false], .matmul_dense, .s, [.one, .par 0, .par 1, .zero, .par 2, .ff, .ff]⟩,
  ⟨.matmul, [.scal .s, .obj (.viewDense .ten) .s true, .obj .dense .s true, .scal .s, .obj (.viewDense .mat) .s false], .matmul_dense, .s, [.par 0, .par 1, .par 2, .par 3, .par 4, .ff, .ff]⟩,
  ⟨.matmul, [.obj (.viewDense .ten) .s true, .obj .dense .s true, .obj (.viewDense .ten) .s false], .matmul_dense, .s, [.one, .par 0, .par 1, .zero, .par 2, .ff, .ff]⟩,
  ⟨.matmul, [.scal .s, .obj (.viewDense .ten) .s true, .obj .dense .s true, .scal .s, .obj (.viewDense .ten) .s false], .matmul_dense, .s, [.par 0, .par 1, .par 2, .par 3, .par 4, .ff, .ff]⟩,
  ⟨.matmul, [.obj (.viewDense .ten) .s true, .obj (.viewDense .vec) .s true, .obj .dense .s false], .matmul_dense, .s, [.one, .par 0, .par 1, .zero, .par 2, .ff, .ff]⟩,
  ⟨.matmul, [.scal .s, .obj (.viewDense .ten) .s true, .obj (.viewDense .vec) .s true, .scal .s, .obj .dense .s false], .matmul_dense, .s, [.par 0, .par 1, .par 2, .par 3, .par 4, .ff, .ff]⟩,
  ⟨.matmul, [.obj (.viewDense .ten) .s true, .obj (.viewDense .vec) .s true, .obj (.viewDense .vec) .s false], .matmul_dense, .s, [.one, .par 0, .par 1, .zero, .par 2, .ff, .ff]⟩,
  ⟨.matmul, [.scal .s, .obj (.viewDense .ten) .s true, .obj (.viewDense .vec) .s true, .scal .s, .obj (.viewDense .vec) .s false], .matmul_dense, .s, [.par 0, .par 1, .par 2, .par 3, .par 4, .ff, .ff]⟩,
  ⟨.matmul, [.obj (.viewDense .ten) .s true, .obj (.viewDense .vec) .s true, .obj (.viewDense .mat) .s false], .matmul_dense, .s, [.one, .par 0, .par 1, .zero, .par 2, .ff, .ff]⟩,
  ⟨.matmul, [.scal .s, .obj (.viewDense .ten) .s true, .obj (.viewDense .vec) .s true, .scal .s, .obj (.viewDense .mat) .s false], .matmul_dense, .s, [.par 0, .par 1, .par 2, .par 3, .par 4, .ff, .ff]⟩,
  ⟨.matmul, [.obj (.viewDense .ten) .s true, .obj (.viewDense .vec) .s true, .obj (.viewDense .ten) .s false], .matmul_dense, .s, [.one, .par 0, .par 1, .zero, .par 2, .ff, .ff]⟩,
  ⟨.matmul, [.scal .s, .obj (.viewDense .ten) .s true, .obj (.viewDense .vec) .s true, .scal .s, .obj (.viewDense .ten) .s false], .matmul_dense, .s, [.par 0, .par 1, .par 2, .par 3, .par 4, .ff, .ff]⟩]

/-- src/blas/matrix/matmul/matmul_blas.cpp:1225-1626 -/
def tMatmul_3 : List Overload := [
  ⟨.matmul, [.obj (.viewDense .ten) .s true, .obj (.viewDense .mat) .s true, .obj .dense .s false], .matmul_dense, .s, [.one, .par 0, .par 1, .zero, .par 2, .ff, .ff]⟩,
  ⟨.matmul, [.scal .s, .obj (.viewDense .ten) .s true, .obj (.viewDense .mat) .s true, .scal .s, .obj .dense .s false], .matmul_dense, .s, [.par 0, .par 1, .par 2, .par 3, .par 4, .ff, .ff]⟩,
  ⟨.matmul, [.obj (.viewDense .ten) .s true, .obj (.viewDense .mat) .s true, .obj (.viewDense .vec) .s false], .matmul_dense, .s, [.one, .par 0, .par 1, .zero, .par 2, .ff, .ff]⟩,
  ⟨.matmul, [.scal .s, .obj (.viewDense .ten) .s true, .obj (.viewDense .mat) .s true, .scal .s, .obj (.viewDense .vec) .s false], .matmul_dense, .s, [.par 0, .par 1, .par 2, .par 3, .par 4, .ff, .ff]⟩,
  ⟨.matmul, [.obj (.viewDense .ten) .s true, .obj (.viewDense .mat) .s true, .obj (.viewDense .mat) .s false], .matmul_dense, .s, [.one, .par 0, .par 1, .zero, .par 2, .ff, .ff]⟩,
  ⟨.matmul, [.scal .s, .obj (.viewDense .ten) .s true, .obj (.viewDense .mat) .s true, .scal .s, .obj (.viewDense .mat) .s false], .matmul_dense, .s, [.par 0, .par 1, .par 2, .par 3, .par 4, .ff, .ff]⟩,
  ⟨.matmul, [.obj (.viewDense .ten) .s true, .obj (.viewDense .mat) .s true, .obj (.viewDense .ten) .s false], .matmul_dense, .s, [.one, .par 0, .par 1, .zero, .par 2, .ff, .ff]⟩,
  ⟨.matmul, [.scal .s, .obj (.viewDense .ten) .s true, .obj (.viewDense .mat) .s true, .scal .s, .obj (.viewDense .ten) .s false], .matmul_dense, .s, [.par 0, .par 1, .par 2, .par 3, .par 4, .ff, .ff]⟩,
  ⟨.matmul, [.obj (.viewDense .ten) .s true, .obj (.viewDense .ten) .s true, .obj .dense .s false], .matmul_dense, .s, [.one, .par 0, .par 1, .zero, .par 2, .ff, .ff]⟩,
  ⟨.matmul, [.scal .s, .obj (.viewDense .ten) .s true, .obj (.viewDense .ten) .s true, .scal .s, .obj .dense .s false], .matmul_dense, .s, [.par 0, .par 1, .par 2, .par 3, .par 4, .ff, .ff]⟩,
  ⟨.matmul, [.obj (.viewDense .ten) .s true, .obj (.viewDense .ten) .s true, .obj (.viewDense .vec) .s false], .matmul_dense, .s, [.one, .par 0, .par 1, .zero, .par 2, .ff, .ff]⟩,
  ⟨.matmul, [.scal .s, .obj (.viewDense .ten) .s true, .obj (.viewDense .ten) .s true, .scal .s, .obj (.viewDense .vec) .s false], .matmul_dense, .s, [.par 0, .par 1, .par 2, .par 3, .par 4, .ff, .ff]⟩,
  ⟨.matmul, [.obj (.viewDense .ten) .s true, .obj (.viewDense .ten) .s true, .obj (.viewDense .mat) .s false], .matmul_dense, .s, [.one, .par 0, .par 1, .zero, .par 2, .ff, .ff]⟩,
  ⟨.matmul, [.scal .s, .obj (.viewDense .ten) .s true, .obj (.viewDense .ten) .s true, .scal .s, .obj (.viewDense .mat) .s false], .matmul_dense, .s, [.par 0, .par 1, .par 2, .par 3, .par 4, .ff, .ff]⟩,
  ⟨.matmul, [.obj (.viewDense .ten) .s true, .obj (.viewDense .ten) .s true, .obj (.viewDense .ten) .s false], .matmul_dense, .s, [.one, .par 0, .par 1, .zero, .par 2, .ff, .ff]⟩,
  ⟨.matmul, [.scal .s, .obj (.viewDense .ten) .s true, .obj (.viewDense .ten) .s true, .scal .s, .obj (.viewDense .ten) .s false], .matmul_dense, .s, [.par 0, .par 1, .par 2, .par 3, .par 4, .ff, .ff]⟩,
  ⟨.matmul, [.obj .crs .d true, .obj .dense .d true, .obj .dense .d false], .matmul_crs, .d, [.one, .par 0, .par 1, .zero, .par 2]⟩,
  ⟨.matmul, [.scal .d, .obj .crs .d true, .obj .dense .d true, .scal .d, .obj .dense .d false], .matmul_crs, .d, [.par 0, .par 1, .par 2, .par 3, .par 4]⟩,
  ⟨.matmul, [.obj .crs .d true, .obj .dense .d true, .obj (.viewDense .vec) .d false], .matmul_crs, .d, [.one, .par 0, .par 1, .zero, .par 2]⟩,
  ⟨.matmul, [.scal .d, .obj .crs .d true, .obj .dense .d true, .scal .d, .obj (.viewDense .vec) .d false], .matmul_crs, .d, [.par 0, .par 1, .par 2, .par 3, .par 4]⟩,
  ⟨.matmul, [.obj .crs .d true, .obj .dense .d true, .obj (.viewDense .mat) .d false], .matmul_crs, .d, [.one, .par 0, .par 1, .zero, .par 2]⟩,
  ⟨.matmul, [.scal .d, .obj .crs .d true, .obj .dense .d true, .scal .d, .obj (.viewDense .mat) .d false], .matmul_crs, .d, [.par 0, .par 1, .par 2, .par 3, .par 4]⟩,
  ⟨.matmul, [.obj .crs .d true, .obj .dense .d true, .obj (.viewDense .ten) .d false], .matmul_crs, .d, [.one, .par 0, .par 1, .zero, .par 2]⟩,
  ⟨.matmul, [.scal .d, .obj .crs .d true, .obj .dense .d true, .scal .d, .obj (.viewDense .ten) .d false], .matmul_crs, .d, [.par 0, .par 1, .par 2, .par 3, .par 4]⟩,
  ⟨.matmul, [.obj .crs .d true, .obj (.viewDense .vec) .d true, .obj .dense .d false], .matmul_crs, .d, [.one, .par 0, .par 1, .zero, .par 2]⟩,
  ⟨.matmul, [.scal .d, .obj .crs .d true, .obj (.viewDense .vec) .d true, .scal .d, .obj .dense .d false], .matmul_crs, .d, [.par 0, .par 1, .par 2, .par 3, .par 4]⟩,
  ⟨.matmul, [.obj .crs .d true, .obj (.viewDense .vec) .d true, .obj (.viewDense .vec) .d false], .matmul_crs, .d, [.one, .par 0, .par 1, .zero, .par 2]⟩,
  ⟨.matmul, [.scal .d, .obj .crs .d true, .obj (.viewDense .vec) .d true, .scal .d, .obj (.viewDense .vec) .d false], .matmul_crs, .d, [.par 0, .par 1, .par 2, .par 3, .par 4]⟩,
  ⟨.matmul, [.obj .crs .d true, .obj (.viewDense .vec) .d true, .obj (.viewDense .mat) .d false], .matmul_crs, .d, [.one, .par 0, .par 1, .zero, .par 2]⟩,
  ⟨.matmul, [.scal .d, .obj .crs .d true, .obj (.viewDense .vec) .d true, .scal .d, .obj (.viewDense .mat) .d false], .matmul_crs, .d, [.par 0, .par 1, .par 2, .par 3, .par 4]⟩,
  ⟨.matmul, [.obj .crs .d true, .obj (.viewDense .vec) .d true, .obj (.viewDense .ten) .d false], .matmul_crs, .d, [.one, .par 0, .par 1, .zero, .par 2]⟩,
  ⟨.matmul, [.scal .d, .obj .crs .d true, .obj (.viewDense .vec) .d true, .scal .d, .obj (.viewDense .ten) .d false], .matmul_crs, .d, [.par 0, .par 1, .par 2, .par 3, .par 4]⟩,
  ⟨.matmul, [.obj .crs .d true, .obj (.viewDense .mat) .d true, .obj .dense .d false], .matmul_crs, .d, [.one, .par 0, .par 1, .zero, .par 2]⟩,
  ⟨.matmul, [.scal .d, .obj .crs .d true, .obj (.viewDense .mat) .d true, .scal .d, .obj .dense .d false], .matmul_crs, .d, [.par 0, .par 1, .par 2, .par 3, .par 4]⟩,
  ⟨.matmul, [.obj .crs .d true, .obj (.viewDense .mat) .d true, .obj (.viewDense .vec) .d false], .matmul_crs, .d, [.one, .par 0, .par 1, .zero, .par 2]⟩,
  ⟨.matmul, [.scal .d, .obj .crs .d true, .obj (.viewDense .mat) .d true, .scal .d, .obj (.viewDense .vec) .d false], .matmul_crs, .d, [.par 0, .par 1, .par 2, .par 3, .par 4]⟩,
  ⟨.matmul, [.obj .crs .d true, .obj (.viewDense .mat) .d true, .obj (.viewDense .mat) .d false], .matmul_crs, .d, [.one, .par 0, .par 1, .zero, .par 2]⟩,
  ⟨.matmul, [.scal .d, .obj .crs .d true, .obj (.viewDense .mat) .d true, .scal .d, .obj (.viewDense .mat) .d false], .matmul_crs, .d, [.par 0, .par 1, .par 2, .par 3, .par 4]⟩,
  ⟨.matmul, [.obj .crs .d true, .obj (.viewDense .mat) .d true, .obj (.viewDense .ten) .d false], .matmul_crs, .d, [.one, .par 0, .par 1, .zero, .par 2]⟩,
  ⟨.matmul, [.scal .d, .obj .crs .d true, .obj (.viewDense .mat) .d true, .scal .d, .obj (.viewDense .ten) .d false], .matmul_crs, .d, [.par 0, .par 1, .par 2, .par 3, .par 4]⟩,
  ⟨.matmul, [.obj .crs .d true, .obj (.viewDense .ten) .d true, .obj .dense .d false], .matmul_crs, .d, [.one, .par 0, .par 1, .zero, .par 2]⟩,
  ⟨.matmul, [.scal .d, .obj .crs .d true, .obj (.viewDense .ten) .d true, .scal .d, .obj .dense .d false], .matmul_crs, .d, [.par 0, .par 1, .par 2, .par 3, .par 4]⟩,
  ⟨.matmul, [.obj .crs .d true, .obj (.viewDense .ten) .d true, .obj (.viewDense .vec) .d false], .matmul_crs, .d, [.one, .par 0, .par 1, .zero, .par 2]⟩,
  ⟨.matmul, [.scal .d, .obj .crs .d true, .obj (.viewDense .ten) .d true, .scal .d, .obj (.viewDense .vec) .d false], .matmul_crs, .d, [.par 0, .par 1, .par 2, .par 3, .par 4]⟩,
  ⟨.matmul, [.obj .crs .d true, .obj (.viewDense .ten) .d true, .obj (.viewDense .mat) .d false], .matmul_crs, .d, [.one, .par 0, .par 1, .zero, .par 2]⟩,
  ⟨.matmul, [.scal .d, .obj .crs .d true, .obj (.viewDense .ten) .d true, .scal .d, .obj (.viewDense .mat) .d false], .matmul_crs, .d, [.par 0, .par 1, .par 2, .par 3, .par 4]⟩,
  ⟨.matmul, [.obj .crs .d true, .obj (.viewDense .ten) .d true, .obj (.viewDense .ten) .d false], .matmul_crs, .d, [.one, .par 0, .par 1, .zero, .par 2]⟩,
  ⟨.matmul, [.scal .d, .obj .crs .d true, .obj (.viewDense .ten) .d true, .scal .d, .obj (.viewDense .ten) .d false], .matmul_crs, .d, [.par 0, .par 1, .par 2, .par 3, .par 4]⟩,
  ⟨.matmul, [.obj .crs .s true, .obj .dense .s true, .obj .dense .s false], .matmul_crs, .s, [.one, .par 0, .par 1, .zero, .par 2]⟩,
  ⟨.matmul, [.scal .s, .obj .crs .s true, .obj .dense .s true, .scal .s, .obj .dense .s false], .matmul_crs, .s, [.par 0, .par 1, .par 2, .par 3, .par 4]⟩,
  ⟨.matmul, [.obj .crs .s true, .obj .dense .s true, .obj (.viewDense .vec) .s false], .matmul_crs, .s, [.one, .par 0, .par 1, .zero, .par 2]⟩,
  ⟨.matmul, [.scal .s, .obj .crs .s true, .obj .dense .s true, .scal .s, .obj (.viewDense .vec) .s false], .matmul_crs, .s, [.par 0, .par 1, .par 2, .par 3, .par 4]⟩,
  ⟨.matmul, [.obj .crs .s true, .obj .dense .s true, .obj (.viewDense .mat) .s false], .matmul_crs, .s, [.one, .par 0, .par 1, .zero, .par 2]⟩,
  ⟨.matmul, [.scal .s, .obj .crs .s true, .obj .dense .s true, .scal .s, .obj (.viewDense .mat) .s false], .matmul_crs, .s, [.par 0, .par 1, .par 2, .par 3, .par 4]⟩,
  ⟨.matmul, [.obj .crs .s true, .obj .dense .s true, .obj (.viewDense .ten) .s false], .matmul_crs, .s, [.one, .par 0, .par 1, .zero, .par 2]⟩,
  ⟨.matmul, [.scal .s, .obj .crs .s true, .obj .dense .s true, .scal .s, .obj (.viewDense .ten) .s false], .matmul_crs, .s, [.par 0, .par 1, .par 2, .par 3, .par 4]⟩,
  ⟨.matmul, [.obj .crs .s true, .obj (.viewDense .vec) .s true, .obj .dense .s false], .matmul_crs, .s, [.one, .par 0, .par 1, .zero, .par 2]⟩,
  ⟨.matmul, [.scal .s, .obj .crs .s true, .obj (.viewDense .vec) .s true, .scal .s, .obj .dense .s false], .matmul_crs, .s, [.par 0, .par 1, .par 2, .par 3, .par 4]⟩,
  ⟨.matmul, [.obj .crs .s true, .obj (.viewDense .vec) .s true, .obj (.viewDense .vec) .s false], .matmul_crs, .s, [.one, .par 0, .par 1, .zero, .par 2]⟩,
  ⟨.matmul, [.scal .s, .obj .crs .s true, .obj (.viewDense .vec) .s true, .scal .s, .obj (.viewDense .vec) .s false], .matmul_crs, .s, [.par 0, .par 1, .par 2, .par 3, .par 4]⟩,
  ⟨.matmul, [.obj .crs .s true, .obj (.viewDense .vec) .s true, .obj (.viewDense .mat) .s false], .matmul_crs, .s, [.one, .par 0, .par 1, .zero, .par 2]⟩,
  ⟨.matmul, [.scal .s, .obj .crs .s true, .obj (.viewDense .vec) .s true, .scal .s, .obj (.viewDense .mat) .s false], .matmul_crs, .s, [.par 0, .par 1, .par 2, .par 3, .par 4]⟩,
  ⟨.matmul, [.obj .crs .s true, .obj (.viewDense .vec) .s true, .obj (.viewDense .ten) .s false], .matmul_crs, .s, [.one, .par 0, .par 1, .zero, .par 2]⟩,
  ⟨.matmul, [.scal .s, .obj .crs .s true, .obj (.viewDense .vec) .s true, .scal .s, .obj (.viewDense .ten) .s false], .matmul_crs, .s, [.par 0, .par 1, .par 2, .par 3, .par 4]⟩,
  ⟨.matmul, [.obj .crs .s true, .obj (.viewDense .mat) .s true, .obj .dense .s false], .matmul_crs, .s, [.one, .par 0, .par 1, .zero, .par 2]⟩,
  ⟨.matmul, [.scal .s, .obj .crs .s true, .obj (.viewDense .mat) .s true, .scal .s, .obj .dense .s false], .matmul_crs, .s, [.par 0, .par 1, .par 2, .par 3, .par 4]⟩,
  ⟨.matmul, [.obj .crs .s true, .obj (.viewDense .mat) .s true, .obj (.viewDense .vec) .s false], .matmul_crs, .s, [.one, .par 0, .par 1, .zero, .par 2]⟩,
  ⟨.matmul, [.scal .s, .obj .crs .s true, .obj (.viewDense .mat) .s true, .scal .s, .obj (.viewDense .vec) .s false], .matmul_crs, .s, [.par 0, .par 1, .par 2, .par 3, .par 4]⟩,
  ⟨.matmul, [.obj .crs .s true, .obj (.viewDense .mat) .s true, .obj (.viewDense .mat) .s false], .matmul_crs, .s, [.one, .par 0, .par 1, .zero, .par 2]⟩,
  ⟨.matmul, [.scal .s, .obj .crs .s true, .obj (.viewDense .mat) .s true, .scal .s, .obj (.viewDense .mat) .s false], .matmul_crs, .s, [.par 0, .par 1, .par 2, .par 3, .par 4]⟩,
  ⟨.matmul, [.obj .crs .s true, .obj (.viewDense .mat) .s true, .obj (.viewDense .ten) .s false], .matmul_crs, .s, [.one, .par 0, .par 1, .zero, .par 2]⟩,
  ⟨.matmul, [.scal .s, .obj .crs .s true, .obj (.viewDense .mat) .s true, .scal .s, .obj (.viewDense .ten) .s false], .matmul_crs, .s, [.par 0, .par 1, .par 2, .par 3, .par 4]⟩,
  ⟨.matmul, [.obj .crs .s true, .obj (.viewDense .ten) .s true, .obj .dense .s false], .matmul_crs, .s, [.one, .par 0, .par 1, .zero, .par 2]⟩,
  ⟨.matmul, [.scal .s, .obj .crs .s true, .obj (.viewDense .ten) .s true, .scal .s, .obj .dense .s false], .matmul_crs, .s, [.par 0, .par 1, .par 2, .par 3, .par 4]⟩,
  ⟨.matmul, [.obj .crs .s true, .obj (.viewDense .ten) .s true, .obj (.viewDense .vec) .s false], .matmul_crs, .s, [.one, .par 0, .par 1, .zero, .par 2]⟩,
  ⟨.matmul, [.scal .s, .obj .crs .s true, .obj (.viewDense .ten) .s true, .scal .s, .obj (.viewDense .vec) .s false], .matmul_crs, .s, [.par 0, .par 1, .par 2, .par 3, .par 4]⟩,
  ⟨.matmul, [.obj .crs .s true, .obj (.viewDense .ten) .s true, .obj (.viewDense .mat) .s false], .matmul_crs, .s, [.one, .par 0, .par 1, .zero, .par 2]⟩,
  ⟨.matmul, [.scal .s, .obj .crs .s true, .obj (.viewDense .ten) .s true, .scal .s, .obj (.viewDense .mat) .s false], .matmul_crs, .s, [.par 0, .par 1, .par 2, .par 3, .par 4]⟩,
  ⟨.matmul, [.obj .crs .s true, .obj (.viewDense .ten) .s true, .obj (.viewDense .ten) .s false], .matmul_crs, .s, [.one, .par 0, .par 1, .zero, .par 2]⟩,
  ⟨.matmul, [.scal .s, .obj .crs .s true, .obj (.viewDense .ten) .s true, .scal .s, .obj (.viewDense .ten) .s false], .matmul_crs, .s, [.par 0, .par 1, .par 2, .par 3, .par 4]⟩]

/-- the product overloads of src/blas/matrix/matmul/matmul_blas.cpp (320 of them; 0 with a LinearOperator left out) -/
def tMatmul : List (List Overload) :=
  [tMatmul_0, tMatmul_1, tMatmul_2, tMatmul_3]

/-- src/blas/tensor/tensvec/tensvec_blas.cpp:9-430 -/
def tTensvec_0 : List Overload := [
  ⟨.tensvec, [.obj .tdense .d true, .obj .vector .d true, .obj .tdense .d false], .tensvec, .d, [.one, .par 0, .par 1, .zero, .par 2, .ff]⟩,
  ⟨.tensvec, [.scal .d, .obj .tdense .d true, .obj .vector .d true, .scal .d, .obj .tdense .d false], .tensvec, .d, [.par 0, .par 1, .par 2, .par 3, .par 4, .ff]⟩,
  ⟨.tensvec, [.obj .tdense .d true, .obj .vector .d true, .obj (.viewTDense .vec) .d false], .tensvec, .d, [.one, .par 0, .par 1, .zero, .par 2, .ff]⟩,
  ⟨.tensvec, [.scal .d, .obj .tdense .d true, .obj .vector .d true, .scal .d, .obj (.viewTDense .vec) .d false], .tensvec, .d, [.par 0, .par 1, .par 2, .par 3, .par 4, .ff]⟩,
  ⟨.tensvec, [.obj .tdense .d true, .obj .vector .d true, .obj (.viewTDense .mat) .d false], .tensvec, .d, [.one, .par 0, .par 1, .zero, .par 2, .ff]⟩,
  ⟨.tensvec, [.scal .d, .obj .tdense .d true, .obj .vector .d true, .scal .d, .obj (.viewTDense .mat) .d false], .tensvec, .d, [.par 0, .par 1, .par 2, .par 3, .par 4, .ff]⟩,
  ⟨.tensvec, [.obj .tdense .d true, .obj .vector .d true, .obj (.viewTDense .ten) .d false], .tensvec, .d, [.one, .par 0, .par 1, .zero, .par 2, .ff]⟩,
  ⟨.tensvec, [.scal .d, .obj .tdense .d true, .obj .vector .d true, .scal .d, .obj (.viewTDense .ten) .d false], .tensvec, .d, [.par 0, .par 1, .par 2, .par 3, .par 4, .ff]⟩,
  ⟨.tensvec, [.obj .tdense .d true, .obj (.view1D .vec) .d true, .obj .tdense .d false], .tensvec, .d, [.one, .par 0, .par 1, .zero, .par 2, .ff]⟩,
  ⟨.tensvec, [.scal .d, .obj .tdense .d true, .obj (.view1D .vec) .d true, .scal .d, .obj .tdense .d false], .tensvec, .d, [.par 0, .par 1, .par 2, .par 3, .par 4, .ff]⟩,
  ⟨.tensvec, [.obj .tdense .d true, .obj (.view1D .vec) .d true, .obj (.viewTDense .vec) .d false], .tensvec, .d, [.one, .par 0, .par 1, .zero, .par 2, .ff]⟩,
  ⟨.tensvec, [.scal .d, .obj .tdense .d true, .obj (.view1D .vec) .d true, .scal .d, .obj (.viewTDense .vec) .d false], .tensvec, .d, [.par 0, .par 1, .par 2, .par 3, .par 4, .ff]⟩,
  ⟨.tensvec, [.obj .tdense .d true, .obj (.view1D .vec) .d true, .obj (.viewTDense .mat) .d false], .tensvec, .d, [.one, .par 0, .par 1, .zero, .par 2, .ff]⟩,
  ⟨.tensvec, [.scal .d, .obj .tdense .d true, .obj (.view1D .vec) .d true, .scal .d, .obj (.viewTDense .mat) .d false], .tensvec, .d, [.par 0, .par 1, .par 2, .par 3, .par 4, .ff]⟩,
  ⟨.tensvec, [.obj .tdense .d true, .obj (.view1D .vec) .d true, .obj (.viewTDense .ten) .d false], .tensvec, .d, [.one, .par 0, .par 1, .zero, .par 2, .ff]⟩,
  ⟨.tensvec, [.scal .d, .obj .tdense .d true, .obj (.view1D .vec) .d true, .scal .d, .obj (.viewTDense .ten) .d false], .tensvec, .d, [.par 0, .par 1, .par 2, .par 3, .par 4, .ff]⟩,
  ⟨.tensvec, [.obj .tdense .d true, .obj (.view1D .mat) .d true, .obj .tdense .d false], .tensvec, .d, [.one, .par 0, .par 1, .zero, .par 2, .ff]⟩,
  ⟨.tensvec, [.scal .d, .obj .tdense .d true, .obj (.view1D .mat) .d true, .scal .d, .obj .tdense .d false], .tensvec, .d, [.par 0, .par 1, .par 2, .par 3, .par 4, .ff]⟩,
  ⟨.tensvec, [.obj .tdense .d true, .obj (.view1D .mat) .d true, .obj (.viewTDense .vec) .d false], .tensvec, .d, [.one, .par 0, .par 1, .zero, .par 2, .ff]⟩,
  ⟨.tensvec, [.scal .d, .obj .tdense .d true, .obj (.view1D .mat) .d true, .scal .d, .obj (.viewTDense .vec) .d false], .tensvec, .d, [.par 0, .par 1, .par 2, .par 3, .par 4, .ff]⟩,
  ⟨.tensvec, [.obj .tdense .d true, .obj (.view1D .mat) .d true, .obj (.viewTDense .mat) .d false], .tensvec, .d, [.one, .par 0, .par 1, .zero, .par 2, .ff]⟩,
  ⟨.tensvec, [.scal .d, .obj .tdense .d true, .obj (.view1D .mat) .d true, .scal .d, .obj (.viewTDense .mat) .d false], .tensvec, .d, [.par 0, .par 1, .par 2, .par 3, .par 4, .ff]⟩,
  ⟨.tensvec, [.obj .tdense .d true, .obj (.view1D .mat) .d true, .obj (.viewTDense .ten) .d false], .tensvec, .d, [.one, .par 0, .par 1, .zero, .par 2, .ff]⟩,
  ⟨.tensvec, [.scal .d, .obj .tdense .d true, .obj (.view1D .mat) .d true, .scal .d, .obj (.viewTDense .ten) .d false], .tensvec, .d, [.par 0, .par 1, .par 2, .par 3, .par 4, .ff]⟩,
  ⟨.tensvec, [.obj .tdense .d true, .obj (.view1D .ten) .d true, .obj .tdense .d false], .tensvec, .d, [.one, .par 0, .par 1, .zero, .par 2, .ff]⟩,
  ⟨.tensvec, [.scal .d, .obj .tdense .d true, .obj (.view1D .ten) .d true, .scal .d, .obj .tdense .d false], .tensvec, .d, [.par 0, .par 1, .par 2, .par 3, .par 4, .ff]⟩,
  ⟨.tensvec, [.obj .tdense .d true, .obj (.view1D .ten) .d true, .obj (.viewTDense .vec) .d false], .tensvec, .d, [.one, .par 0, .par 1, .zero, .par 2, .ff]⟩,
  ⟨.tensvec, [.scal .d, .obj .tdense .d true, .obj (.view1D .ten) .d true, .scal .d, .obj (.viewTDense .vec) .d false], .tensvec, .d, [.par 0, .par 1, .par 2, .par 3, .par 4, .ff]⟩,
  ⟨.tensvec, [.obj .tdense .d true, .obj (.view1D .ten) .d true, .obj (.viewTDense .mat) .d false], .tensvec, .d, [.one, .par 0, .par 1, .zero, .par 2, .ff]⟩,
  ⟨.tensvec, [.scal .d, .obj .tdense .d true, .obj (.view1D .ten) .d true, .scal .d, .obj (.viewTDense .mat) .d false], .tensvec, .d, [.par 0, .par 1, .par 2, .par 3, .par 4, .ff]⟩,
  ⟨.tensvec, [.obj .tdense .d true, .obj (.view1D .ten) .d true, .obj (.viewTDense .ten) .d false], .tensvec, .d, [.one, .par 0, .par 1, .zero, .par 2, .ff]⟩,
  ⟨.tensvec, [.scal .d, .obj .tdense .d true, .obj (.view1D .ten) .d true, .scal .d, .obj (.viewTDense .ten) .d false], .tensvec, .d, [.par 0, .par 1, .par 2, .par 3, .par 4, .ff]⟩,
  ⟨.tensvec, [.obj (.viewTDense .vec) .d true, .obj .vector .d true, .obj .tdense .d false], .tensvec, .d, [.one, .par 0, .par 1, .zero, .par 2, .ff]⟩,
  ⟨.tensvec, [.scal .d, .obj (.viewTDense .vec) .d true, .obj .vector .d true, .scal .d, .obj .tdense .d false], .tensvec, .d, [.par 0, .par 1, .par 2, .par 3, .par 4, .ff]⟩,
  ⟨.tensvec, [.obj (.viewTDense .vec) .d true, .obj .vector .d true, .obj (.viewTDense .vec) .d false], .tensvec, .d, [.one, .par 0, .par 1, .zero, .par 2, .ff]⟩,
  ⟨.tensvec, [.scal .d, .obj (.viewTDense .vec) .d true, .obj .vector .d true, .scal .d, .obj (.viewTDense .vec) .d false], .tensvec, .d, [.par 0, .par 1, .par 2, .par 3, .par 4, .ff]⟩,
  ⟨.tensvec, [.obj (.viewTDense .vec) .d true, .obj .vector .d true, .obj (.viewTDense .mat) .d false], .tensvec, .d, [.one, .par 0, .par 1, .zero, .par 2, .ff]⟩,
  ⟨.tensvec, [.scal .d, .obj (.viewTDense .vec) .d true, .obj .vector .d true, .scal .d, .obj (.viewTDense .mat) .d false], .tensvec, .d, [.par 0, .par 1, .par 2, .par 3, .par 4, .ff]⟩,
  ⟨.tensvec, [.obj (.viewTDense .vec) .d true, .obj .vector .d true, .obj (.viewTDense .ten) .d false], .tensvec, .d, [.one, .par 0, .par 1, .zero, .par 2, .ff]⟩,
  ⟨.tensvec, [.scal .d, .obj (.viewTDense .vec) .d true, .obj .vector .d true, .scal .d, .obj (.viewTDense .ten) .d false], .tensvec, .d, [.par 0, .par 1, .par 2, .par 3, .par 4, .ff]⟩,
  ⟨.tensvec, [.obj (.viewTDense .vec) .d true, .obj (.view1D .vec) .d true, .obj .tdense .d false], .tensvec, .d, [.one, .par 0, .par 1, .zero, .par 2, .ff]⟩,
  ⟨.tensvec, [.scal .d, .obj (.viewTDense .vec) .d true, .obj (.view1D .vec) .d true, .scal .d, .obj .tdense .d false], .tensvec, .d, [.par 0, .par 1, .par 2, .par 3, .par 4, .ff]⟩,
  ⟨.tensvec, [.obj (.viewTDense .vec) .d true, .obj (.view1D .vec) .d true, .obj (.viewTDense .vec) .d false], .tensvec, .d, [.one, .par 0, .par 1, .zero, .par 2, .ff]⟩,
  ⟨.tensvec, [.scal .d, .obj (.viewTDense .vec) .d true, .obj (.view1D .vec) .d true, .scal .d, .obj (.viewTDense .vec) .d false], .tensvec, .d, [.par 0, .par 1, .par 2, .par 3, .par 4, .ff]⟩,
  ⟨.tensvec, [.obj (.viewTDense .vec) .d true, .obj (.view1D .vec) .d true, .obj (.viewTDense .mat) .d false], .tensvec, .d, [.one, .par 0, .par 1, .zero, .par 2, .ff]⟩,
  ⟨.tensvec, [.scal .d, .obj (.viewTDense .vec) .d true, .obj (.view1D .vec) .d true, .scal .d, .obj (.viewTDense .mat) .d false], .tensvec, .d, [.par 0, .par 1, .par 2, .par 3, .par 4, .ff]⟩,
  ⟨.tensvec, [.obj (.viewTDense .vec) .d true, .obj (.view1D .vec) .d true, .obj (.viewTDense .ten) .d false], .tensvec, .d, [.one, .par 0, .par 1, .zero, .par 2, .ff]⟩,
  ⟨.tensvec, [.scal .d, .obj (.viewTDense .vec) .d true, .obj (.view1D .vec) .d true, .scal .d, .obj (.viewTDense .ten) .d false], .tensvec, .d, [.par 0, .par 1, .par 2, .par 3, .par 4, .ff]⟩,
  ⟨.tensvec, [.obj (.viewTDense .vec) .d true, .obj (.view1D .mat) .d true, .obj .tdense .d false], .tensvec, .d, [.one, .par 0, .par 1, .zero, .par 2, .ff]⟩,
  ⟨.tensvec, [.scal .d, .obj (.viewTDense .vec) .d true, .obj (.view1D .mat) .d true, .scal .d, .obj .tdense .d false], .tensvec, .d, [.par 0, .par 1, .par 2, .par 3, .par 4, .ff]⟩,
  ⟨.tensvec, [.obj (.viewTDense .vec) .d true, .obj (.view1D .mat) .d true, .obj (.viewTDense .vec) .d false], .tensvec, .d, [.one, .par 0, .par 1, .zero, .par 2, .ff]⟩,
  ⟨.tensvec, [.scal .d, .obj (.viewTDense .vec) .d true, .obj (.view1D .mat) .d true, .scal .d, .obj (.viewTDense .vec) .d false], .tensvec, .d, [.par 0, .par 1, .par 2, .par 3, .par 4, .ff]⟩,
  ⟨.tensvec, [.obj (.viewTDense .vec) .d true, .obj (.view1D .mat) .d true, .obj (.viewTDense .mat) .d false], .tensvec, .d, [.one, .par 0, .par 1, .zero, .par 2, .ff]⟩,
  ⟨.tensvec, [.scal .d, .obj (.viewTDense .vec) .d true, .obj (.view1D .mat) .d true, .scal .d, .obj (.viewTDense .mat) .d false], .tensvec, .d, [.par 0, .par 1, .par 2, .par 3, .par 4, .ff]⟩,
  ⟨.tensvec, [.obj (.viewTDense .vec) .d true, .obj (.view1D .mat) .d true, .obj (.viewTDense .ten) .d false], .tensvec, .d, [.one, .par 0, .par 1, .zero, .par 2, .ff]⟩,
  ⟨.tensvec, [.scal .d, .obj (.viewTDense .vec) .d true, .obj (.view1D .mat) .d true, .scal .d, .obj (.viewTDense .ten) .d false], .tensvec, .d, [.par 0, .par 1, .par 2, .par 3, .par 4, .ff]⟩,
  ⟨.tensvec, [.obj (.viewTDense .vec) .d true, .obj (.view1D .ten) .d true, .obj .tdense .d false], .tensvec, .d, [.one, .par 0, .par 1, .zero, .par 2, .ff]⟩,
  ⟨.tensvec, [.scal .d, .obj (.viewTDense .vec) .d true, .obj (.view1D .ten) .d true, .scal .d, .obj .tdense .d false], .tensvec, .d, [.par 0, .par 1, .par 2, .par 3, .par 4, .ff]⟩,
  ⟨.tensvec, [.obj (.viewTDense .vec) .d true, .obj (.view1D .ten) .d true, .obj (.viewTDense .vec) .d false], .tensvec, .d, [.one, .par 0, .par 1, .zero, .par 2, .ff]⟩,
  ⟨.tensvec, [.scal .d, .obj (.viewTDense .vec) .d true, .obj (.view1D .ten) .d true, .scal .d, .obj (.viewTDense .vec) .d false], .tensvec, .d, [.par 0, .par 1, .par 2, .par 3, .par 4, .ff]⟩,
  ⟨.tensvec, [.obj (.viewTDense .vec) .d true, .obj (.view1D .ten) .d true, .obj (.viewTDense .mat) .d false], .tensvec, .d, [.one, .par 0, .par 1, .zero, .par 2, .ff]⟩,
  ⟨.tensvec, [.scal .d, .obj (.viewTDense .vec) .d true, .obj (.view1D .ten) .d true, .scal .d, .obj (.viewTDense .mat) .d false], .tensvec, .d, [.par 0, .par 1, .par 2, .par 3, .par 4, .ff]⟩,
  ⟨.tensvec, [.obj (.viewTDense .vec) .d true, .obj (.view1D .ten) .d true, .obj (.viewTDense .ten) .d false], .tensvec, .d, [.one, .par 0, .par 1, .zero, .par 2, .ff]⟩,
  ⟨.tensvec, [.scal .d, .obj (.viewTDense .vec) .d true, .obj (.view1D .ten) .d true, .scal .d, .obj (.viewTDense .ten) .d false], .tensvec, .d, [.par 0, .par 1, .par 2, .par 3, .par 4, .ff]⟩,
  ⟨.tensvec, [.obj (.viewTDense .mat) .d true, .obj .vector .d true, .obj .tdense .d false], .tensvec, .d, [.one, .par 0, .par 1, .zero, .par 2, .ff]⟩,
  ⟨.tensvec, [.scal .d, .obj (.viewTDense .mat) .d true, .obj .vector .d true, .scal .d, .obj .tdense .d false], .tensvec, .d, [.par 0, .par 1, .par 2, .par 3, .par 4, .ff]⟩,
  ⟨.tensvec, [.obj (.viewTDense .mat) .d true, .obj .vector .d true, .obj (.viewTDense .vec) .d false], .tensvec, .d, [.one, .par 0, .par 1, .zero, .par 2, .ff]⟩,
  ⟨.tensvec, [.scal .d, .obj (.viewTDense .mat) .d true, .obj .vector .d true, .scal .d, .obj (.viewTDense .vec) .d false], .tensvec, .d, [.par 0, .par 1, .par 2, .par 3, .par 4, .ff]⟩,
  ⟨.tensvec, [.obj (.viewTDense .mat) .d true, .obj .vector .d true, .obj (.viewTDense .mat) .d false], .tensvec, .d, [.one, .par 0, .par 1, .zero, .par 2, .ff]⟩,
  ⟨.tensvec, [.scal .d, .obj (.viewTDense .mat) .d true, .obj .vector .d true, .scal .d, .obj (.viewTDense .mat) .d false], .tensvec, .d, [.par 0, .par 1, .par 2, .par 3, .par 4, .ff]⟩,
  ⟨.tensvec, [.obj (.viewTDense .mat) .d true, .obj .vector .d true, .obj (.viewTDense .ten) .d false], .tensvec, .d, [.one, .par 0, .par 1, .zero, .par 2, .ff]⟩,
  ⟨.tensvec, [.scal .d, .obj (.viewTDense .mat) .d true, .obj .vector .d true, .scal .d, .obj (.viewTDense .ten) .d false], .tensvec, .d, [.par 0, .par 1, .par 2, .par 3, .par 4, .ff]⟩,
  ⟨.tensvec, [.obj (.viewTDense .mat) .d true, .obj (.view1D .vec) .d true, .obj .tdense .d false], .tensvec, .d, [.one, .par 0, .par 1, .zero, .par 2, .ff]⟩,
  ⟨.tensvec, [.scal .d, .obj (.viewTDense .mat) .d true, .obj (.view1D .vec) .d true, .scal .d, .obj .tdense .d false], .tensvec, .d, [.par 0, .par 1, .par 2, .par 3, .par 4, .ff]⟩,
  ⟨.tensvec, [.obj (.viewTDense .mat) .d true, .obj (.view1D .vec) .d true, .obj (.viewTDense .vec) .d false], .tensvec, .d, [.one, .par 0, .par 1, .zero, .par 2, .ff]⟩,
  ⟨.tensvec, [.scal .d, .obj (.viewTDense .mat) .d true, .obj (.view1D .vec) .d true, .scal .d, .obj (.viewTDense .vec) .d false], .tensvec, .d, [.par 0, .par 1, .par 2, .par 3, .par 4, .ff]⟩,
  ⟨.tensvec, [.obj (.viewTDense .mat) .d true, .obj (.view1D .vec) .d true, .obj (.viewTDense .mat) .d false], .tensvec, .d, [.one, .par 0, .par 1, .zero, .par 2, .ff]⟩,
  ⟨.tensvec, [.scal .d, .obj (.viewTDense .mat) .d true, .obj (.view1D .vec) .d true, .scal .d, .obj (.viewTDense .mat) .d false], .tensvec, .d, [.par 0, .par 1, .par 2, .par 3, .par 4, .ff]⟩,
  ⟨.tensvec, [.obj (.viewTDense .mat) .d true, .obj (.view1D .vec) .d true, .obj (.viewTDense .ten) .d false], .tensvec, .d, [.one, .par 0, .par 1, .zero, .par 2, .ff]⟩,
  ⟨.tensvec, [.scal .d, .obj (.viewTDense .mat) .d true, .obj (.view1D .vec) .d true, .scal .d, .obj (.viewTDense .ten) .d false], .tensvec, .d, [.par 0, .par 1, .par 2, .par 3, .par 4, .ff]⟩]

/-- src/blas/tensor/tensvec/tensvec_blas.cpp:431-855 -/
def tTensvec_1 : List Overload := [
  ⟨.tensvec, [.obj (.viewTDense .mat) .d true, .obj (.view1D .mat) .d true, .obj .tdense .d false], .tensvec, .d, [.one, .par 0, .par 1, .zero, .par 2, .ff]⟩,
  ⟨.tensvec, [.scal .d, .obj (.viewTDense .mat) .d true, .obj (.view1D .mat) .d true, .scal .d, .obj .tdense .d false], .tensvec, .d, [.par 0, .par 1, .par 2, .par 3, .par 4, .ff]⟩,
  ⟨.tensvec, [.obj (.viewTDense .mat) .d true, .obj (.view1D .mat) .d true, .obj (.viewTDense .vec) .d false], .tensvec, .d, [.one, .par 0, .par 1, .zero, .par 2, .ff]⟩,
  ⟨.tensvec, [.scal .d, .obj (.viewTDense .mat) .d true, .obj (.view1D .mat) .d true, .scal .d, .obj (.viewTDense .vec) .d false], .tensvec, .d, [.par 0, .par 1, .par 2, .par 3, .par 4, .ff]⟩,
  ⟨.tensvec, [.obj (.viewTDense .mat) .d true, .obj (.view1D .mat) .d true, .obj (.viewTDense .mat) .d false], .tensvec, .d, [.one, .par 0, .par 1, .zero, .par 2, .ff]⟩,
  ⟨.tensvec, [.scal .d, .obj (.viewTDense .mat) .d true, .obj (.view1D .mat) .d true, .scal .d, .obj (.viewTDense .mat) .d false], .tensvec, .d, [.par 0, .par 1, .par 2, .par 3, .par 4, .ff]⟩,
  ⟨.tensvec, [.obj (.viewTDense .mat) .d true, .obj (.view1D .mat) .d true, .obj (.viewTDense .ten) .d false], .tensvec, .d, [.one, .par 0, .par 1, .zero, .par 2, .ff]⟩,
  ⟨.tensvec, [.scal .d, .obj (.viewTDense .mat) .d true, .obj (.view1D .mat) .d true, .scal .d, .obj (.viewTDense .ten) .d false], .tensvec, .d, [.par 0, .par 1, .par 2, .par 3, .par 4, .ff]⟩,
  ⟨.tensvec, [.obj (.viewTDense .mat) .d true, .obj (.view1D .ten) .d true, .obj .tdense .d false], .tensvec, .d, [.one, .par 0, .par 1, .zero, .par 2, .ff]⟩,
  ⟨.tensvec, [.scal .d, .obj (.viewTDense .mat) .d true, .obj (.view1D .ten) .d true, .scal .d, .obj .tdense .d false], .tensvec, .d, [.par 0, .par 1, .par 2, .par 3, .par 4, .ff]⟩,
  ⟨.tensvec, [.obj (.viewTDense .mat) .d true, .obj (.view1D .ten) .d true, .obj (.viewTDense .vec) .d false], .tensvec, .d, [.one, .par 0, .par 1, .zero, .par 2, .ff]⟩,
  ⟨.tensvec, [.scal .d, .obj (.viewTDense .mat) .d true, .obj (.view1D .ten) .d true, .scal .d, .obj (.viewTDense .vec) .d false], .tensvec, .d, [.par 0, .par 1, .par 2, .par 3, .par 4, .ff]⟩,
  ⟨.tensvec, [.obj (.viewTDense .mat) .d true, .obj (.view1D .ten) .d true, .obj (.viewTDense .mat) .d false], .tensvec, .d, [.one, .par 0, .par 1, .zero, .par 2, .ff]⟩,
  ⟨.tensvec, [.scal .d, .obj (.viewTDense .mat) .d true, .obj (.view1D .ten) .d true, .scal .d, .obj (.viewTDense .mat) .d false], .tensvec, .d, [.par 0, .par 1, .par 2, .par 3, .par 4, .ff]⟩,
  ⟨.tensvec, [.obj (.viewTDense .mat) .d true, .obj (.view1D .ten) .d true, .obj (.viewTDense .ten) .d false], .tensvec, .d, [.one, .par 0, .par 1, .zero, .par 2, .ff]⟩,
  ⟨.tensvec, [.scal .d, .obj (.viewTDense .mat) .d true, .obj (.view1D .ten) .d true, .scal .d, .obj (.viewTDense .ten) .d false], .tensvec, .d, [.par 0, .par 1, .par 2, .par 3, .par 4, .ff]⟩,
  ⟨.tensvec, [.obj (.viewTDense .ten) .d true, .obj .vector .d true, .obj .tdense .d false], .tensvec, .d, [.one, .par 0, .par 1, .zero, .par 2, .ff]⟩,
  ⟨.tensvec, [.scal .d, .obj (.viewTDense .ten) .d true, .obj .vector .d true, .scal .d, .obj .tdense .d false], .tensvec, .d, [.par 0, .par 1, .par 2, .par 3, .par 4, .ff]⟩,
  ⟨.tensvec, [.obj (.viewTDense .ten) .d true, .obj .vector .d true, .obj (.viewTDense .vec) .d false], .tensvec, .d, [.one, .par 0, .par 1, .zero, .par 2, .ff]⟩,
  ⟨.tensvec, [.scal .d, .obj (.viewTDense .ten) .d true, .obj .vector .d true, .scal .d, .obj (.viewTDense .vec) .d false], .tensvec, .d, [.par 0, .par 1, .par 2, .par 3, .par 4, .ff]⟩,
  ⟨.tensvec, [.obj (.viewTDense .ten) .d true, .obj .vector .d true, .obj (.viewTDense .mat) .d false], .tensvec, .d, [.one, .par 0, .par 1, .zero, .par 2, .ff]⟩,
  ⟨.tensvec, [.scal .d, .obj (.viewTDense .ten) .d true, .obj .vector .d true, .scal .d, .obj (.viewTDense .mat) .d false], .tensvec, .d, [.par 0, .par 1, .par 2, .par 3, .par 4, .ff]⟩,
  ⟨.tensvec, [.obj (.viewTDense .ten) .d true, .obj .vector .d true, .obj (.viewTDense .ten) .d false], .tensvec, .d, [.one, .par 0, .par 1, .zero, .par 2, .ff]⟩,
  ⟨.tensvec, [.scal .d, .obj (.viewTDense .ten) .d true, .obj .vector .d true, .scal .d, .obj (.viewTDense .ten) .d false], .tensvec, .d, [.par 0, .par 1, .par 2, .par 3, .par 4, .ff]⟩,
  ⟨.tensvec, [.obj (.viewTDense .ten) .d true, .obj (.view1D .vec) .d true, .obj .tdense .d false], .tensvec, .d, [.one, .par 0, .par 1, .zero, .par 2, .ff]⟩,
  ⟨.tensvec, [.scal .d, .obj (.viewTDense .ten) .d true, .obj (.view1D .vec) .d true, .scal .d, .obj .tdense .d false], .tensvec, .d, [.par 0, .par 1, .par 2, .par 3, .par 4, .ff]⟩,
  ⟨.tensvec, [.obj (.viewTDense .ten) .d true, .obj (.view1D .vec) .d true, .obj (.viewTDense .vec) .d false], .tensvec, .d, [.one, .par 0, .par 1, .zero, .par 2, .ff]⟩,
  ⟨.tensvec, [.scal .d, .obj (.viewTDense .ten) .d true, .obj (.view1D .vec) .d true, .scal .d, .obj (.viewTDense .vec) .d false], .tensvec, .d, [.par 0, .par 1, .par 2, .par 3, .par 4, .ff]⟩,
  ⟨.tensvec, [.obj (.viewTDense .ten) .d true, .obj (.view1D .vec) .d true, .obj (.viewTDense .mat) .d false], .tensvec, .d, [.one, .par 0, .par 1, .zero, .par 2, .ff]⟩,
  ⟨.tensvec, [.scal .d, .obj (.viewTDense .ten) .d true, .obj (.view1D .vec) .d true, .scal .d, .obj (.viewTDense .mat) .d false], .tensvec, .d, [.par 0, .par 1, .par 2, .par 3, .par 4, .ff]⟩,
  ⟨.tensvec, [.obj (.viewTDense .ten) .d true, .obj (.view1D .vec) .d true, .obj (.viewTDense .ten) .d false], .tensvec, .d, [.one, .par 0, .par 1, .zero, .par 2, .ff]⟩,
  ⟨.tensvec, [.scal .d, .obj (.viewTDense .ten) .d true, .obj (.view1D .vec) .d true, .scal .d, .obj (.viewTDense .ten) .d false], .tensvec, .d, [.par 0, .par 1, .par 2, .par 3, .par 4, .ff]⟩,
  ⟨.tensvec, [.obj (.viewTDense .ten) .d true, .obj (.view1D .mat) .d true, .obj .tdense .d false], .tensvec, .d, [.one, .par 0, .par 1, .zero, .par 2, .ff]⟩,
  ⟨.tensvec, [.scal .d, .obj (.viewTDense .ten) .d true, .obj (.view1D .mat) .d true, .scal .d, .obj .tdense .d false], .tensvec, .d, [.par 0, .par 1, .par 2, .par 3, .par 4, .ff]⟩,
  ⟨.tensvec, [.obj (.viewTDense .ten) .d true, .obj (.view1D .mat) .d true, .obj (.viewTDense .vec) .d false], .tensvec, .d, [.one, .par 0, .par 1, .zero, .par 2, .ff]⟩,
  ⟨.tensvec, [.scal .d, .obj (.viewTDense .ten) .d true, .obj (.view1D .mat) .d true, .scal .d, .obj (.viewTDense .vec) .d false], .tensvec, .d, [.par 0, .par 1, .par 2, .par 3, .par 4, .ff]⟩,
  ⟨.tensvec, [.obj (.viewTDense .ten) .d true, .obj (.view1D .mat) .d true, .obj (.viewTDense .mat) .d false], .tensvec, .d, [.one, .par 0, .par 1, .zero, .par 2, .ff]⟩,
  ⟨.tensvec, [.scal .d, .obj (.viewTDense .ten) .d true, .obj (.view1D .mat) .d true, .scal .d, .obj (.viewTDense .mat) .d false], .tensvec, .d, [.par 0, .par 1, .par 2, .par 3, .par 4, .ff]⟩,
  ⟨.tensvec, [.obj (.viewTDense .ten) .d true, .obj (.view1D .mat) .d true, .obj (.viewTDense .ten) .d false], .tensvec, .d, [.one, .par 0, .par 1, .zero, .par 2, .ff]⟩,
  ⟨.tensvec, [.scal .d, .obj (.viewTDense .ten) .d true, .obj (.view1D .mat) .d true, .scal .d, .obj (.viewTDense .ten) .d false], .tensvec, .d, [.par 0, .par 1, .par 2, .par 3, .par 4, .ff]⟩,
  ⟨.tensvec, [.obj (.viewTDense .ten) .d true, .obj (.view1D .ten) .d true, .obj .tdense .d false], .tensvec, .d, [.one, .par 0, .par 1, .zero, .par 2, .ff]⟩,
  ⟨.tensvec, [.scal .d, .obj (.viewTDense .ten) .d true, .obj (.view1D .ten) .d true, .scal .d, .obj .tdense .d false], .tensvec, .d, [.par 0, .par 1, .par 2, .par 3, .par 4, .ff]⟩,
  ⟨.tensvec, [.obj (.viewTDense .ten) .d true, .obj (.view1D .ten) .d true, .obj (.viewTDense .vec) .d false], .tensvec, .d, [.one, .par 0, .par 1, .zero, .par 2, .ff]⟩,
  ⟨.tensvec, [.scal .d, .obj (.viewTDense .ten) .d true, .obj (.view1D .ten) .d true, .scal .d, .obj (.viewTDense .vec) .d false], .tensvec, .d, [.par 0, .par 1, .par 2, .par 3, .par 4, .ff]⟩,
  ⟨.tensvec, [.obj (.viewTDense .ten) .d true, .obj (.view1D .ten) .d true, .obj (.viewTDense .mat) .d false], .tensvec, .d, [.one, .par 0, .par 1, .zero, .par 2, .ff]⟩,
  ⟨.tensvec, [.scal .d, .obj (.viewTDense .ten) .d true, .obj (.view1D .ten) .d true, .scal .d, .obj (.viewTDense .mat) .d false], .tensvec, .d, [.par 0, .par 1, .par 2, .par 3, .par 4, .ff]⟩,
  ⟨.tensvec, [.obj (.viewTDense .ten) .d true, .obj (.view1D .ten) .d true, .obj (.viewTDense .ten) .d false], .tensvec, .d, [.one, .par 0, .par 1, .zero, .par 2, .ff]⟩,
  ⟨.tensvec, [.scal .d, .obj (.viewTDense .ten) .d true, .obj (.view1D .ten) .d true, .scal .d, .obj (.viewTDense .ten) .d false], .tensvec, .d, [.par 0, .par 1, .par 2, .par 3, .par 4, .ff]⟩,
  ⟨.tensvec, [.obj .tdense .s true, .obj .vector .s true, .obj .tdense .s false], .tensvec, .s, [.one, .par 0, .par 1, .zero, .par 2, .ff]⟩,
  ⟨.tensvec, [.scal .s, .obj .tdense .s true, .obj .vector .s true, .scal .s, .obj .tdense .s false], .tensvec, .s, [.par 0, .par 1, .par 2, .par 3, .par 4, .ff]⟩,
  ⟨.tensvec, [.obj .tdense .s true, .obj .vector .s true, .obj (.viewTDense .vec) .s false], .tensvec, .s, [.one, .par 0, .par 1, .zero, .par 2, .ff]⟩,
  ⟨.tensvec, [.scal .s, .obj .tdense .s true, .obj .vector .s true, .scal .s, .obj (.viewTDense .vec) .s false], .tensvec, .s, [.par 0, .par 1, .par 2, .par 3, .par 4, .ff]⟩,
  ⟨.tensvec, [.obj .tdense .s true, .obj .vector .s true, .obj (.viewTDense .mat) .s false], .tensvec, .s, [.one, .par 0, .par 1, .zero, .par 2, .ff]⟩,
  ⟨.tensvec, [.scal .s, .obj .tdense .s true, .obj .vector .s true, .scal .s, .obj (.viewTDense .mat) .s false], .tensvec, .s, [.par 0, .par 1, .par 2, .par 3, .par 4, .ff]⟩,
  ⟨.tensvec, [.obj .tdense .s true, .obj .vector .s true, .obj (.viewTDense .ten) .s false], .tensvec, .s, [.one, .par 0, .par 1, .zero, .par 2, .ff]⟩,
  ⟨.tensvec, [.scal .s, .obj .tdense .s true, .obj .vector .s true, .scal .s, .obj (.viewTDense .ten) .s false], .tensvec, .s, [.par 0, .par 1, .par 2, .par 3, .par 4, .ff]⟩,
  ⟨.tensvec, [.obj .tdense .s true, .obj (.view1D .vec) .s true, .obj .tdense .s false], .tensvec, .s, [.one, .par 0, .par 1, .zero, .par 2, .ff]⟩,
  ⟨.tensvec, [.scal .s, .obj .tdense .s true, .obj (.view1D .vec) .s true, .scal .s, .obj .tdense .s false], .tensvec, .s, [.par 0, .par 1, .par 2, .par 3, .par 4, .ff]⟩,
  ⟨.tensvec, [.obj .tdense .s true, .obj (.view1D .vec) .s true, .obj (.viewTDense .vec) .s false], .tensvec, .s, [.one, .par 0, .par 1, .zero, .par 2, .ff]⟩,
  ⟨.tensvec, [.scal .s, .obj .tdense .s true, .obj (.view1D .vec) .s true, .scal .s, .obj (.viewTDense .vec) .s false], .tensvec, .s, [.par 0, .par 1, .par 2, .par 3, .par 4, .ff]⟩,
  ⟨.tensvec, [.obj .tdense .s true, .obj (.view1D .vec) .s true, .obj (.viewTDense .mat) .s false], .tensvec, .s, [.one, .par 0, .par 1, .zero, .par 2, .ff]⟩,
  ⟨.tensvec, [.scal .s, .obj .tdense .s true, .obj (.view1D .vec) .s true, .scal .s, .obj (.viewTDense .mat) .s false], .tensvec, .s, [.par 0, .par 1, .par 2, .par 3, .par 4, .ff]⟩,
  ⟨.tensvec, [.obj .tdense .s true, .obj (.view1D .vec) .s true, .obj (.viewTDense .ten) .s false], .tensvec, .s, [.one, .par 0, .par 1, .zero, .par 2, .ff]⟩,
  ⟨.tensvec, [.scal .s, .obj .tdense .s true, .obj (.view1D .vec) .s true, .scal .s, .obj (.viewTDense .ten) .s false], .tensvec, .s, [.par 0, .par 1, .par 2, .par 3, .par 4, .ff]⟩,
  ⟨.tensvec, [.obj .tdense .s true, .obj (.view1D .mat) .s true, .obj .tdense .s false], .tensvec, .s, [.one, .par 0, .par 1, .zero, .par 2, .ff]⟩,
  ⟨.tensvec, [.scal .s, .obj .tdense .s true, .obj (.view1D .mat) .s true, .scal .s, .obj .tdense .s false], .tensvec, .s, [.par 0, .par 1, .par 2, .par 3, .par 4, .ff]⟩,
  ⟨.tensvec, [.obj .tdense .s true, .obj (.view1D .mat) .s true, .obj (.viewTDense .vec) .s false], .tensvec, .s, [.one, .par 0, .par 1, .zero, .par 2, .ff]⟩,
  ⟨.tensvec, [.scal .s, .obj .tdense .s true, .obj (.view1D .mat) .s true, .scal .s, .obj (.viewTDense .vec) .s false], .tensvec, .s, [.par 0, .par 1, .par 2, .par 3, .par 4, .ff]⟩,
  ⟨.tensvec, [.obj .tdense .s true, .obj (.view1D .mat) .s true, .obj (.viewTDense .mat) .s false], .tensvec, .s, [.one, .par 0, .par 1, .zero, .par 2, .ff]⟩,
  ⟨.tensvec, [.scal .s, .obj .tdense .s true, .obj (.view1D .mat) .s true, .scal .s, .obj (.viewTDense .mat) .s false], .tensvec, .s, [.par 0, .par 1, .par 2, .par 3, .par 4, .ff]⟩,
  ⟨.tensvec, [.obj .tdense .s true, .obj (.view1D .mat) .s true, .obj (.viewTDense .ten) .s false], .tensvec, .s, [.one, .par 0, .par 1, .zero, .par 2, .ff]⟩,
  ⟨.tensvec, [.scal .s, .obj .tdense .s true, .obj (.view1D .mat) .s true, .scal .s, .obj (.viewTDense .ten) .s false], .tensvec, .s, [.par 0, .par 1, .par 2, .par 3, .par 4, .ff]⟩,
  ⟨.tensvec, [.obj .tdense .s true, .obj (.view1D .ten) .s true, .obj .tdense .s false], .tensvec, .s, [.one, .par 0, .par 1, .zero, .par 2, .ff]⟩,
  ⟨.tensvec, [.scal .s, .obj .tdense .s true, .obj (.view1D .ten) .s true, .scal .s, .obj .tdense .s false], .tensvec, .s, [.par 0, .par 1, .par 2, .par 3, .par 4, .ff]⟩,
  ⟨.tensvec, [.obj .tdense .s true, .obj (.view1D .ten) .s true, .obj (.viewTDense .vec) .s false], .tensvec, .s, [.one, .par 0, .par 1, .zero, .par 2, .ff]⟩,
  ⟨.tensvec, [.scal .s, .obj .tdense .s true, .obj (.view1D .ten) .s true, .scal .s, .obj (.viewTDense .vec) .s false], .tensvec, .s, [.par 0, .par 1, .par 2, .par 3, .par 4, .ff]⟩,
  ⟨.tensvec, [.obj .tdense .s true, .obj (.view1D .ten) .s true, .obj (.viewTDense .mat) .s false], .tensvec, .s, [.one, .par 0, .par 1, .zero, .par 2, .ff]⟩,
  ⟨.tensvec, [.scal .s, .obj .tdense .s true, .obj (.view1D .ten) .s true, .scal .s, .obj (.viewTDense .mat) .s false], .tensvec, .s, [.par 0, .par 1, .par 2, .par 3, .par 4, .ff]⟩,
  ⟨.tensvec, [.obj .tdense .s true, .obj (.view1D .ten) .s true, .obj (.viewTDense .ten) .s false], .tensvec, .s, [.one, .par 0, .par 1, .zero, .par 2, .ff]⟩,
  ⟨.tensvec, [.scal .s, .obj .tdense .s true, .obj (.view1D .ten) .s true, .scal .s, .obj (.viewTDense .ten) .s false], .tensvec, .s, [.par 0, .par 1, .par 2, .par 3, .par 4, .ff]⟩]

/-- src/blas/tensor/tensvec/tensvec_blas.cpp:856-1280 -/
def tTensvec_2 : List Overload := [
  ⟨.tensvec, [.obj (.viewTDense .vec) .s true, .obj .vector .s true, .obj .tdense .s false], .tensvec, .s, [.one, .par 0, .par 1, .zero, .par 2, .ff]⟩,
  ⟨.tensvec, [.scal .s, .obj (.viewTDense .vec) .s true, .obj .vector .s true, .scal .s, .obj .tdense .s false], .tensvec, .s, [.par 0, .par 1, .par 2, .par 3, .par 4, .ff]⟩,
  ⟨.tensvec, [.obj (.viewTDense .vec) .s true, .obj .vector .s true, .obj (.viewTDense .vec) .s false], .tensvec, .s, [.one, .par 0, .par 1, .zero, .par 2, .ff]⟩,
  ⟨.tensvec, [.scal .s, .obj (.viewTDense .vec) .s true, .obj .vector .s true, .scal .s, .obj (.viewTDense .vec) .s false], .tensvec, .s, [.par 0, .par 1, .par 2, .par 3, .par 4, .ff]⟩,
  ⟨.tensvec, [.obj (.viewTDense .vec) .s true, .obj .vector .s true, .obj (.viewTDense .mat) .s false], .tensvec, .s, [.one, .par 0, .par 1, .zero, .par 2, .ff]⟩,
  ⟨.tensvec, [.scal .s, .obj (.viewTDense .vec) .s true, .obj .vector .s true, .scal .s, .obj (.viewTDense .mat) .s false], .tensvec, .s, [.par 0, .par 1, .par 2, .par 3, .par 4, .ff]⟩,
  ⟨.tensvec, [.obj (.viewTDense .vec) .s true, .obj .vector .s true, .obj (.viewTDense .ten) .s false], .tensvec, .s, [.one, .par 0, .par 1, .zero, .par 2, .ff]⟩,
  ⟨.tensvec, [.scal .s, .obj (.viewTDense .vec) .s true, .obj .vector .s true, .scal .s, .obj (.viewTDense .ten) .s false], .tensvec, .s, [.par 0, .par 1, .par 2, .par 3, .par 4, .ff]⟩,
  ⟨.tensvec, [.obj (.viewTDense .vec) .s true, .obj (.view1D .vec) .s true, .obj .tdense .s false], .tensvec, .s, [.one, .par 0, .par 1, .zero, .par 2, .ff]⟩,
  ⟨.tensvec, [.scal .s, .obj (.viewTDense .vec) .s true, .obj (.view1D .vec) .s true, .scal .s, .obj .tdense .s false], .tensvec, .s, [.par 0, .par 1, .par 2, .par 3, .par 4, .ff]⟩,
  ⟨.tensvec, [.obj (.viewTDense .vec) .s true, .obj (.view1D .vec) .s true, .obj (.viewTDense .vec) .s false], .tensvec, .s, [.one, .par 0, .par 1, .zero, .par 2, .ff]⟩,
  ⟨.tensvec, [.scal .s, .obj (.viewTDense .vec) .s true, .obj (.view1D .vec) .s true, .scal .s, .obj (.viewTDense .vec) .s false], .tensvec, .s, [.par 0, .par 1, .par 2, .par 3, .par 4, .ff]⟩,
  ⟨.tensvec, [.obj (.viewTDense .vec) .s true, .obj (.view1D .vec) .s true, .obj (.viewTDense .mat) .s false], .tensvec, .s, [.one, .par 0, .par 1, .zero, .par 2, .ff]⟩,
  ⟨.tensvec, [.scal .s, .obj (.viewTDense .vec) .s true, .obj (.view1D .vec) .s true, .scal .s, .obj (.viewTDense .mat) .s false], .tensvec, .s, [.par 0, .par 1, .par 2, .par 3, .par 4, .ff]⟩,
  ⟨.tensvec, [.obj (.viewTDense .vec) .s true, .obj (.view1D .vec) .s true, .obj (.viewTDense .ten) .s false], .tensvec, .s, [.one, .par 0, .par 1, .zero, .par 2, .ff]⟩,
  ⟨.tensvec, [.scal .s, .obj (.viewTDense .vec) .s true, .obj (.view1D .vec) .s true, .scal .s, .obj (.viewTDense .ten) .s false], .tensvec, .s, [.par 0, .par 1, .par 2, .par 3, .par 4, .ff]⟩,
  ⟨.tensvec, [.obj (.viewTDense .vec) .s true, .obj (.view1D .mat) .s true, .obj .tdense .s false], .tensvec, .s, [.one, .par 0, .par 1, .zero, .par 2, .ff]⟩,
  ⟨.tensvec, [.scal .s, .obj (.viewTDense .vec) .s true, .obj (.view1D .mat) .s true, .scal .s, .obj .tdense .s false], .tensvec, .s, [.par 0, .par 1, .par 2, .par 3, .par 4, .ff]⟩,
  ⟨.tensvec, [.obj (.viewTDense .vec) .s true, .obj (.view1D .mat) .s true, .obj (.viewTDense .vec) .s false], .tensvec, .s, [.one, .par 0, .par 1, .zero, .par 2, .ff]⟩,
  ⟨.tensvec, [.scal .s, .obj (.viewTDense .vec) .s true, .obj (.view1D .mat) .s true, .scal .s, .obj (.viewTDense .vec) .s false], .tensvec, .s, [.par 0, .par 1, .par 2, .par 3, .par 4, .ff]⟩,
  ⟨.tensvec, [.obj (.viewTDense .vec) .s true, .obj (.view1D .mat) .s true, .obj (.viewTDense .mat) .s false], .tensvec, .s, [.one, .par 0, .par 1, .zero, .par 2, .ff]⟩,
  ⟨.tensvec, [.scal .s, .obj (.viewTDense .vec) .s true, .obj (.view1D .mat) .s true, .scal .s, .obj (.viewTDense .mat) .s false], .tensvec, .s, [.par 0, .par 1, .par 2, .par 3, .par 4, .ff]⟩,
  ⟨.tensvec, [.obj (.viewTDense .vec) .s true, .obj (.view1D .mat) .s true, .obj (.viewTDense .ten) .s false], .tensvec, .s, [.one, .par 0, .par 1, .zero, .par 2, .ff]⟩,
  ⟨.tensvec, [.scal .s, .obj (.viewTDense .vec) .s true, .obj (.view1D .mat) .s true, .scal .s, .obj (.viewTDense .ten) .s false], .tensvec, .s, [.par 0, .par 1, .par 2, .par 3, .par 4, .ff]⟩,
  ⟨.tensvec, [.obj (.viewTDense .vec) .s true, .obj (.view1D .ten) .s true, .obj .tdense .s false], .tensvec, .s, [.one, .par 0, .par 1, .zero, .par 2, .ff]⟩,
  ⟨.tensvec, [.scal .s, .obj (.viewTDense .vec) .s true, .obj (.view1D .ten) .s true, .scal .s, .obj .tdense .s false], .tensvec, .s, [.par 0, .par 1, .par 2, .par 3, .par 4, .ff]⟩,
  ⟨.tensvec, [.obj (.viewTDense .vec) .s true, .obj (.view1D .ten) .s true, .obj (.viewTDense .vec) .s false], .tensvec, .s, [.one, .par 0, .par 1, .zero, .par 2, .ff]⟩,
  ⟨.tensvec, [.scal .s, .obj (.viewTDense .vec) .s true, .obj (.view1D .ten) .s true, .scal .s, .obj (.viewTDense .vec) .s false], .tensvec, .s, [.par 0, .par 1, .par 2, .par 3, .par 4, .ff]⟩,
  ⟨.tensvec, [.obj (.viewTDense .vec) .s true, .obj (.view1D .ten) .s true, .obj (.viewTDense .mat) .s false], .tensvec, .s, [.one, .par 0, .par 1, .zero, .par 2, .ff]⟩,
  ⟨.tensvec, [.scal .s, .obj (.viewTDense .vec) .s true, .obj (.view1D .ten) .s true, .scal .s, .obj (.viewTDense .mat) .s false], .tensvec, .s, [.par 0, .par 1, .par 2, .par 3, .par 4, .ff]⟩,
  ⟨.tensvec, [.obj (.viewTDense .vec) .s true, .obj (.view1D .ten) .s true, .obj (.viewTDense .ten) .s false], .tensvec, .s, [.one, .par 0, .par 1, .zero, .par 2, .ff]⟩,
  ⟨.tensvec, [.scal .s, .obj (.viewTDense .vec) .s true, .obj (.view1D .ten) .s true, .scal .s, .obj (.viewTDense .ten) .s false], .tensvec, .s, [.par 0, .par 1, .par 2, .par 3, .par 4, .ff]⟩,
  ⟨.tensvec, [.obj (.viewTDense .mat) .s true, .obj .vector .s true, .obj .tdense .s false], .tensvec, .s, [.one, .par 0, .par 1, .zero, .par 2, .ff]⟩,
  ⟨.tensvec, [.scal .s, .obj (.viewTDense .mat) .s true, .obj .vector .s true, .scal .s, .obj .tdense .s false], .tensvec, .s, [.par 0, .par 1, .par 2, .par 3, .par 4, .ff]⟩,
  ⟨.tensvec, [.obj (.viewTDense .mat) .s true, .obj .vector .s true, .obj (.viewTDense .vec) .s false], .tensvec, .s, [.one, .par 0, .par 1, .zero, .par 2, .ff]⟩,
  ⟨.tensvec, [.scal .s, .obj (.viewTDense .mat) .s true, .obj .vector .s true, .scal .s, .obj (.viewTDense .vec) .s false], .tensvec, .s, [.par 0, .par 1, .par 2, .par 3, .par 4, .ff]⟩,
  ⟨.tensvec, [.obj (.viewTDense .mat) .s true, .obj .vector .s true, .obj (.viewTDense .mat) .s false], .tensvec, .s, [.one, .par 0, .par 1, .zero, .par 2, .ff]⟩,
  ⟨.tensvec, [.scal .s, .obj (.viewTDense .mat) .s true, .obj .vector .s true, .scal .s, .obj (.viewTDense .mat) .s false], .tensvec, .s, [.par 0, .par 1, .par 2, .par 3, .par 4, .ff]⟩,
  ⟨.tensvec, [.obj (.viewTDense .mat) .s true, .obj .vector .s true, .obj (.viewTDense .ten) .s false], .tensvec, .s, [.one, .par 0, .par 1, .zero, .par 2, .ff]⟩,
  ⟨.tensvec, [.scal .s, .obj (.viewTDense .mat) .s true, .obj .vector .s true, .scal .s, .obj (.viewTDense .ten) .s false], .tensvec, .s, [.par 0, .par 1, .par 2, .par 3, .par 4, .ff]⟩,
  ⟨.tensvec, [.obj (.viewTDense .mat) .s true, .obj (.view1D .vec) .s true, .obj .tdense .s false], .tensvec, .s, [.one, .par 0, .par 1, .zero, .par 2, .ff]⟩,
  ⟨.tensvec, [.scal .s, .obj (.viewTDense .mat) .s true, .obj (.view1D .vec) .s true, .scal .s, .obj .tdense .s false], .tensvec, .s, [.par 0, .par 1, .par 2, .par 3, .par 4, .ff]⟩,
  ⟨.tensvec, [.obj (.viewTDense .mat) .s true, .obj (.view1D .vec) .s true, .obj (.viewTDense .vec) .s false], .tensvec, .s, [.one, .par 0, .par 1, .zero, .par 2, .ff]⟩,
  ⟨.tensvec, [.scal .s, .obj (.viewTDense .mat) .s true, .obj (.view1D .vec) .s true, .scal .s, .obj (.viewTDense .vec) .s false], .tensvec, .s, [.par 0, .par 1, .par 2, .par 3, .par 4, .ff]⟩,
  ⟨.tensvec, [.obj (.viewTDense .mat) .s true, .obj (.view1D .vec) .s true, .obj (.viewTDense .mat) .s false], .tensvec, .s, [.one, .par 0, .par 1, .zero, .par 2, .ff]⟩,
  ⟨.tensvec, [.scal .s, .obj (.viewTDense .mat) .s true, .obj (.view1D .vec) .s true, .scal .s, .obj (.viewTDense .mat) .s false], .tensvec, .s, [.par 0, .par 1, .par 2, .par 3, .par 4, .ff]⟩,
  ⟨.tensvec, [.obj (.viewTDense .mat) .s true, .obj (.view1D .vec) .s true, .obj (.viewTDense .ten) .s false], .tensvec, .s, [.one, .par 0, .par 1, .zero, .par 2, .ff]⟩,
  ⟨.tensvec, [.scal .s, .obj (.viewTDense .mat) .s true, .obj (.view1D .vec) .s true, .scal .s, .obj (.viewTDense .ten) .s false], .tensvec, .s, [.par 0, .par 1, .par 2, .par 3, .par 4, .ff]⟩,
  ⟨.tensvec, [.obj (.viewTDense .mat) .s true, .obj (.view1D .mat) .s true, .obj .tdense .s false], .tensvec, .s, [.one, .par 0, .par 1, .zero, .par 2, .ff]⟩,
  ⟨.tensvec, [.scal .s, .obj (.viewTDense .mat) .s true, .obj (.view1D .mat) .s true, .scal .s, .obj .tdense .s false], .tensvec, .s, [.par 0, .par 1, .par 2, .par 3, .par 4, .ff]⟩,
  ⟨.tensvec, [.obj (.viewTDense .mat) .s true, .obj (.view1D .mat) .s true, .obj (.viewTDense .vec) .s false], .tensvec, .s, [.one, .par 0, .par 1, .zero, .par 2, .ff]⟩,
  ⟨.tensvec, [.scal .s, .obj (.viewTDense .mat) .s true, .obj (.view1D .mat) .s true, .scal .s, .obj (.viewTDense .vec) .s false], .tensvec, .s, [.par 0, .par 1, .par 2, .par 3, .par 4, .ff]⟩,
  ⟨.tensvec, [.obj (.viewTDense .mat) .s true, .obj (.view1D .mat) .s true, .obj (.viewTDense .mat) .s false], .tensvec, .s, [.one, .par 0, .par 1, .zero, .par 2, .ff]⟩,
  ⟨.tensvec, [.scal .s, .obj (.viewTDense .mat) .s true, .obj (.view1D .mat) .s true, .scal .s, .obj (.viewTDense .mat) .s false], .tensvec, .s, [.par 0, .par 1, .par 2, .par 3, .par 4, .ff]⟩,
  ⟨.tensvec, [.obj (.viewTDense .mat) .s true, .obj (.view1D .mat) .s true, .obj (.viewTDense .ten) .s false], .tensvec, .s, [.one, .par 0, .par 1, .zero, .par 2, .ff]⟩,
  ⟨.tensvec, [.scal .s, .obj (.viewTDense .mat) .s true, .obj (.view1D .mat) .s true, .scal .s, .obj (.viewTDense .ten) .s false], .tensvec, .s, [.par 0, .par 1, .par 2, .par 3, .par 4, .ff]⟩,
  ⟨.tensvec, [.obj (.viewTDense .mat) .s true, .obj (.view1D .ten) .s true, .obj .tdense .s false], .tensvec, .s, [.one, .par 0, .par 1, .zero, .par 2, .ff]⟩,
  ⟨.tensvec, [.scal .s, .obj (.viewTDense .mat) .s true, .obj (.view1D .ten) .s true, .scal .s, .obj .tdense .s false], .tensvec, .s, [.par 0, .par 1, .par 2, .par 3, .par 4, .ff]⟩,
  ⟨.tensvec, [.obj (.viewTDense .mat) .s true, .obj (.view1D .ten) .s true, .obj (.viewTDense .vec) .s false], .tensvec, .s, [.one, .par 0, .par 1, .zero, .par 2, .ff]⟩,
  ⟨.tensvec, [.scal .s, .obj (.viewTDense .mat) .s true, .obj (.view1D .ten) .s true, .scal .s, .obj (.viewTDense .vec) .s false], .tensvec, .s, [.par 0, .par 1, .par 2, .par 3, .par 4, .ff]⟩,
  ⟨.tensvec, [.obj (.viewTDense .mat) .s true, .obj (.view1D .ten) .s true, .obj (.viewTDense .mat) .s false], .tensvec, .s, [.one, .par 0, .par 1, .zero, .par 2, .ff]⟩,
  ⟨.tensvec, [.scal .s, .obj (.viewTDense .mat) .s true, .obj (.view1D .ten) .s true, .scal .s, .obj (.viewTDense .mat) .s false], .tensvec, .s, [.par 0, .par 1, .par 2, .par 3, .par 4, .ff]⟩,
  ⟨.tensvec, [.obj (.viewTDense .mat) .s true, .obj (.view1D .ten) .s true, .obj (.viewTDense .ten) .s false], .tensvec, .s, [.one, .par 0, .par 1, .zero, .par 2, .ff]⟩,
  ⟨.tensvec, [.scal .s, .obj (.viewTDense .mat) .s true, .obj (.view1D .ten) .s true, .scal .s, .obj (.viewTDense .ten) .s false], .tensvec, .s, [.par 0, .par 1, .par 2, .par 3, .par 4, .ff]⟩,
  ⟨.tensvec, [.obj (.viewTDense .ten) .s true, .obj .vector .s true, .obj .tdense .s false], .tensvec, .s, [.one, .par 0, .par 1, .zero, .par 2, .ff]⟩,
  ⟨.tensvec, [.scal .s, .obj (.viewTDense .ten) .s true, .obj .vector .s true, .scal .s, .obj .tdense .s false], .tensvec, .s, [.par 0, .par 1, .par 2, .par 3, .par 4, .ff]⟩,
  ⟨.tensvec, [.obj (.viewTDense .ten) .s true, .obj .vector .s true, .obj (.viewTDense .vec) .s false], .tensvec, .s, [.one, .par 0, .par 1, .zero, .par 2, .ff]⟩,
  ⟨.tensvec, [.scal .s, .obj (.viewTDense .ten) .s true, .obj .vector .s true, .scal .s, .obj (.viewTDense .vec) .s false], .tensvec, .s, [.par 0, .par 1, .par 2, .par 3, .par 4, .ff]⟩,
  ⟨.tensvec, [.obj (.viewTDense .ten) .s true, .obj .vector .s true, .obj (.viewTDense .mat) .s false], .tensvec, .s, [.one, .par 0, .par 1, .zero, .par 2, .ff]⟩,
  ⟨.tensvec, [.scal .s, .obj (.viewTDense .ten) .s true, .obj .vector .s true, .scal .s, .obj (.viewTDense .mat) .s false], .tensvec, .s, [.par 0, .par 1, .par 2, .par 3, .par 4, .ff]⟩,
  ⟨.tensvec, [.obj (.viewTDense .ten) .s true, .obj .vector .s true, .obj (.viewTDense .ten) .s false], .tensvec, .s, [.one, .par 0, .par 1, .zero, .par 2, .ff]⟩,
  ⟨.tensvec, [.scal .s, .obj (.viewTDense .ten) .s true, .obj .vector .s true, .scal .s, .obj (.viewTDense .ten) .s false], .tensvec, .s, [.par 0, .par 1, .par 2, .par 3, .par 4, .ff]⟩,
  ⟨.tensvec, [.obj (.viewTDense .ten) .s true, .obj (.view1D .vec) .s true, .obj .tdense .s false], .tensvec, .s, [.one, .par 0, .par 1, .zero, .par 2, .ff]⟩,
  ⟨.tensvec, [.scal .s, .obj (.viewTDense .ten) .s true, .obj (.view1D .vec) .s true, .scal .s, .obj .tdense .s false], .tensvec, .s, [.par 0, .par 1, .par 2, .par 3, .par 4, .ff]⟩,
  ⟨.tensvec, [.obj (.viewTDense .ten) .s true, .obj (.view1D .vec) .s true, .obj (.viewTDense .vec) .s false], .tensvec, .s, [.one, .par 0, .par 1, .zero, .par 2, .ff]⟩,
  ⟨.tensvec, [.scal .s, .obj (.viewTDense .ten) .s true, .obj (.view1D .vec) .s true, .scal .s, .obj (.viewTDense .vec) .s false], .tensvec, .s, [.par 0, .par 1, .par 2, .par 3, .par 4, .ff]⟩,
  ⟨.tensvec, [.obj (.viewTDense .ten) .s true, .obj (.view1D .vec) .s true, .obj (.viewTDense .mat) .s false], .tensvec, .s, [.one, .par 0, .par 1, .zero, .par 2, .ff]⟩,
  ⟨.tensvec, [.scal .s, .obj (.viewTDense .ten) .s true, .obj (.view1D .vec) .s true, .scal .s, .obj (.viewTDense .mat) .s false], .tensvec, .s, [.par 0, .par 1, .par 2, .par 3, .par 4, .ff]⟩,
  ⟨.tensvec, [.obj (.viewTDense .ten) .s true, .obj (.view1D .vec) .s true, .obj (.viewTDense .ten) .s false], .tensvec, .s, [.one, .par 0, .par 1, .zero, .par 2, .ff]⟩,
  ⟨.tensvec, [.scal .s, .obj (.viewTDense .ten) .s true, .obj (.view1D .vec) .s true, .scal .s, .obj (.viewTDense .ten) .s false], .tensvec, .s, [.par 0, .par 1, .par 2, .par 3, .par 4, .ff]⟩]

/-- src/blas/tensor/tensvec/tensvec_blas.cpp:1281-1687 -/
def tTensvec_3 : List Overload := [
  ⟨.tensvec, [.obj (.viewTDense .ten) .s true, .obj (.view1D .mat) .s true, .obj .tdense .s false], .tensvec, .s, [.one, .par 0, .par 1, .zero, .par 2, .ff]⟩,
  ⟨.tensvec, [.scal .s, .obj (.viewTDense .ten) .s true, .obj (.view1D .mat) .s true, .scal .s, .obj .tdense .s false], .tensvec, .s, [.par 0, .par 1, .par 2, .par 3, .par 4, .ff]⟩,
  ⟨.tensvec, [.obj (.viewTDense .ten) .s true, .obj (.view1D .mat) .s true, .obj (.viewTDense .vec) .s false], .tensvec, .s, [.one, .par 0, .par 1, .zero, .par 2, .ff]⟩,
  ⟨.tensvec, [.scal .s, .obj (.viewTDense .ten) .s true, .obj (.view1D .mat) .s true, .scal .s, .obj (.viewTDense .vec) .s false], .tensvec, .s, [.par 0, .par 1, .par 2, .par 3, .par 4, .ff]⟩,
  ⟨.tensvec, [.obj (.viewTDense .ten) .s true, .obj (.view1D .mat) .s true, .obj (.viewTDense .mat) .s false], .tensvec, .s, [.one, .par 0, .par 1, .zero, .par 2, .ff]⟩,
  ⟨.tensvec, [.scal .s, .obj (.viewTDense .ten) .s true, .obj (.view1D .mat) .s true, .scal .s, .obj (.viewTDense .mat) .s false], .tensvec, .s, [.par 0, .par 1, .par 2, .par 3, .par 4, .ff]⟩,
  ⟨.tensvec, [.obj (.viewTDense .ten) .s true, .obj (.view1D .mat) .s true, .obj (.viewTDense .ten) .s false], .tensvec, .s, [.one, .par 0, .par 1, .zero, .par 2, .ff]⟩,
  ⟨.tensvec, [.scal .s, .obj (.viewTDense .ten) .s true, .obj (.view1D .mat) .s true, .scal .s, .obj (.viewTDense .ten) .s false], .tensvec, .s, [.par 0, .par 1, .par 2, .par 3, .par 4, .ff]⟩,
  ⟨.tensvec, [.obj (.viewTDense .ten) .s true, .obj (.view1D .ten) .s true, .obj .tdense .s false], .tensvec, .s, [.one, .par 0, .par 1, .zero, .par 2, .ff]⟩,
  ⟨.tensvec, [.scal .s, .obj (.viewTDense .ten) .s true, .obj (.view1D .ten) .s true, .scal .s, .obj .tdense .s false], .tensvec, .s, [.par 0, .par 1, .par 2, .par 3, .par 4, .ff]⟩,
  ⟨.tensvec, [.obj (.viewTDense .ten) .s true, .obj (.view1D .ten) .s true, .obj (.viewTDense .vec) .s false], .tensvec, .s, [.one, .par 0, .par 1, .zero, .par 2, .ff]⟩,
  ⟨.tensvec, [.scal .s, .obj (.viewTDense .ten) .s true, .obj (.view1D .ten) .s true, .scal .s, .obj (.viewTDense .vec) .s false], .tensvec, .s, [.par 0, .par 1, .par 2, .par 3, .par 4, .ff]⟩,
  ⟨.tensvec, [.obj (.viewTDense .ten) .s true, .obj (.view1D .ten) .s true, .obj (.viewTDense .mat) .s false], .tensvec, .s, [.one, .par 0, .par 1, .zero, .par 2, .ff]⟩,
  ⟨.tensvec, [.scal .s, .obj (.viewTDense .ten) .s true, .obj (.view1D .ten) .s true, .scal .s, .obj (.viewTDense .mat) .s false], .tensvec, .s, [.par 0, .par 1, .par 2, .par 3, .par 4, .ff]⟩,
  ⟨.tensvec, [.obj (.viewTDense .ten) .s true, .obj (.view1D .ten) .s true, .obj (.viewTDense .ten) .s false], .tensvec, .s, [.one, .par 0, .par 1, .zero, .par 2, .ff]⟩,
  ⟨.tensvec, [.scal .s, .obj (.viewTDense .ten) .s true, .obj (.view1D .ten) .s true, .scal .s, .obj (.viewTDense .ten) .s false], .tensvec, .s, [.par 0, .par 1, .par 2, .par 3, .par 4, .ff]⟩,
  ⟨.tensvec, [.obj .tcrs .d true, .obj .vector .d true, .obj .tdense .d false], .tensvec, .d, [.one, .par 0, .par 1, .zero, .par 2, .ff]⟩,
  ⟨.tensvec, [.scal .d, .obj .tcrs .d true, .obj .vector .d true, .scal .d, .obj .tdense .d false], .tensvec, .d, [.par 0, .par 1, .par 2, .par 3, .par 4, .ff]⟩,
  ⟨.tensvec, [.obj .tcrs .d true, .obj .vector .d true, .obj (.viewTDense .vec) .d false], .tensvec, .d, [.one, .par 0, .par 1, .zero, .par 2, .ff]⟩,
  ⟨.tensvec, [.scal .d, .obj .tcrs .d true, .obj .vector .d true, .scal .d, .obj (.viewTDense .vec) .d false], .tensvec, .d, [.par 0, .par 1, .par 2, .par 3, .par 4, .ff]⟩,
  ⟨.tensvec, [.obj .tcrs .d true, .obj .vector .d true, .obj (.viewTDense .mat) .d false], .tensvec, .d, [.one, .par 0, .par 1, .zero, .par 2, .ff]⟩,
  ⟨.tensvec, [.scal .d, .obj .tcrs .d true, .obj .vector .d true, .scal .d, .obj (.viewTDense .mat) .d false], .tensvec, .d, [.par 0, .par 1, .par 2, .par 3, .par 4, .ff]⟩,
  ⟨.tensvec, [.obj .tcrs .d true, .obj .vector .d true, .obj (.viewTDense .ten) .d false], .tensvec, .d, [.one, .par 0, .par 1, .zero, .par 2, .ff]⟩,
  ⟨.tensvec, [.scal .d, .obj .tcrs .d true, .obj .vector .d true, .scal .d, .obj (.viewTDense .ten) .d false], .tensvec, .d, [.par 0, .par 1, .par 2, .par 3, .par 4, .ff]⟩,
  ⟨.tensvec, [.obj .tcrs .d true, .obj (.view1D .vec) .d true, .obj .tdense .d false], .tensvec, .d, [.one, .par 0, .par 1, .zero, .par 2, .ff]⟩,
  ⟨.tensvec, [.scal .d, .obj .tcrs .d true, .obj (.view1D .vec) .d true, .scal .d, .obj .tdense .d false], .tensvec, .d, [.par 0, .par 1, .par 2, .par 3, .par 4, .ff]⟩,
  ⟨.tensvec, [.obj .tcrs .d true, .obj (.view1D .vec) .d true, .obj (.viewTDense .vec) .d false], .tensvec, .d, [.one, .par 0, .par 1, .zero, .par 2, .ff]⟩,
  ⟨.tensvec, [.scal .d, .obj .tcrs .d true, .obj (.view1D .vec) .d true, .scal .d, .obj (.viewTDense .vec) .d false], .tensvec, .d, [.par 0, .par 1, .par 2, .par 3, .par 4, .ff]⟩,
  ⟨.tensvec, [.obj .tcrs .d true, .obj (.view1D .vec) .d true, .obj (.viewTDense .mat) .d false], .tensvec, .d, [.one, .par 0, .par 1, .zero, .par 2, .ff]⟩,
  ⟨.tensvec, [.scal .d, .obj .tcrs .d true, .obj (.view1D .vec) .d true, .scal .d, .obj (.viewTDense .mat) .d false], .tensvec, .d, [.par 0, .par 1, .par 2, .par 3, .par 4, .ff]⟩,
  ⟨.tensvec, [.obj .tcrs .d true, .obj (.view1D .vec) .d true, .obj (.viewTDense .ten) .d false], .tensvec, .d, [.one, .par 0, .par 1, .zero, .par 2, .ff]⟩,
  ⟨.tensvec, [.scal .d, .obj .tcrs .d true, .obj (.view1D .vec) .d true, .scal .d, .obj (.viewTDense .ten) .d false], .tensvec, .d, [.par 0, .par 1, .par 2, .par 3, .par 4, .ff]⟩,
  ⟨.tensvec, [.obj .tcrs .d true, .obj (.view1D .mat) .d true, .obj .tdense .d false], .tensvec, .d, [.one, .par 0, .par 1, .zero, .par 2, .ff]⟩,
  ⟨.tensvec, [.scal .d, .obj .tcrs .d true, .obj (.view1D .mat) .d true, .scal .d, .obj .tdense .d false], .tensvec, .d, [.par 0, .par 1, .par 2, .par 3, .par 4, .ff]⟩,
  ⟨.tensvec, [.obj .tcrs .d true, .obj (.view1D .mat) .d true, .obj (.viewTDense .vec) .d false], .tensvec, .d, [.one, .par 0, .par 1, .zero, .par 2, .ff]⟩,
  ⟨.tensvec, [.scal .d, .obj .tcrs .d true, .obj (.view1D .mat) .d true, .scal .d, .obj (.viewTDense .vec) .d false], .tensvec, .d, [.par 0, .par 1, .par 2, .par 3, .par 4, .ff]⟩,
  ⟨.tensvec, [.obj .tcrs .d true, .obj (.view1D .mat) .d true, .obj (.viewTDense .mat) .d false], .tensvec, .d, [.one, .par 0, .par 1, .zero, .par 2, .ff]⟩,
  ⟨.tensvec, [.scal .d, .obj .tcrs .d true, .obj (.view1D .mat) .d true, .scal .d, .obj (.viewTDense .mat) .d false], .tensvec, .d, [.par 0, .par 1, .par 2, .par 3, .par 4, .ff]⟩,
  ⟨.tensvec, [.obj .tcrs .d true, .obj (.view1D .mat) .d true, .obj (.viewTDense .ten) .d false], .tensvec, .d, [.one, .par 0, .par 1, .zero, .par 2, .ff]⟩,
  ⟨.tensvec, [.scal .d, .obj .tcrs .d true, .obj (.view1D .mat) .d true, .scal .d, .obj (.viewTDense .ten) .d false], .tensvec, .d, [.par 0, .par 1, .par 2, .par 3, .par 4, .ff]⟩,
  ⟨.tensvec, [.obj .tcrs .d true, .obj (.view1D .ten) .d true, .obj .tdense .d false], .tensvec, .d, [.one, .par 0, .par 1, .zero, .par 2, .ff]⟩,
  ⟨.tensvec, [.scal .d, .obj .tcrs .d true, .obj (.view1D .ten) .d true, .scal .d, .obj .tdense .d false], .tensvec, .d, [.par 0, .par 1, .par 2, .par 3, .par 4, .ff]⟩,
  ⟨.tensvec, [.obj .tcrs .d true, .obj (.view1D .ten) .d true, .obj (.viewTDense .vec) .d false], .tensvec, .d, [.one, .par 0, .par 1, .zero, .par 2, .ff]⟩,
  ⟨.tensvec, [.scal .d, .obj .tcrs .d true, .obj (.view1D .ten) .d true, .scal .d, .obj (.viewTDense .vec) .d false], .tensvec, .d, [.par 0, .par 1, .par 2, .par 3, .par 4, .ff]⟩,
  ⟨.tensvec, [.obj .tcrs .d true, .obj (.view1D .ten) .d true, .obj (.viewTDense .mat) .d false], .tensvec, .d, [.one, .par 0, .par 1, .zero, .par 2, .ff]⟩,
  ⟨.tensvec, [.scal .d, .obj .tcrs .d true, .obj (.view1D .ten) .d true, .scal .d, .obj (.viewTDense .mat) .d false], .tensvec, .d, [.par 0, .par 1, .par 2, .par 3, .par 4, .ff]⟩,
  ⟨.tensvec, [.obj .tcrs .d true, .obj (.view1D .ten) .d true, .obj (.viewTDense .ten) .d false], .tensvec, .d, [.one, .par 0, .par 1, .zero, .par 2, .ff]⟩,
  ⟨.tensvec, [.scal .d, .obj .tcrs .d true, .obj (.view1D .ten) .d true, .scal .d, .obj (.viewTDense .ten) .d false], .tensvec, .d, [.par 0, .par 1, .par 2, .par 3, .par 4, .ff]⟩,
  ⟨.tensvec, [.obj .tcrs .s true, .obj .vector .s true, .obj .tdense .s false], .tensvec, .s, [.one, .par 0, .par 1, .zero, .par 2, .ff]⟩,
  ⟨.tensvec, [.scal .s, .obj .tcrs .s true, .obj .vector .s true, .scal .s, .obj .tdense .s false], .tensvec, .s, [.par 0, .par 1, .par 2, .par 3, .par 4, .ff]⟩,
  ⟨.tensvec, [.obj .tcrs .s true, .obj .vector .s true, .obj (.viewTDense .vec) .s false], .tensvec, .s, [.one, .par 0, .par 1, .zero, .par 2, .ff]⟩,
  ⟨.tensvec, [.scal .s, .obj .tcrs .s true, .obj .vector .s true, .scal .s, .obj (.viewTDense .vec) .s false], .tensvec, .s, [.par 0, .par 1, .par 2, .par 3, .par 4, .ff]⟩,
  ⟨.tensvec, [.obj .tcrs .s true, .obj .vector .s true, .obj (.viewTDense .mat) .s false], .tensvec, .s, [.one, .par 0, .par 1, .zero, .par 2, .ff]⟩,
  ⟨.tensvec, [.scal .s, .obj .tcrs .s true, .obj .vector .s true, .scal .s, .obj (.viewTDense .mat) .s false], .tensvec, .s, [.par 0, .par 1, .par 2, .par 3, .par 4, .ff]⟩,
  ⟨.tensvec, [.obj .tcrs .s true, .obj .vector .s true, .obj (.viewTDense .ten) .s false], .tensvec, .s, [.one, .par 0, .par 1, .zero, .par 2, .ff]⟩,
  ⟨.tensvec, [.scal .s, .obj .tcrs .s true, .obj .vector .s true, .scal .s, .obj (.viewTDense .ten) .s false], .tensvec, .s, [.par 0, .par 1, .par 2, .par 3, .par 4, .ff]⟩,
  ⟨.tensvec, [.obj .tcrs .s true, .obj (.view1D .vec) .s true, .obj .tdense .s false], .tensvec, .s, [.one, .par 0, .par 1, .zero, .par 2, .ff]⟩,
  ⟨.tensvec, [.scal .s, .obj .tcrs .s true, .obj (.view1D .vec) .s true, .scal .s, .obj .tdense .s false], .tensvec, .s, [.par 0, .par 1, .par 2, .par 3, .par 4, .ff]⟩,
  ⟨.tensvec, [.obj .tcrs .s true, .obj (.view1D .vec) .s true, .obj (.viewTDense .vec) .s false], .tensvec, .s, [.one, .par 0, .par 1, .zero, .par 2, .ff]⟩,
  ⟨.tensvec, [.scal .s, .obj .tcrs .s true, .obj (.view1D .vec) .s true, .scal .s, .obj (.viewTDense .vec) .s false], .tensvec, .s, [.par 0, .par 1, .par 2, .par 3, .par 4, .ff]⟩,
  ⟨.tensvec, [.obj .tcrs .s true, .obj (.view1D .vec) .s true, .obj (.viewTDense .mat) .s false], .tensvec, .s, [.one, .par 0, .par 1, .zero, .par 2, .ff]⟩,
  ⟨.tensvec, [.scal .s, .obj .tcrs .s true, .obj (.view1D .vec) .s true, .scal .s, .obj (.viewTDense .mat) .s false], .tensvec, .s, [.par 0, .par 1, .par 2, .par 3, .par 4, .ff]⟩,
  ⟨.tensvec, [.obj .tcrs .s true, .obj (.view1D .vec) .s true, .obj (.viewTDense .ten) .s false], .tensvec, .s, [.one, .par 0, .par 1, .zero, .par 2, .ff]⟩,
  ⟨.tensvec, [.scal .s, .obj .tcrs .s true, .obj (.view1D .vec) .s true, .scal .s, .obj (.viewTDense .ten) .s false], .tensvec, .s, [.par 0, .par 1, .par 2, .par 3, .par 4, .ff]⟩,
  ⟨.tensvec, [.obj .tcrs .s true, .obj (.view1D .mat) .s true, .obj .tdense .s false], .tensvec, .s, [.one, .par 0, .par 1, .zero, .par 2, .ff]⟩,
  ⟨.tensvec, [.scal .s, .obj .tcrs .s true, .obj (.view1D .mat) .s true, .scal .s, .obj .tdense .s false], .tensvec, .s, [.par 0, .par 1, .par 2, .par 3, .par 4, .ff]⟩,
  ⟨.tensvec, [.obj .tcrs .s true, .obj (.view1D .mat) .s true, .obj (.viewTDense .vec) .s false], .tensvec, .s, [.one, .par 0, .par 1, .zero, .par 2, .ff]⟩,
  ⟨.tensvec, [.scal .s, .obj .tcrs .s true, .obj (.view1D .mat) .s true, .scal .s, .obj (.viewTDense .vec) .s false], .tensvec, .s, [.par 0, .par 1, .par 2, .par 3, .par 4, .ff]⟩,
  ⟨.tensvec, [.obj .tcrs .s true, .obj (.view1D .mat) .s true, .obj (.viewTDense .mat) .s false], .tensvec, .s, [.one, .par 0, .par 1, .zero, .par 2, .ff]⟩,
  ⟨.tensvec, [.scal .s, .obj .tcrs .s true, .obj (.view1D .mat) .s true, .scal .s, .obj (.viewTDense .mat) .s false], .tensvec, .s, [.par 0, .par 1, .par 2, .par 3, .par 4, .ff]⟩,
  ⟨.tensvec, [.obj .tcrs .s true, .obj (.view1D .mat) .s true, .obj (.viewTDense .ten) .s false], .tensvec, .s, [.one, .par 0, .par 1, .zero, .par 2, .ff]⟩,
  ⟨.tensvec, [.scal .s, .obj .tcrs .s true, .obj (.view1D .mat) .s true, .scal .s, .obj (.viewTDense .ten) .s false], .tensvec, .s, [.par 0, .par 1, .par 2, .par 3, .par 4, .ff]⟩,
  ⟨.tensvec, [.obj .tcrs .s true, .obj (.view1D .ten) .s true, .obj .tdense .s false], .tensvec, .s, [.one, .par 0, .par 1, .zero, .par 2, .ff]⟩,
  ⟨.tensvec, [.scal .s, .obj .tcrs .s true, .obj (.view1D .ten) .s true, .scal .s, .obj .tdense .s false], .tensvec, .s, [.par 0, .par 1, .par 2, .par 3, .par 4, .ff]⟩,
  ⟨.tensvec, [.obj .tcrs .s true, .obj (.view1D .ten) .s true, .obj (.viewTDense .vec) .s false], .tensvec, .s, [.one, .par 0, .par 1, .zero, .par 2, .ff]⟩,
  ⟨.tensvec, [.scal .s, .obj .tcrs .s true, .obj (.view1D .ten) .s true, .scal .s, .obj (.viewTDense .vec) .s false], .tensvec, .s, [.par 0, .par 1, .par 2, .par 3, .par 4, .ff]⟩,
  ⟨.tensvec, [.obj .tcrs .s true, .obj (.view1D .ten) .s true, .obj (.viewTDense .mat) .s false], .tensvec, .s, [.one, .par 0, .par 1, .zero, .par 2, .ff]⟩,
  ⟨.tensvec, [.scal .s, .obj .tcrs .s true, .obj (.view1D .ten) .s true, .scal .s, .obj (.viewTDense .mat) .s false], .tensvec, .s, [.par 0, .par 1, .par 2, .par 3, .par 4, .ff]⟩,
  ⟨.tensvec, [.obj .tcrs .s true, .obj (.view1D .ten) .s true, .obj (.viewTDense .ten) .s false], .tensvec, .s, [.one, .par 0, .par 1, .zero, .par 2, .ff]⟩,
  ⟨.tensvec, [.scal .s, .obj .tcrs .s true, .obj (.view1D .ten) .s true, .scal .s, .obj (.viewTDense .ten) .s false], .tensvec, .s, [.par 0, .par 1, .par 2, .par 3, .par 4, .ff]⟩]

/-- the product overloads of src/blas/tensor/tensvec/tensvec_blas.cpp (320 of them; 0 with a LinearOperator left out) -/
def tTensvec : List (List Overload) :=
  [tTensvec_0, tTensvec_1, tTensvec_2, tTensvec_3]

/-- src/blas/tensor/tensmat/tensmat_blas.cpp:9-437 -/
def tTensmat_0 : List Overload := [
  ⟨.tensmat, [.obj .tdense .d true, .obj .dense .d true, .obj .tdense .d false], .tensmat_dense, .d, [.one, .par 0, .par 1, .zero, .par 2, .ff, .ff]⟩,
  ⟨.tensmat, [.scal .d, .obj .tdense .d true, .obj .dense .d true, .scal .d, .obj .tdense .d false], .tensmat_dense, .d, [.par 0, .par 1, .par 2, .par 3, .par 4, .ff, .ff]⟩,
  ⟨.tensmat, [.obj .tdense .d true, .obj .dense .d true, .obj (.viewTDense .vec) .d false], .tensmat_dense, .d, [.one, .par 0, .par 1, .zero, .par 2, .ff, .ff]⟩,
  ⟨.tensmat, [.scal .d, .obj .tdense .d true, .obj .dense .d true, .scal .d, .obj (.viewTDense .vec) .d false], .tensmat_dense, .d, [.par 0, .par 1, .par 2, .par 3, .par 4, .ff, .ff]⟩,
  ⟨.tensmat, [.obj .tdense .d true, .obj .dense .d true, .obj (.viewTDense .mat) .d false], .tensmat_dense, .d, [.one, .par 0, .par 1, .zero, .par 2, .ff, .ff]⟩,
  ⟨.tensmat, [.scal .d, .obj .tdense .d true, .obj .dense .d true, .scal .d, .obj (.viewTDense .mat) .d false], .tensmat_dense, .d, [.par 0, .par 1, .par 2, .par 3, .par 4, .ff, .ff]⟩,
  ⟨.tensmat, [.obj .tdense .d true, .obj .dense .d true, .obj (.viewTDense .ten) .d false], .tensmat_dense, .d, [.one, .par 0, .par 1, .zero, .par 2, .ff, .ff]⟩,
  ⟨.tensmat, [.scal .d, .obj .tdense .d true, .obj .dense .d true, .scal .d, .obj (.viewTDense .ten) .d false], .tensmat_dense, .d, [.par 0, .par 1, .par 2, .par 3, .par 4, .ff, .ff]⟩,
  ⟨.tensmat, [.obj .tdense .d true, .obj (.viewDense .vec) .d true, .obj .tdense .d false], .tensmat_dense, .d, [.one, .par 0, .par 1, .zero, .par 2, .ff, .ff]⟩,
  ⟨.tensmat, [.scal .d, .obj .tdense .d true, .obj (.viewDense .vec) .d true, .scal .d, .obj .tdense .d false], .tensmat_dense, .d, [.par 0, .par 1, .par 2, .par 3, .par 4, .ff, .ff]⟩,
  ⟨.tensmat, [.obj .tdense .d true, .obj (.viewDense .vec) .d true, .obj (.viewTDense .vec) .d false], .tensmat_dense, .d, [.one, .par 0, .par 1, .zero, .par 2, .ff, .ff]⟩,
  ⟨.tensmat, [.scal .d, .obj .tdense .d true, .obj (.viewDense .vec) .d true, .scal .d, .obj (.viewTDense .vec) .d false], .tensmat_dense, .d, [.par 0, .par 1, .par 2, .par 3, .par 4, .ff, .ff]⟩,
  ⟨.tensmat, [.obj .tdense .d true, .obj (.viewDense .vec) .d true, .obj (.viewTDense .mat) .d false], .tensmat_dense, .d, [.one, .par 0, .par 1, .zero, .par 2, .ff, .ff]⟩,
  ⟨.tensmat, [.scal .d, .obj .tdense .d true, .obj (.viewDense .vec) .d true, .scal .d, .obj (.viewTDense .mat) .d false], .tensmat_dense, .d, [.par 0, .par 1, .par 2, .par 3, .par 4, .ff, .ff]⟩,
  ⟨.tensmat, [.obj .tdense .d true, .obj (.viewDense .vec) .d true, .obj (.viewTDense .ten) .d false], .tensmat_dense, .d, [.one, .par 0, .par 1, .zero, .par 2, .ff, .ff]⟩,
  ⟨.tensmat, [.scal .d, .obj .tdense .d true, .obj (.viewDense .vec) .d true, .scal .d, .obj (.viewTDense .ten) .d false], .tensmat_dense, .d, [.par 0, .par 1, .par 2, .par 3, .par 4, .ff, .ff]⟩,
  ⟨.tensmat, [.obj .tdense .d true, .obj (.viewDense .mat) .d true, .obj .tdense .d false], .tensmat_dense, .d, [.one, .par 0, .par 1, .zero, .par 2, .ff, .ff]⟩,
  ⟨.tensmat, [.scal .d, .obj .tdense .d true, .obj (.viewDense .mat) .d true, .scal .d, .obj .tdense .d false], .tensmat_dense, .d, [.par 0, .par 1, .par 2, .par 3, .par 4, .ff, .ff]⟩,
  ⟨.tensmat, [.obj .tdense .d true, .obj (.viewDense .mat) .d true, .obj (.viewTDense .vec) .d false], .tensmat_dense, .d, [.one, .par 0, .par 1, .zero, .par 2, .ff, .ff]⟩,
  ⟨.tensmat, [.scal .d, .obj .tdense .d true, .obj (.viewDense .mat) .d true, .scal .d, .obj (.viewTDense .vec) .d false], .tensmat_dense, .d, [.par 0, .par 1, .par 2, .par 3, .par 4, .ff, .ff]⟩,
  ⟨.tensmat, [.obj .tdense .d true, .obj (.viewDense .mat) .d true, .obj (.viewTDense .mat) .d false], .tensmat_dense, .d, [.one, .par 0, .par 1, .zero, .par 2, .ff, .ff]⟩,
  ⟨.tensmat, [.scal .d, .obj .tdense .d true, .obj (.viewDense .mat) .d true, .scal .d, .obj (.viewTDense .mat) .d false], .tensmat_dense, .d, [.par 0, .par 1, .par 2, .par 3, .par 4, .ff, .ff]⟩,
  ⟨.tensmat, [.obj .tdense .d true, .obj (.viewDense .mat) .d true, .obj (.viewTDense .ten) .d false], .tensmat_dense, .d, [.one, .par 0, .par 1, .zero, .par 2, .ff, .ff]⟩,
  ⟨.tensmat, [.scal .d, .obj .tdense .d true, .obj (.viewDense .mat) .d true, .scal .d, .obj (.viewTDense .ten) .d false], .tensmat_dense, .d, [.par 0, .par 1, .par 2, .par 3, .par 4, .ff, .ff]⟩,
  ⟨.tensmat, [.obj .tdense .d true, .obj (.viewDense .ten) .d true, .obj .tdense .d false], .tensmat_dense, .d, [.one, .par 0, .par 1, .zero, .par 2, .ff, .ff]⟩,
  ⟨.tensmat, [.scal .d, .obj .tdense .d true, .obj (.viewDense .ten) .d true, .scal .d, .obj .tdense .d false], .tensmat_dense, .d, [.par 0, .par 1, .par 2, .par 3, .par 4, .ff, .ff]⟩,
  ⟨.tensmat, [.obj .tdense .d true, .obj (.viewDense .ten) .d true, .obj (.viewTDense .vec) .d false], .tensmat_dense, .d, [.one, .par 0, .par 1, .zero, .par 2, .ff, .ff]⟩,
  ⟨.tensmat, [.scal .d, .obj .tdense .d true, .obj (.viewDense .ten) .d true, .scal .d, .obj (.viewTDense .vec) .d false], .tensmat_dense, .d, [.par 0, .par 1, .par 2, .par 3, .par 4, .ff, .ff]⟩,
  ⟨.tensmat, [.obj .tdense .d true, .obj (.viewDense .ten) .d true, .obj (.viewTDense .mat) .d false], .tensmat_dense, .d, [.one, .par 0, .par 1, .zero, .par 2, .ff, .ff]⟩,
  ⟨.tensmat, [.scal .d, .obj .tdense .d true, .obj (.viewDense .ten) .d true, .scal .d, .obj (.viewTDense .mat) .d false], .tensmat_dense, .d, [.par 0, .par 1, .par 2, .par 3, .par 4, .ff, .ff]⟩,
  ⟨.tensmat, [.obj .tdense .d true, .obj (.viewDense .ten) .d true, .obj (.viewTDense .ten) .d false], .tensmat_dense, .d, [.one, .par 0, .par 1, .zero, .par 2, .ff, .ff]⟩,
  ⟨.tensmat, [.scal .d, .obj .tdense .d true, .obj (.viewDense .ten) .d true, .scal .d, .obj (.viewTDense .ten) .d false], .tensmat_dense, .d, [.par 0, .par 1, .par 2, .par 3, .par 4, .ff, .ff]⟩,
  ⟨.tensmat, [.obj (.viewTDense .vec) .d true, .obj .dense .d true, .obj .tdense .d false], .tensmat_dense, .d, [.one, .par 0, .par 1, .zero, .par 2, .ff, .ff]⟩,
  ⟨.tensmat, [.scal .d, .obj (.viewTDense .vec) .d true, .obj .dense .d true, .scal .d, .obj .tdense .d false], .tensmat_dense, .d, [.par 0, .par 1, .par 2, .par 3, .par 4, .ff, .ff]⟩,
  ⟨.tensmat, [.obj (.viewTDense .vec) .d true, .obj .dense .d true, .obj (.viewTDense .vec) .d false], .tensmat_dense, .d, [.one, .par 0, .par 1, .zero, .par 2, .ff, .ff]⟩,
  ⟨.tensmat, [.scal .d, .obj (.viewTDense .vec) .d true, .obj .dense .d true, .scal .d, .obj (.viewTDense .vec) .d false], .tensmat_dense, .d, [.par 0, .par 1, .par 2, .par 3, .par 4, .ff, .ff]⟩,
  ⟨.tensmat, [.obj (.viewTDense .vec) .d true, .obj .dense .d true, .obj (.viewTDense .mat) .d false], .tensmat_dense, .d, [.one, .par 0, .par 1, .zero, .par 2, .ff, .ff]⟩,
  ⟨.tensmat, [.scal .d, .obj (.viewTDense .vec) .d true, .obj .dense .d true, .scal .d, .obj (.viewTDense .mat) .d false], .tensmat_dense, .d, [.par 0, .par 1, .par 2, .par 3, .par 4, .ff, .ff]⟩,
  ⟨.tensmat, [.obj (.viewTDense .vec) .d true, .obj .dense .d true, .obj (.viewTDense .ten) .d false], .tensmat_dense, .d, [.one, .par 0, .par 1, .zero, .par 2, .ff, .ff]⟩,
  ⟨.tensmat, [.scal .d, .obj (.viewTDense .vec) .d true, .obj .dense .d true, .scal .d, .obj (.viewTDense .ten) .d false], .tensmat_dense, .d, [.par 0, .par 1, .par 2, .par 3, .par 4, .ff, .ff]⟩,
  ⟨.tensmat, [.obj (.viewTDense .vec) .d true, .obj (.viewDense .vec) .d true, .obj .tdense .d false], .tensmat_dense, .d, [.one, .par 0, .par 1, .zero, .par 2, .ff, .ff]⟩,
  ⟨.tensmat, [.scal .d, .obj (.viewTDense .vec) .d true, .obj (.viewDense .vec) .d true, .scal .d, .obj .tdense .d false], .tensmat_dense, .d, [.par 0, .par 1, .par 2, .par 3, .par 4, .ff, .ff]⟩,
  ⟨.tensmat, [.obj (.viewTDense .vec) .d true, .obj (.viewDense .vec) .d true, .obj (.viewTDense .vec) .d false], .tensmat_dense, .d, [.one, .par 0, .par 1, .zero, .par 2, .ff, .ff]⟩,
  ⟨.tensmat, [.scal .d, .obj (.viewTDense .vec) .d true, .obj (.viewDense .vec) .d true, .scal .d, .obj (.viewTDense .vec) .d false], .tensmat_dense, .d, [.par 0, .par 1, .par 2, .par 3, .par 4, .ff, .ff]⟩,
  ⟨.tensmat, [.obj (.viewTDense .vec) .d true, .obj (.viewDense .vec) .d true, .obj (.viewTDense .mat) .d false], .tensmat_dense, .d, [.one, .par 0, .par 1, .zero, .par 2, .ff, .ff]⟩,
  ⟨.tensmat, [.scal .d, .obj (.viewTDense .vec) .d true, .obj (.viewDense .vec) .d true, .scal .d, .obj (.viewTDense .mat) .d false], .tensmat_dense, .d, [.par 0, .par 1, .par 2, .par 3, .par 4, .ff, .ff]⟩,
  ⟨.tensmat, [.obj (.viewTDense .vec) .d true, .obj (.viewDense .vec) .d true, .obj (.viewTDense .ten) .d false], .tensmat_dense, .d, [.one, .par 0, .par 1, .zero, .par 2, .ff, .ff]⟩,
  ⟨.tensmat, [.scal .d, .obj (.viewTDense .vec) .d true, .obj (.viewDense .vec) .d true, .scal .d, .obj (.viewTDense .ten) .d false], .tensmat_dense, .d, [.par 0, .par 1, .par 2, .par 3, .par 4, .ff, .ff]⟩,
  ⟨.tensmat, [.obj (.viewTDense .vec) .d true, .obj (.viewDense .mat) .d true, .obj .tdense .d false], .tensmat_dense, .d, [.one, .par 0, .par 1, .zero, .par 2, .ff, .ff]⟩,
  ⟨.tensmat, [.scal .d, .obj (.viewTDense .vec) .d true, .obj (.viewDense .mat) .d true, .scal .d, .obj .tdense .d false], .tensmat_dense, .d, [.par 0, .par 1, .par 2, .par 3, .par 4, .ff, .ff]⟩,
  ⟨.tensmat, [.obj (.viewTDense .vec) .d true, .obj (.viewDense .mat) .d true, .obj (.viewTDense .vec) .d false], .tensmat_dense, .d, [.one, .par 0, .par 1, .zero, .par 2, .ff, .ff]⟩,
  ⟨.tensmat, [.scal .d, .obj (.viewTDense .vec) .d true, .obj (.viewDense .mat) .d true, .scal .d, .obj (.viewTDense .vec) .d false], .tensmat_dense, .d, [.par 0, .par 1, .par 2, .par 3, .par 4, .ff, .ff]⟩,
  ⟨.tensmat, [.obj (.viewTDense .vec) .d true, .obj (.viewDense .mat) .d true, .obj (.viewTDense .mat) .d false], .tensmat_dense, .d, [.one, .par 0, .par 1, .zero, .par 2, .ff, .ff]⟩,
  ⟨.tensmat, [.scal .d, .obj (.viewTDense .vec) .d true, .obj (.viewDense .mat) .d true, .scal .d, .obj (.viewTDense .mat) .d false], .tensmat_dense, .d, [.par 0, .par 1, .par 2, .par 3, .par 4, .ff, .ff]⟩,
  ⟨.tensmat, [.obj (.viewTDense .vec) .d true, .obj (.viewDense .mat) .d true, .obj (.viewTDense .ten) .d false], .tensmat_dense, .d, [.one, .par 0, .par 1, .zero, .par 2, .ff, .ff]⟩,
  ⟨.tensmat, [.scal .d, .obj (.viewTDense .vec) .d true, .obj (.viewDense .mat) .d true, .scal .d, .obj (.viewTDense .ten) .d false], .tensmat_dense, .d, [.par 0, .par 1, .par 2, .par 3, .par 4, .ff, .ff]⟩,
  ⟨.tensmat, [.obj (.viewTDense .vec) .d true, .obj (.viewDense .ten) .d true, .obj .tdense .d false], .tensmat_dense, .d, [.one, .par 0, .par 1, .zero, .par 2, .ff, .ff]⟩,
  ⟨.tensmat, [.scal .d, .obj (.viewTDense .vec) .d true, .obj (.viewDense .ten) .d true, .scal .d, .obj .tdense .d false], .tensmat_dense, .d, [.par 0, .par 1, .par 2, .par 3, .par 4, .ff, .ff]⟩,
  ⟨.tensmat, [.obj (.viewTDense .vec) .d true, .obj (.viewDense .ten) .d true, .obj (.viewTDense .vec) .d false], .tensmat_dense, .d, [.one, .par 0, .par 1, .zero, .par 2, .ff, .ff]⟩,
  ⟨.tensmat, [.scal .d, .obj (.viewTDense .vec) .d true, .obj (.viewDense .ten) .d true, .scal .d, .obj (.viewTDense .vec) .d false], .tensmat_dense, .d, [.par 0, .par 1, .par 2, .par 3, .par 4, .ff, .ff]⟩,
  ⟨.tensmat, [.obj (.viewTDense .vec) .d true, .obj (.viewDense .ten) .d true, .obj (.viewTDense .mat) .d false], .tensmat_dense, .d, [.one, .par 0, .par 1, .zero, .par 2, .ff, .ff]⟩,
  ⟨.tensmat, [.scal .d, .obj (.viewTDense .vec) .d true, .obj (.viewDense .ten) .d true, .scal .d, .obj (.viewTDense .mat) .d false], .tensmat_dense, .d, [.par 0, .par 1, .par 2, .par 3, .par 4, .ff, .ff]⟩,
  ⟨.tensmat, [.obj (.viewTDense .vec) .d true, .obj (.viewDense .ten) .d true, .obj (.viewTDense .ten) .d false], .tensmat_dense, .d, [.one, .par 0, .par 1, .zero, .par 2, .ff, .ff]⟩,
  ⟨.tensmat, [.scal .d, .obj (.viewTDense .vec) .d true, .obj (.viewDense .ten) .d true, .scal .d, .obj (.viewTDense .ten) .d false], .tensmat_dense, .d, [.par 0, .par 1, .par 2, .par 3, .par 4, .ff, .ff]⟩,
  ⟨.tensmat, [.obj (.viewTDense .mat) .d true, .obj .dense .d true, .obj .tdense .d false], .tensmat_dense, .d, [.one, .par 0, .par 1, .zero, .par 2, .ff, .ff]⟩,
  ⟨.tensmat, [.scal .d, .obj (.viewTDense .mat) .d true, .obj .dense .d true, .scal .d, .obj .tdense .d false], .tensmat_dense, .d, [.par 0, .par 1, .par 2, .par 3, .par 4, .ff, .ff]⟩,
  ⟨.tensmat, [.obj (.viewTDense .mat) .d true, .obj .dense .d true, .obj (.viewTDense .vec) .d false], .tensmat_dense, .d, [.one, .par 0, .par 1, .zero, .par 2, .ff, .ff]⟩,
  ⟨.tensmat, [.scal .d, .obj (.viewTDense .mat) .d true, .obj .dense .d true, .scal .d, .obj (.viewTDense .vec) .d false], .tensmat_dense, .d, [.par 0, .par 1, .par 2, .par 3, .par 4, .ff, .ff]⟩,
  ⟨.tensmat, [.obj (.viewTDense .mat) .d true, .obj .dense .d true, .obj (.viewTDense .mat) .d false], .tensmat_dense, .d, [.one, .par 0, .par 1, .zero, .par 2, .ff, .ff]⟩,
  ⟨.tensmat, [.scal .d, .obj (.viewTDense .mat) .d true, .obj .dense .d true, .scal .d, .obj (.viewTDense .mat) .d false], .tensmat_dense, .d, [.par 0, .par 1, .par 2, .par 3, .par 4, .ff, .ff]⟩,
  ⟨.tensmat, [.obj (.viewTDense .mat) .d true, .obj .dense .d true, .obj (.viewTDense .ten) .d false], .tensmat_dense, .d, [.one, .par 0, .par 1, .zero, .par 2, .ff, .ff]⟩,
  ⟨.tensmat, [.scal .d, .obj (.viewTDense .mat) .d true, .obj .dense .d true, .scal .d, .obj (.viewTDense .ten) .d false], .tensmat_dense, .d, [.par 0, .par 1, .par 2, .par 3, .par 4, .ff, .ff]⟩,
  ⟨.tensmat, [.obj (.viewTDense .mat) .d true, .obj (.viewDense .vec) .d true, .obj .tdense .d false], .tensmat_dense, .d, [.one, .par 0, .par 1, .zero, .par 2, .ff, .ff]⟩,
  ⟨.tensmat, [.scal .d, .obj (.viewTDense .mat) .d true, .obj (.viewDense .vec) .d true, .scal .d, .obj .tdense .d false], .tensmat_dense, .d, [.par 0, .par 1, .par 2, .par 3, .par 4, .ff, .ff]⟩,
  ⟨.tensmat, [.obj (.viewTDense .mat) .d true, .obj (.viewDense .vec) .d true, .obj (.viewTDense .vec) .d false], .tensmat_dense, .d, [.one, .par 0, .par 1, .zero, .par 2, .ff, .ff]⟩,
  ⟨.tensmat, [.scal .d, .obj (.viewTDense .mat) .d true, .obj (.viewDense .vec) .d true, .scal .d, .obj (.viewTDense .vec) .d false], .tensmat_dense, .d, [.par 0, .par 1, .par 2, .par 3, .par 4, .ff, .ff]⟩,
  ⟨.tensmat, [.obj (.viewTDense .mat) .d true, .obj (.viewDense .vec) .d true, .obj (.viewTDense .mat) .d false], .tensmat_dense, .d, [.one, .par 0, .par 1, .zero, .par 2, .ff, .ff]⟩,
  ⟨.tensmat, [.scal .d, .obj (.viewTDense .mat) .d true, .obj (.viewDense .vec) .d true, .scal .d, .obj (.viewTDense .mat) .d false], .tensmat_dense, .d, [.par 0, .par 1, .par 2, .par 3, .par 4, .ff, .ff]⟩,
  ⟨.tensmat, [.obj (.viewTDense .mat) .d true, .obj (.viewDense .vec) .d true, .obj (.viewTDense .ten) .d false], .tensmat_dense, .d, [.one, .par 0, .par 1, .zero, .par 2, .ff, .ff]⟩,
  ⟨.tensmat, [.scal .d, .obj (.viewTDense .mat) .d true, .obj (.viewDense .vec) .d true, .scal .d, .obj (.viewTDense .ten) .d false], .tensmat_dense, .d, [.par 0, .par 1, .par 2, .par 3, .par 4, .ff, .ff]⟩]

/-- src/blas/tensor/tensmat/tensmat_blas.cpp:438-869 -/
def tTensmat_1 : List Overload := [
  ⟨.tensmat, [.obj (.viewTDense .mat) .d true, .obj (.viewDense .mat) .d true, .obj .tdense .d false], .tensmat_dense, .d, [.one, .par 0, .par 1, .zero, .par 2, .ff, .ff]⟩,
  ⟨.tensmat, [.scal .d, .obj (.viewTDense .mat) .d true, .obj (.viewDense .mat) .d true, .scal .d, .obj .tdense .d false], .tensmat_dense, .d, [.par 0, .par 1, .par 2, .par 3, .par 4, .ff, .ff]⟩,
  ⟨.tensmat, [.obj (.viewTDense .mat) .d true, .obj (.viewDense .mat) .d true, .obj (.viewTDense .vec) .d false], .tensmat_dense, .d, [.one, .par 0, .par 1, .zero, .par 2, .ff, .ff]⟩,
  ⟨.tensmat, [.scal .d, .obj (.viewTDense .mat) .d true, .obj (.viewDense .mat) .d true, .scal .d, .obj (.viewTDense .vec) .d false], .tensmat_dense, .d, [.par 0, .par 1, .par 2, .par 3, .par 4, .ff, .ff]⟩,
  ⟨.tensmat, [.obj (.viewTDense .mat) .d true, .obj (.viewDense .mat) .d true, .obj (.viewTDense .mat) .d false], .tensmat_dense, .d, [.one, .par 0, .par 1, .zero, .par 2, .ff, .ff]⟩,
  ⟨.tensmat, [.scal .d, .obj (.viewTDense .mat) .d true, .obj (.viewDense .mat) .d true, .scal .d, .obj (.viewTDense .mat) .d false], .tensmat_dense, .d, [.par 0, .par 1, .par 2, .par 3, .par 4, .ff, .ff]⟩,
  ⟨.tensmat, [.obj (.viewTDense .mat) .d true, .obj (.viewDense .mat) .d true, .obj (.viewTDense .ten) .d false], .tensmat_dense, .d, [.one, .par 0, .par 1, .zero, .par 2, .ff, .ff]⟩,
  ⟨.tensmat, [.scal .d, .obj (.viewTDense .mat) .d true, .obj (.viewDense .mat) .d true, .scal .d, .obj (.viewTDense .ten) .d false], .tensmat_dense, .d, [.par 0, .par 1, .par 2, .par 3, .par 4, .ff, .ff]⟩,
  ⟨.tensmat, [.obj (.viewTDense .mat) .d true, .obj (.viewDense .ten) .d true, .obj .tdense .d false], .tensmat_dense, .d, [.one, .par 0, .par 1, .zero, .par 2, .ff, .ff]⟩,
  ⟨.tensmat, [.scal .d, .obj (.viewTDense .mat) .d true, .obj (.viewDense .ten) .d true, .scal .d, .obj .tdense .d false], .tensmat_dense, .d, [.par 0, .par 1, .par 2, .par 3, .par 4, .ff, .ff]⟩,
  ⟨.tensmat, [.obj (.viewTDense .mat) .d true, .obj (.viewDense .ten) .d true, .obj (.viewTDense .vec) .d false], .tensmat_dense, .d, [.one, .par 0, .par 1, .zero, .par 2, .ff, .ff]⟩,
  ⟨.tensmat, [.scal .d, .obj (.viewTDense .mat) .d true, .obj (.viewDense .ten) .d true, .scal .d, .obj (.viewTDense .vec) .d false], .tensmat_dense, .d, [.par 0, .par 1, .par 2, .par 3, .par 4, .ff, .ff]⟩,
  ⟨.tensmat, [.obj (.viewTDense .mat) .d true, .obj (.viewDense .ten) .d true, .obj (.viewTDense .mat) .d false], .tensmat_dense, .d, [.one, .par 0, .par 1, .zero, .par 2, .ff, .ff]⟩,
  ⟨.tensmat, [.scal .d, .obj (.viewTDense .mat) .d true, .obj (.viewDense .ten) .d true, .scal .d, .obj (.viewTDense .mat) .d false], .tensmat_dense, .d, [.par 0, .par 1, .par 2, .par 3, .par 4, .ff, .ff]⟩,
  ⟨.tensmat, [.obj (.viewTDense .mat) .d true, .obj (.viewDense .ten) .d true, .obj (.viewTDense .ten) .d false], .tensmat_dense, .d, [.one, .par 0, .par 1, .zero, .par 2, .ff, .ff]⟩,
  ⟨.tensmat, [.scal .d, .obj (.viewTDense .mat) .d true, .obj (.viewDense .ten) .d true, .scal .d, .obj (.viewTDense .ten) .d false], .tensmat_dense, .d, [.par 0, .par 1, .par 2, .par 3, .par 4, .ff, .ff]⟩,
  ⟨.tensmat, [.obj (.viewTDense .ten) .d true, .obj .dense .d true, .obj .tdense .d false], .tensmat_dense, .d, [.one, .par 0, .par 1, .zero, .par 2, .ff, .ff]⟩,
  ⟨.tensmat, [.scal .d, .obj (.viewTDense .ten) .d true, .obj .dense .d true, .scal .d, .obj .tdense .d false], .tensmat_dense, .d, [.par 0, .par 1, .par 2, .par 3, .par 4, .ff, .ff]⟩,
  ⟨.tensmat, [.obj (.viewTDense .ten) .d true, .obj .dense .d true, .obj (.viewTDense .vec) .d false], .tensmat_dense, .d, [.one, .par 0, .par 1, .zero, .par 2, .ff, .ff]⟩,
  ⟨.tensmat, [.scal .d, .obj (.viewTDense .ten) .d true, .obj .dense .d true, .scal .d, .obj (.viewTDense .vec) .d false], .tensmat_dense, .d, [.par 0, .par 1, .par 2, .par 3, .par 4, .ff, .ff]⟩,
  ⟨.tensmat, [.obj (.viewTDense .ten) .d true, .obj .dense .d true, .obj (.viewTDense .mat) .d false], .tensmat_dense, .d, [.one, .par 0, .par 1, .zero, .par 2, .ff, .ff]⟩,
  ⟨.tensmat, [.scal .d, .obj (.viewTDense .ten) .d true, .obj .dense .d true, .scal .d, .obj (.viewTDense .mat) .d false], .tensmat_dense, .d, [.par 0, .par 1, .par 2, .par 3, .par 4, .ff, .ff]⟩,
  ⟨.tensmat, [.obj (.viewTDense .ten) .d true, .obj .dense .d true, .obj (.viewTDense .ten) .d false], .tensmat_dense, .d, [.one, .par 0, .par 1, .zero, .par 2, .ff, .ff]⟩,
  ⟨.tensmat, [.scal .d, .obj (.viewTDense .ten) .d true, .obj .dense .d true, .scal .d, .obj (.viewTDense .ten) .d false], .tensmat_dense, .d, [.par 0, .par 1, .par 2, .par 3, .par 4, .ff, .ff]⟩,
  ⟨.tensmat, [.obj (.viewTDense .ten) .d true, .obj (.viewDense .vec) .d true, .obj .tdense .d false], .tensmat_dense, .d, [.one, .par 0, .par 1, .zero, .par 2, .ff, .ff]⟩,
  ⟨.tensmat, [.scal .d, .obj (.viewTDense .ten) .d true, .obj (.viewDense .vec) .d true, .scal .d, .obj .tdense .d false], .tensmat_dense, .d, [.par 0, .par 1, .par 2, .par 3, .par 4, .ff, .ff]⟩,
  ⟨.tensmat, [.obj (.viewTDense .ten) .d true, .obj (.viewDense .vec) .d true, .obj (.viewTDense .vec) .d false], .tensmat_dense, .d, [.one, .par 0, .par 1, .zero, .par 2, .ff, .ff]⟩,
  ⟨.tensmat, [.scal .d, .obj (.viewTDense .ten) .d true, .obj (.viewDense .vec) .d true, .scal .d, .obj (.viewTDense .vec) .d false], .tensmat_dense, .d, [.par 0, .par 1, .par 2, .par 3, .par 4, .ff, .ff]⟩,
  ⟨.tensmat, [.obj (.viewTDense .ten) .d true, .obj (.viewDense .vec) .d true, .obj (.viewTDense .mat) .d false], .tensmat_dense, .d, [.one, .par 0, .par 1, .zero, .par 2, .ff, .ff]⟩,
  ⟨.tensmat, [.scal .d, .obj (.viewTDense .ten) .d true, .obj (.viewDense .vec) .d true, .scal .d, .obj (.viewTDense .mat) .d false], .tensmat_dense, .d, [.par 0, .par 1, .par 2, .par 3, .par 4, .ff, .ff]⟩,
  ⟨.tensmat, [.obj (.viewTDense .ten) .d true, .obj (.viewDense .vec) .d true, .obj (.viewTDense .ten) .d false], .tensmat_dense, .d, [.one, .par 0, .par 1, .zero, .par 2, .ff, .ff]⟩,
  ⟨.tensmat, [.scal .d, .obj (.viewTDense .ten) .d true, .obj (.viewDense .vec) .d true, .scal .d, .obj (.viewTDense .ten) .d false], .tensmat_dense, .d, [.par 0, .par 1, .par 2, .par 3, .par 4, .ff, .ff]⟩,
  ⟨.tensmat, [.obj (.viewTDense .ten) .d true, .obj (.viewDense .mat) .d true, .obj .tdense .d false], .tensmat_dense, .d, [.one, .par 0, .par 1, .zero, .par 2, .ff, .ff]⟩,
  ⟨.tensmat, [.scal .d, .obj (.viewTDense .ten) .d true, .obj (.viewDense .mat) .d true, .scal .d, .obj .tdense .d false], .tensmat_dense, .d, [.par 0, .par 1, .par 2, .par 3, .par 4, .ff, .ff]⟩,
  ⟨.tensmat, [.obj (.viewTDense .ten) .d true, .obj (.viewDense .mat) .d true, .obj (.viewTDense .vec) .d false], .tensmat_dense, .d, [.one, .par 0, .par 1, .zero, .par 2, .ff, .ff]⟩,
  ⟨.tensmat, [.scal .d, .obj (.viewTDense .ten) .d true, .obj (.viewDense .mat) .d true, .scal .d, .obj (.viewTDense .vec) .d false], .tensmat_dense, .d, [.par 0, .par 1, .par 2, .par 3, .par 4, .ff, .ff]⟩,
  ⟨.tensmat, [.obj (.viewTDense .ten) .d true, .obj (.viewDense .mat) .d true, .obj (.viewTDense .mat) .d false], .tensmat_dense, .d, [.one, .par 0, .par 1, .zero, .par 2, .ff, .ff]⟩,
  ⟨.tensmat, [.scal .d, .obj (.viewTDense .ten) .d true, .obj (.viewDense .mat) .d true, .scal .d, .obj (.viewTDense .mat) .d false], .tensmat_dense, .d, [.par 0, .par 1, .par 2, .par 3, .par 4, .ff, .ff]⟩,
  ⟨.tensmat, [.obj (.viewTDense .ten) .d true, .obj (.viewDense .mat) .d true, .obj (.viewTDense .ten) .d false], .tensmat_dense, .d, [.one, .par 0, .par 1, .zero, .par 2, .ff, .ff]⟩,
  ⟨.tensmat, [.scal .d, .obj (.viewTDense .ten) .d true, .obj (.viewDense .mat) .d true, .scal .d, .obj (.viewTDense .ten) .d false], .tensmat_dense, .d, [.par 0, .par 1, .par 2, .par 3, .par 4, .ff, .ff]⟩,
  ⟨.tensmat, [.obj (.viewTDense .ten) .d true, .obj (.viewDense .ten) .d true, .obj .tdense .d false], .tensmat_dense, .d, [.one, .par 0, .par 1, .zero, .par 2, .ff, .ff]⟩,
  ⟨.tensmat, [.scal .d, .obj (.viewTDense .ten) .d true, .obj (.viewDense .ten) .d true, .scal .d, .obj .tdense .d false], .tensmat_dense, .d, [.par 0, .par 1, .par 2, .par 3, .par 4, .ff, .ff]⟩,
  ⟨.tensmat, [.obj (.viewTDense .ten) .d true, .obj (.viewDense .ten) .d true, .obj (.viewTDense .vec) .d false], .tensmat_dense, .d, [.one, .par 0, .par 1, .zero, .par 2, .ff, .ff]⟩,
  ⟨.tensmat, [.scal .d, .obj (.viewTDense .ten) .d true, .obj (.viewDense .ten) .d true, .scal .d, .obj (.viewTDense .vec) .d false], .tensmat_dense, .d, [.par 0, .par 1, .par 2, .par 3, .par 4, .ff, .ff]⟩,
  ⟨.tensmat, [.obj (.viewTDense .ten) .d true, .obj (.viewDense .ten) .d true, .obj (.viewTDense .mat) .d false], .tensmat_dense, .d, [.one, .par 0, .par 1, .zero, .par 2, .ff, .ff]⟩,
  ⟨.tensmat, [.scal .d, .obj (.viewTDense .ten) .d true, .obj (.viewDense .ten) .d true, .scal .d, .obj (.viewTDense .mat) .d false], .tensmat_dense, .d, [.par 0, .par 1, .par 2, .par 3, .par 4, .ff, .ff]⟩,
  ⟨.tensmat, [.obj (.viewTDense .ten) .d true, .obj (.viewDense .ten) .d true, .obj (.viewTDense .ten) .d false], .tensmat_dense, .d, [.one, .par 0, .par 1, .zero, .par 2, .ff, .ff]⟩,
  ⟨.tensmat, [.scal .d, .obj (.viewTDense .ten) .d true, .obj (.viewDense .ten) .d true, .scal .d, .obj (.viewTDense .ten) .d false], .tensmat_dense, .d, [.par 0, .par 1, .par 2, .par 3, .par 4, .ff, .ff]⟩,
  ⟨.tensmat, [.obj .tdense .s true, .obj .dense .s true, .obj .tdense .s false], .tensmat_dense, .s, [.one, .par 0, .par 1, .zero, .par 2, .ff, .ff]⟩,
  ⟨.tensmat, [.scal .s, .obj .tdense .s true, .obj .dense .s true, .scal .s, .obj .tdense .s false], .tensmat_dense, .s, [.par 0, .par 1, .par 2, .par 3, .par 4, .ff, .ff]⟩,
  ⟨.tensmat, [.obj .tdense .s true, .obj .dense .s true, .obj (.viewTDense .vec) .s false], .tensmat_dense, .s, [.one, .par 0, .par 1, .zero, .par 2, .ff, .ff]⟩,
  ⟨.tensmat, [.scal .s, .obj .tdense .s true, .obj .dense .s true, .scal .s, .obj (.viewTDense .vec) .s false], .tensmat_dense, .s, [.par 0, .par 1, .par 2, .par 3, .par 4, .ff, .ff]⟩,
  ⟨.tensmat, [.obj .tdense .s true, .obj .dense .s true, .obj (.viewTDense .mat) .s false], .tensmat_dense, .s, [.one, .par 0, .par 1, .zero, .par 2, .ff, .ff]⟩,
  ⟨.tensmat, [.scal .s, .obj .tdense .s true, .obj .dense .s true, .scal .s, .obj (.viewTDense .mat) .s false], .tensmat_dense, .s, [.par 0, .par 1, .par 2, .par 3, .par 4, .ff, .ff]⟩,
  ⟨.tensmat, [.obj .tdense .s true, .obj .dense .s true, .obj (.viewTDense .ten) .s false], .tensmat_dense, .s, [.one, .par 0, .par 1, .zero, .par 2, .ff, .ff]⟩,
  ⟨.tensmat, [.scal .s, .obj .tdense .s true, .obj .dense .s true, .scal .s, .obj (.viewTDense .ten) .s false], .tensmat_dense, .s, [.par 0, .par 1, .par 2, .par 3, .par 4, .ff, .ff]⟩,
  ⟨.tensmat, [.obj .tdense .s true, .obj (.viewDense .vec) .s true, .obj .tdense .s false], .tensmat_dense, .s, [.one, .par 0, .par 1, .zero, .par 2, .ff, .ff]⟩,
  ⟨.tensmat, [.scal .s, .obj .tdense .s true, .obj (.viewDense .vec) .s true, .scal .s, .obj .tdense .s false], .tensmat_dense, .s, [.par 0, .par 1, .par 2, .par 3, .par 4, .ff, .ff]⟩,
  ⟨.tensmat, [.obj .tdense .s true, .obj (.viewDense .vec) .s true, .obj (.viewTDense .vec) .s false], .tensmat_dense, .s, [.one, .par 0, .par 1, .zero, .par 2, .ff, .ff]⟩,
  ⟨.tensmat, [.scal .s, .obj .tdense .s true, .obj (.viewDense .vec) .s true, .scal .s, .obj (.viewTDense .vec) .s false], .tensmat_dense, .s, [.par 0, .par 1, .par 2, .par 3, .par 4, .ff, .ff]⟩,
  ⟨.tensmat, [.obj .tdense .s true, .obj (.viewDense .vec) .s true, .obj (.viewTDense .mat) .s false], .tensmat_dense, .s, [.one, .par 0, .par 1, .zero, .par 2, .ff, .ff]⟩,
  ⟨.tensmat, [.scal .s, .obj .tdense .s true, .obj (.viewDense .vec) .s true, .scal .s, .obj (.viewTDense .mat) .s false], .tensmat_dense, .s, [.par 0, .par 1, .par 2, .par 3, .par 4, .ff, .ff]⟩,
  ⟨.tensmat, [.obj .tdense .s true, .obj (.viewDense .vec) .s true, .obj (.viewTDense .ten) .s false], .tensmat_dense, .s, [.one, .par 0, .par 1, .zero, .par 2, .ff, .ff]⟩,
  ⟨.tensmat, [.scal .s, .obj .tdense .s true, .obj (.viewDense .vec) .s true, .scal .s, .obj (.viewTDense .ten) .s false], .tensmat_dense, .s, [.par 0, .par 1, .par 2, .par 3, .par 4, .ff, .ff]⟩,
  ⟨.tensmat, [.obj .tdense .s true, .obj (.viewDense .mat) .s true, .obj .tdense .s false], .tensmat_dense, .s, [.one, .par 0, .par 1, .zero, .par 2, .ff, .ff]⟩,
  ⟨.tensmat, [.scal .s, .obj .tdense .s true, .obj (.viewDense .mat) .s true, .scal .s, .obj .tdense .s false], .tensmat_dense, .s, [.par 0, .par 1, .par 2, .par 3, .par 4, .ff, .ff]⟩,
  ⟨.tensmat, [.obj .tdense .s true, .obj (.viewDense .mat) .s true, .obj (.viewTDense .vec) .s false], .tensmat_dense, .s, [.one, .par 0, .par 1, .zero, .par 2, .ff, .ff]⟩,
  ⟨.tensmat, [.scal .s, .obj .tdense .s true, .obj (.viewDense .mat) .s true, .scal .s, .obj (.viewTDense .vec) .s false], .tensmat_dense, .s, [.par 0, .par 1, .par 2, .par 3, .par 4, .ff, .ff]⟩,
  ⟨.tensmat, [.obj .tdense .s true, .obj (.viewDense .mat) .s true, .obj (.viewTDense .mat) .s false], .tensmat_dense, .s, [.one, .par 0, .par 1, .zero, .par 2, .ff, .ff]⟩,
  ⟨.tensmat, [.scal .s, .obj .tdense .s true, .obj (.viewDense .mat) .s true, .scal .s, .obj (.viewTDense .mat) .s false], .tensmat_dense, .s, [.par 0, .par 1, .par 2, .par 3, .par 4, .ff, .ff]⟩,
  ⟨.tensmat, [.obj .tdense .s true, .obj (.viewDense .mat) .s true, .obj (.viewTDense .ten) .s false], .tensmat_dense, .s, [.one, .par 0, .par 1, .zero, .par 2, .ff, .ff]⟩,
  ⟨.tensmat, [.scal .s, .obj .tdense .s true, .obj (.viewDense .mat) .s true, .scal .s, .obj (.viewTDense .ten) .s false], .tensmat_dense, .s, [.par 0, .par 1, .par 2, .par 3, .par 4, .ff, .ff]⟩,
  ⟨.tensmat, [.obj .tdense .s true, .obj (.viewDense .ten) .s true, .obj .tdense .s false], .tensmat_dense, .s, [.one, .par 0, .par 1, .zero, .par 2, .ff, .ff]⟩,
  ⟨.tensmat, [.scal .s, .obj .tdense .s true, .obj (.viewDense .ten) .s true, .scal .s, .obj .tdense .s false], .tensmat_dense, .s, [.par 0, .par 1, .par 2, .par 3, .par 4, .ff, .ff]⟩,
  ⟨.tensmat, [.obj .tdense .s true, .obj (.viewDense .ten) .s true, .obj (.viewTDense .vec) .s false], .tensmat_dense, .s, [.one, .par 0, .par 1, .zero, .par 2, .ff, .ff]⟩,
  ⟨.tensmat, [.scal .s, .obj .tdense .s true, .obj (.viewDense .ten) .s true, .scal .s, .obj (.viewTDense .vec) .s false], .tensmat_dense, .s, [.par 0, .par 1, .par 2, .par 3, .par 4, .ff, .ff]⟩,
  ⟨.tensmat, [.obj .tdense .s true, .obj (.viewDense .ten) .s true, .obj (.viewTDense .mat) .s false], .tensmat_dense, .s, [.one, .par 0, .par 1, .zero, .par 2, .ff, .ff]⟩,
  ⟨.tensmat, [.scal .s, .obj .tdense .s true, .obj (.viewDense .ten) .s true, .scal .s, .obj (.viewTDense .mat) .s false], .tensmat_dense, .s, [.par 0, .par 1, .par 2, .par 3, .par 4, .ff, .ff]⟩,
  ⟨.tensmat, [.obj .tdense .s true, .obj (.viewDense .ten) .s true, .obj (.viewTDense .ten) .s false], .tensmat_dense, .s, [.one, .par 0, .par 1, .zero, .par 2, .ff, .ff]⟩,
  ⟨.tensmat, [.scal .s, .obj .tdense .s true, .obj (.viewDense .ten) .s true, .scal .s, .obj (.viewTDense .ten) .s false], .tensmat_dense, .s, [.par 0, .par 1, .par 2, .par 3, .par 4, .ff, .ff]⟩]

/-- src/blas/tensor/tensmat/tensmat_blas.cpp:870-1294 -/
def tTensmat_2 : List Overload := [
  ⟨.tensmat, [.obj (.viewTDense .vec) .s true, .obj .dense .s true, .obj .tdense .s false], .tensmat_dense, .s, [.one, .par 0, .par 1, .zero, .par 2, .ff, .ff]⟩,
  ⟨.tensmat, [.scal .s, .obj (.viewTDense .vec) .s true, .obj .dense .s true, .scal .s, .obj .tdense .s false], .tensmat_dense, .s, [.par 0, .par 1, .par 2, .par 3, .par 4, .ff, .ff]⟩,
  ⟨.tensmat, [.obj (.viewTDense .vec) .s true, .obj .dense .s true, .obj (.viewTDense .vec) .s false], .tensmat_dense, .s, [.one, .par 0, .par 1, .zero, .par 2, .ff, .ff]⟩,
  ⟨.tensmat, [.scal .s, .obj (.viewTDense .vec) .s true, .obj .dense .s true, .scal .s, .obj (.viewTDense .vec) .s false], .tensmat_dense, .s, [.par 0, .par 1, .par 2, .par 3, .par 4, .ff, .ff]⟩,
  ⟨.tensmat, [.obj (.viewTDense .vec) .s true, .obj .dense .s true, .obj (.viewTDense .mat) .s false], .tensmat_dense, .s, [.one, .par 0, .par 1, .zero, .par 2, .ff, .ff]⟩,
  ⟨.tensmat, [.scal .s, .obj (.viewTDense .vec) .s true, .obj .dense .s true, .scal .s, .obj (.viewTDense .mat) .s false], .tensmat_dense, .s, [.par 0, .par 1, .par 2, .par 3, .par 4, .ff, .ff]⟩,
  ⟨.tensmat, [.obj (.viewTDense .vec) .s true, .obj .dense .s true, .obj (.viewTDense .ten) .s false], .tensmat_dense, .s, [.one, .par 0, .par 1, .zero, .par 2, .ff, .ff]⟩,
  ⟨.tensmat, [.scal .s, .obj (.viewTDense .vec) .s true, .obj .dense .s true, .scal .s, .obj (.viewTDense .ten) .s false], .tensmat_dense, .s, [.par 0, .par 1, .par 2, .par 3, .par 4, .ff, .ff]⟩,
  ⟨.tensmat, [.obj (.viewTDense .vec) .s true, .obj (.viewDense .vec) .s true, .obj .tdense .s false], .tensmat_dense, .s, [.one, .par 0, .par 1, .zero, .par 2, .ff, .ff]⟩,
  ⟨.tensmat, [.scal .s, .obj (.viewTDense .vec) .s true, .obj (.viewDense .vec) .s true, .scal .s, .obj .tdense .s false], .tensmat_dense, .s, [.par 0, .par 1, .par 2, .par 3, .par 4, .ff, .ff]⟩,
  ⟨.tensmat, [.obj (.viewTDense .vec) .s true, .obj (.viewDense .vec) .s true, .obj (.viewTDense .vec) .s false], .tensmat_dense, .s, [.one, .par 0, .par 1, .zero, .par 2, .ff, .ff]⟩,
  ⟨.tensmat, [.scal .s, .obj (.viewTDense .vec) .s true, .obj (.viewDense .vec) .s true, .scal .s, .obj (.viewTDense .vec) .s false], .tensmat_dense, .s, [.par 0, .par 1, .par 2, .par 3, .par 4, .ff, .ff]⟩,
  ⟨.tensmat, [.obj (.viewTDense .vec) .s true, .obj (.viewDense .vec) .s true, .obj (.viewTDense .mat) .s false], .tensmat_dense, .s, [.one, .par 0, .par 1, .zero, .par 2, .ff, .ff]⟩,
  ⟨.tensmat, [.scal .s, .obj (.viewTDense .vec) .s true, .obj (.viewDense .vec) .s true, .scal .s, .obj (.viewTDense .mat) .s false], .tensmat_dense, .s, [.par 0, .par 1, .par 2, .par 3, .par 4, .ff, .ff]⟩,
  ⟨.tensmat, [.obj (.viewTDense .vec) .s true, .obj (.viewDense .vec) .s true, .obj (.viewTDense .ten) .s false], .tensmat_dense, .s, [.one, .par 0, .par 1, .zero, .par 2, .ff, .ff]⟩,
  ⟨.tensmat, [.scal .s, .obj (.viewTDense .vec) .s true, .obj (.viewDense .vec) .s true, .scal .s, .obj (.viewTDense .ten) .s false], .tensmat_dense, .s, [.par 0, .par 1, .par 2, .par 3, .par 4, .ff, .ff]⟩,
  ⟨.tensmat, [.obj (.viewTDense .vec) .s true, .obj (.viewDense .mat) .s true, .obj .tdense .s false], .tensmat_dense, .s, [.one, .par 0, .par 1, .zero, .par 2, .ff, .ff]⟩,
  ⟨.tensmat, [.scal .s, .obj (.viewTDense .vec) .s true, .obj (.viewDense .mat) .s true, .scal .s, .obj .tdense .s false], .tensmat_dense, .s, [.par 0, .par 1, .par 2, .par 3, .par 4, .ff, .ff]⟩,
  ⟨.tensmat, [.obj (.viewTDense .vec) .s true, .obj (.viewDense .mat) .s true, .obj (.viewTDense .vec) .s false], .tensmat_dense, .s, [.one, .par 0, .par 1, .zero, .par 2, .ff, .ff]⟩,
  ⟨.tensmat, [.scal .s, .obj (.viewTDense .vec) .s true, .obj (.viewDense .mat) .s true, .scal .s, .obj (.viewTDense .vec) .s false], .tensmat_dense, .s, [.par 0, .par 1, .par 2, .par 3, .par 4, .ff, .ff]⟩,
  ⟨.tensmat, [.obj (.viewTDense .vec) .s true, .obj (.viewDense .mat) .s true, .obj (.viewTDense .mat) .s false], .tensmat_dense, .s, [.one, .par 0, .par 1, .zero, .par 2, .ff, .ff]⟩,
  ⟨.tensmat, [.scal .s, .obj (.viewTDense .vec) .s true, .obj (.viewDense .mat) .s true, .scal .s, .obj (.viewTDense .mat) .s false], .tensmat_dense, .s, [.par 0, .par 1, .par 2, .par 3, .par 4, .ff, .ff]⟩,
  ⟨.tensmat, [.obj (.viewTDense .vec) .s true, .obj (.viewDense .mat) .s true, .obj (.viewTDense .ten) .s false], .tensmat_dense, .s, [.one, .par 0, .par 1, .zero, .par 2, .ff, .ff]⟩,
  ⟨.tensmat, [.scal .s, .obj (.viewTDense .vec) .s true, .obj (.viewDense .mat) .s true, .scal .s, .obj (.viewTDense .ten) .s false], .tensmat_dense, .s, [.par 0, .par 1, .par 2, .par 3, .par 4, .ff, .ff]⟩,
  ⟨.tensmat, [.obj (.viewTDense .vec) .s true, .obj (.viewDense .ten) .s true, .obj .tdense .s false], .tensmat_dense, .s, [.one, .par 0, .par 1, .zero, .par 2, .ff, .ff]⟩,
  ⟨.tensmat, [.scal .s, .obj (.viewTDense .vec) .s true, .obj (.viewDense .ten) .s true, .scal .s, .obj .tdense .s false], .tensmat_dense, .s, [.par 0, .par 1, .par 2, .par 3, .par 4, .ff, .ff]⟩,
  ⟨.tensmat, [.obj (.viewTDense .vec) .s true, .obj (.viewDense .ten) .s true, .obj (.viewTDense .vec) .s false], .tensmat_dense, .s, [.one, .par 0, .par 1, .zero, .par 2, .ff, .ff]⟩,
  ⟨.tensmat, [.scal .s, .obj (.viewTDense .vec) .s true, .obj (.viewDense .ten) .s true, .scal .s, .obj (.viewTDense .vec) .s false], .tensmat_dense, .s, [.par 0, .par 1, .par 2, .par 3, .par 4, .ff, .ff]⟩,
  ⟨.tensmat, [.obj (.viewTDense .vec) .s true, .obj (.viewDense .ten) .s true, .obj (.viewTDense .mat) .s false], .tensmat_dense, .s, [.one, .par 0, .par 1, .zero, .par 2, .ff, .ff]⟩,
  ⟨.tensmat, [.scal .s, .obj (.viewTDense .vec) .s true, .obj (.viewDense .ten) .s true, .scal .s, .obj (.viewTDense .mat) .s false], .tensmat_dense, .s, [.par 0, .par 1, .par 2, .par 3, .par 4, .ff, .ff]⟩,
  ⟨.tensmat, [.obj (.viewTDense .vec) .s true, .obj (.viewDense .ten) .s true, .obj (.viewTDense .ten) .s false], .tensmat_dense, .s, [.one, .par 0, .par 1, .zero, .par 2, .ff, .ff]⟩,
  ⟨.tensmat, [.scal .s, .obj (.viewTDense .vec) .s true, .obj (.viewDense .ten) .s true, .scal .s, .obj (.viewTDense .ten) .s false], .tensmat_dense, .s, [.par 0, .par 1, .par 2, .par 3, .par 4, .ff, .ff]⟩,
  ⟨.tensmat, [.obj (.viewTDense .mat) .s true, .obj .dense .s true, .obj .tdense .s false], .tensmat_dense, .s, [.one, .par 0, .par 1, .zero, .par 2, .ff, .ff]⟩,
  ⟨.tensmat, [.scal .s, .obj (.viewTDense .mat) .s true, .obj .dense .s true, .scal .s, .obj .tdense .s false], .tensmat_dense, .s, [.par 0, .par 1, .par 2, .par 3, .par 4, .ff, .ff]⟩,
  ⟨.tensmat, [.obj (.viewTDense .mat) .s true, .obj .dense .s true, .obj (.viewTDense .vec) .s false], .tensmat_dense, .s, [.one, .par 0, .par 1, .zero, .par 2, .ff, .ff]⟩,
  ⟨.tensmat, [.scal .s, .obj (.viewTDense .mat) .s true, .obj .dense .s true, .scal .s, .obj (.viewTDense .vec) .s false], .tensmat_dense, .s, [.par 0, .par 1, .par 2, .par 3, .par 4, .ff, .ff]⟩,
  ⟨.tensmat, [.obj (.viewTDense .mat) .s true, .obj .dense .s true, .obj (.viewTDense .mat) .s false], .tensmat_dense, .s, [.one, .par 0, .par 1, .zero, .par 2, .ff, .ff]⟩,
  ⟨.tensmat, [.scal .s, .obj (.viewTDense .mat) .s true, .obj .dense .s true, .scal .s, .obj (.viewTDense .mat) .s false], .tensmat_dense, .s, [.par 0, .par 1, .par 2, .par 3, .par 4, .ff, .ff]⟩,
  ⟨.tensmat, [.obj (.viewTDense .mat) .s true, .obj .dense .s true, .obj (.viewTDense .ten) .s false], .tensmat_dense, .s, [.one, .par 0, .par 1, .zero, .par 2, .ff, .ff]⟩,
  ⟨.tensmat, [.scal .s, .obj (.viewTDense .mat) .s true, .obj .dense .s true, .scal .s, .obj (.viewTDense .ten) .s false], .tensmat_dense, .s, [.par 0, .par 1, .par 2, .par 3, .par 4, .ff, .ff]⟩,
  ⟨.tensmat, [.obj (.viewTDense .mat) .s true, .obj (.viewDense .vec) .s true, .obj .tdense .s false], .tensmat_dense, .s, [.one, .par 0, .par 1, .zero, .par 2, .ff, .ff]⟩,
  ⟨.tensmat, [.scal .s, .obj (.viewTDense .mat) .s true, .obj (.viewDense .vec) .s true, .scal .s, .obj .tdense .s false], .tensmat_dense, .s, [.par 0, .par 1, .par 2, .par 3, .par 4, .ff, .ff]⟩,
  ⟨.tensmat, [.obj (.viewTDense .mat) .s true, .obj (.viewDense .vec) .s true, .obj (.viewTDense .vec) .s false], .tensmat_dense, .s, [.one, .par 0, .par 1, .zero, .par 2, .ff, .ff]⟩,
  ⟨.tensmat, [.scal .s, .obj (.viewTDense .mat) .s true, .obj (.viewDense .vec) .s true, .scal .s, .obj (.viewTDense .vec) .s false], .tensmat_dense, .s, [.par 0, .par 1, .par 2, .par 3, .par 4, .ff, .ff]⟩,
  ⟨.tensmat, [.obj (.viewTDense .mat) .s true, .obj (.viewDense .vec) .s true, .obj (.viewTDense .mat) .s false], .tensmat_dense, .s, [.one, .par 0, .par 1, .zero, .par 2, .ff, .ff]⟩,
  ⟨.tensmat, [.scal .s, .obj (.viewTDense .mat) .s true, .obj (.viewDense .vec) .s true, .scal .s, .obj (.viewTDense .mat) .s false], .tensmat_dense, .s, [.par 0, .par 1, .par 2, .par 3, .par 4, .ff, .ff]⟩,
  ⟨.tensmat, [.obj (.viewTDense .mat) .s true, .obj (.viewDense .vec) .s true, .obj (.viewTDense .ten) .s false], .tensmat_dense, .s, [.one, .par 0, .par 1, .zero, .par 2, .ff, .ff]⟩,
  ⟨.tensmat, [.scal .s, .obj (.viewTDense .mat) .s true, .obj (.viewDense .vec) .s true, .scal .s, .obj (.viewTDense .ten) .s false], .tensmat_dense, .s, [.par 0, .par 1, .par 2, .par 3, .par 4, .ff, .ff]⟩,
  ⟨.tensmat, [.obj (.viewTDense .mat) .s true, .obj (.viewDense .mat) .s true, .obj .tdense .s false], .tensmat_dense, .s, [.one, .par 0, .par 1, .zero, .par 2, .ff, .ff]⟩,
  ⟨.tensmat, [.scal .s, .obj (.viewTDense .mat) .s true, .obj (.viewDense .mat) .s true, .scal .s, .obj .tdense .s false], .tensmat_dense, .s, [.par 0, .par 1, .par 2, .par 3, .par 4, .ff, .ff]⟩,
  ⟨.tensmat, [.obj (.viewTDense .mat) .s true, .obj (.viewDense .mat) .s true, .obj (.viewTDense .vec) .s false], .tensmat_dense, .s, [.one, .par 0, .par 1, .zero, .par 2, .ff, .ff]⟩,
  ⟨.tensmat, [.scal .s, .obj (.viewTDense .mat) .s true, .obj (.viewDense .mat) .s true, .scal .s, .obj (.viewTDense .vec) .s false], .tensmat_dense, .s, [.par 0, .par 1, .par 2, .par 3, .par 4, .ff, .ff]⟩,
  ⟨.tensmat, [.obj (.viewTDense .mat) .s true, .obj (.viewDense .mat) .s true, .obj (.viewTDense .mat) .s false], .tensmat_dense, .s, [.one, .par 0, .par 1, .zero, .par 2, .ff, .ff]⟩,
  ⟨.tensmat, [.scal .s, .obj (.viewTDense .mat) .s true, .obj (.viewDense .mat) .s true, .scal .s, .obj (.viewTDense .mat) .s false], .tensmat_dense, .s, [.par 0, .par 1, .par 2, .par 3, .par 4, .ff, .ff]⟩,
  ⟨.tensmat, [.obj (.viewTDense .mat) .s true, .obj (.viewDense .mat) .s true, .obj (.viewTDense .ten) .s false], .tensmat_dense, .s, [.one, .par 0, .par 1, .zero, .par 2, .ff, .ff]⟩,
  ⟨.tensmat, [.scal .s, .obj (.viewTDense .mat) .s true, .obj (.viewDense .mat) .s true, .scal .s, .obj (.viewTDense .ten) .s false], .tensmat_dense, .s, [.par 0, .par 1, .par 2, .par 3, .par 4, .ff, .ff]⟩,
  ⟨.tensmat, [.obj (.viewTDense .mat) .s true, .obj (.viewDense .ten) .s true, .obj .tdense .s false], .tensmat_dense, .s, [.one, .par 0, .par 1, .zero, .par 2, .ff, .ff]⟩,
  ⟨.tensmat, [.scal .s, .obj (.viewTDense .mat) .s true, .obj (.viewDense .ten) .s true, .scal .s, .obj .tdense .s false], .tensmat_dense, .s, [.par 0, .par 1, .par 2, .par 3, .par 4, .ff, .ff]⟩,
  ⟨.tensmat, [.obj (.viewTDense .mat) .s true, .obj (.viewDense .ten) .s true, .obj (.viewTDense .vec) .s false], .tensmat_dense, .s, [.one, .par 0, .par 1, .zero, .par 2, .ff, .ff]⟩,
  ⟨.tensmat, [.scal .s, .obj (.viewTDense .mat) .s true, .obj (.viewDense .ten) .s true, .scal .s, .obj (.viewTDense .vec) .s false], .tensmat_dense, .s, [.par 0, .par 1, .par 2, .par 3, .par 4, .ff, .ff]⟩,
  ⟨.tensmat, [.obj (.viewTDense .mat) .s true, .obj (.viewDense .ten) .s true, .obj (.viewTDense .mat) .s false], .tensmat_dense, .s, [.one, .par 0, .par 1, .zero, .par 2, .ff, .ff]⟩,
  ⟨.tensmat, [.scal .s, .obj (.viewTDense .mat) .s true, .obj (.viewDense .ten) .s true, .scal .s, .obj (.viewTDense .mat) .s false], .tensmat_dense, .s, [.par 0, .par 1, .par 2, .par 3, .par 4, .ff, .ff]⟩,
  ⟨.tensmat, [.obj (.viewTDense .mat) .s true, .obj (.viewDense .ten) .s true, .obj (.viewTDense .ten) .s false], .tensmat_dense, .s, [.one, .par 0, .par 1, .zero, .par 2, .ff, .ff]⟩,
  ⟨.tensmat, [.scal .s, .obj (.viewTDense .mat) .s true, .obj (.viewDense .ten) .s true, .scal .s, .obj (.viewTDense .ten) .s false], .tensmat_dense, .s, [.par 0, .par 1, .par 2, .par 3, .par 4, .ff, .ff]⟩,
  ⟨.tensmat, [.obj (.viewTDense .ten) .s true, .obj .dense .s true, .obj .tdense .s false], .tensmat_dense, .s, [.one, .par 0, .par 1, .zero, .par 2, .ff, .ff]⟩,
  ⟨.tensmat, [.scal .s, .obj (.viewTDense .ten) .s true, .obj .dense .s true, .scal .s, .obj .tdense .s false], .tensmat_dense, .s, [.par 0, .par 1, .par 2, .par 3, .par 4, .ff, .ff]⟩,
  ⟨.tensmat, [.obj (.viewTDense .ten) .s true, .obj .dense .s true, .obj (.viewTDense .vec) .s false], .tensmat_dense, .s, [.one, .par 0, .par 1, .zero, .par 2, .ff, .ff]⟩,
  ⟨.tensmat, [.scal .s, .obj (.viewTDense .ten) .s true, .obj .dense .s true, .scal .s, .obj (.viewTDense .vec) .s false], .tensmat_dense, .s, [.par 0, .par 1, .par 2, .par 3, .par 4, .ff, .ff]⟩,
  ⟨.tensmat, [.obj (.viewTDense .ten) .s true, .obj .dense .s true, .obj (.viewTDense .mat) .s false], .tensmat_dense, .s, [.one, .par 0, .par 1, .zero, .par 2, .ff, .ff]⟩,
  ⟨.tensmat, [.scal .s, .obj (.viewTDense .ten) .s true, .obj .dense .s true, .scal .s, .obj (.viewTDense .mat) .s false], .tensmat_dense, .s, [.par 0, .par 1, .par 2, .par 3, .par 4, .ff, .ff]⟩,
  ⟨.tensmat, [.obj (.viewTDense .ten) .s true, .obj .dense .s true, .obj (.viewTDense .ten) .s false], .tensmat_dense, .s, [.one, .par 0, .par 1, .zero, .par 2, .ff, .ff]⟩,
  ⟨.tensmat, [.scal .s, .obj (.viewTDense .ten) .s true, .obj .dense .s true, .scal .s, .obj (.viewTDense .ten) .s false], .tensmat_dense, .s, [.par 0, .par 1, .par 2, .par 3, .par 4, .ff, .ff]⟩,
  ⟨.tensmat, [.obj (.viewTDense .ten) .s true, .obj (.viewDense .vec) .s true, .obj .tdense .s false], .tensmat_dense, .s, [.one, .par 0, .par 1, .zero, .par 2, .ff, .ff]⟩,
  ⟨.tensmat, [.scal .s, .obj (.viewTDense .ten) .s true, .obj (.viewDense .vec) .s true, .scal .s, .obj .tdense .s false], .tensmat_dense, .s, [.par 0, .par 1, .par 2, .par 3, .par 4, .ff, .ff]⟩,
  ⟨.tensmat, [.obj (.viewTDense .ten) .s true, .obj (.viewDense .vec) .s true, .obj (.viewTDense .vec) .s false], .tensmat_dense, .s, [.one, .par 0, .par 1, .zero, .par 2, .ff, .ff]⟩,
  ⟨.tensmat, [.scal .s, .obj (.viewTDense .ten) .s true, .obj (.viewDense .vec) .s true, .scal .s, .obj (.viewTDense .vec) .s false], .tensmat_dense, .s, [.par 0, .par 1, .par 2, .par 3, .par 4, .ff, .ff]⟩,
  ⟨.tensmat, [.obj (.viewTDense .ten) .s true, .obj (.viewDense .vec) .s true, .obj (.viewTDense .mat) .s false], .tensmat_dense, .s, [.one, .par 0, .par 1, .zero, .par 2, .ff, .ff]⟩,
  ⟨.tensmat, [.scal .s, .obj (.viewTDense .ten) .s true, .obj (.viewDense .vec) .s true, .scal .s, .obj (.viewTDense .mat) .s false], .tensmat_dense, .s, [.par 0, .par 1, .par 2, .par 3, .par 4, .ff, .ff]⟩,
  ⟨.tensmat, [.obj (.viewTDense .ten) .s true, .obj (.viewDense .vec) .s true, .obj (.viewTDense .ten) .s false], .tensmat_dense, .s, [.one, .par 0, .par 1, .zero, .par 2, .ff, .ff]⟩,
  ⟨.tensmat, [.scal .s, .obj (.viewTDense .ten) .s true, .obj (.viewDense .vec) .s true, .scal .s, .obj (.viewTDense .ten) .s false], .tensmat_dense, .s, [.par 0, .par 1, .par 2, .par 3, .par 4, .ff, .ff]⟩]

/-- src/blas/tensor/tensmat/tensmat_blas.cpp:1295-1706 -/
def tTensmat_3 : List Overload := [
  ⟨.tensmat, [.obj (.viewTDense .ten) .s true, .obj (.viewDense .mat) .s true, .obj .tdense .s false], .tensmat_dense, .s, [.one, .par 0, .par 1, .zero, .par 2, .ff, .ff]⟩,
  ⟨.tensmat, [.scal .s, .obj (.viewTDense .ten) .s true, .obj (.viewDense .mat) .s true, .scal .s, .obj .tdense .s false], .tensmat_dense, .s, [.par 0, .par 1, .par 2, .par 3, .par 4, .ff, .ff]⟩,
  ⟨.tensmat, [.obj (.viewTDense .ten) .s true, .obj (.viewDense .mat) .s true, .obj (.viewTDense .vec) .s false], .tensmat_dense, .s, [.one, .par 0, .par 1, .zero, .par 2, .ff, .ff]⟩,
  ⟨.tensmat, [.scal .s, .obj (.viewTDense .ten) .s true, .obj (.viewDense .mat) .s true, .scal .s, .obj (.viewTDense .vec) .s false], .tensmat_dense, .s, [.par 0, .par 1, .par 2, .par 3, .par 4, .ff, .ff]⟩,
  ⟨.tensmat, [.obj (.viewTDense .ten) .s true, .obj (.viewDense .mat) .s true, .obj (.viewTDense .mat) .s false], .tensmat_dense, .s, [.one, .par 0, .par 1, .zero, .par 2, .ff, .ff]⟩,
  ⟨.tensmat, [.scal .s, .obj (.viewTDense .ten) .s true, .obj (.viewDense .mat) .s true, .scal .s, .obj (.viewTDense .mat) .s false], .tensmat_dense, .s, [.par 0, .par 1, .par 2, .par 3, .par 4, .ff, .ff]⟩,
  ⟨.tensmat, [.obj (.viewTDense .ten) .s true, .obj (.viewDense .mat) .s true, .obj (.viewTDense .ten) .s false], .tensmat_dense, .s, [.one, .par 0, .par 1, .zero, .par 2, .ff, .ff]⟩,
  ⟨.tensmat, [.scal .s, .obj (.viewTDense .ten) .s true, .obj (.viewDense .mat) .s true, .scal .s, .obj (.viewTDense .ten) .s false], .tensmat_dense, .s, [.par 0, .par 1, .par 2, .par 3, .par 4, .ff, .ff]⟩,
  ⟨.tensmat, [.obj (.viewTDense .ten) .s true, .obj (.viewDense .ten) .s true, .obj .tdense .s false], .tensmat_dense, .s, [.one, .par 0, .par 1, .zero, .par 2, .ff, .ff]⟩,
  ⟨.tensmat, [.scal .s, .obj (.viewTDense .ten) .s true, .obj (.viewDense .ten) .s true, .scal .s, .obj .tdense .s false], .tensmat_dense, .s, [.par 0, .par 1, .par 2, .par 3, .par 4, .ff, .ff]⟩,
  ⟨.tensmat, [.obj (.viewTDense .ten) .s true, .obj (.viewDense .ten) .s true, .obj (.viewTDense .vec) .s false], .tensmat_dense, .s, [.one, .par 0, .par 1, .zero, .par 2, .ff, .ff]⟩,
  ⟨.tensmat, [.scal .s, .obj (.viewTDense .ten) .s true, .obj (.viewDense .ten) .s true, .scal .s, .obj (.viewTDense .vec) .s false], .tensmat_dense, .s, [.par 0, .par 1, .par 2, .par 3, .par 4, .ff, .ff]⟩,
  ⟨.tensmat, [.obj (.viewTDense .ten) .s true, .obj (.viewDense .ten) .s true, .obj (.viewTDense .mat) .s false], .tensmat_dense, .s, [.one, .par 0, .par 1, .zero, .par 2, .ff, .ff]⟩,
  ⟨.tensmat, [.scal .s, .obj (.viewTDense .ten) .s true, .obj (.viewDense .ten) .s true, .scal .s, .obj (.viewTDense .mat) .s false], .tensmat_dense, .s, [.par 0, .par 1, .par 2, .par 3, .par 4, .ff, .ff]⟩,
  ⟨.tensmat, [.obj (.viewTDense .ten) .s true, .obj (.viewDense .ten) .s true, .obj (.viewTDense .ten) .s false], .tensmat_dense, .s, [.one, .par 0, .par 1, .zero, .par 2, .ff, .ff]⟩,
  ⟨.tensmat, [.scal .s, .obj (.viewTDense .ten) .s true, .obj (.viewDense .ten) .s true, .scal .s, .obj (.viewTDense .ten) .s false], .tensmat_dense, .s, [.par 0, .par 1, .par 2, .par 3, .par 4, .ff, .ff]⟩,
  ⟨.tensmat, [.obj .tcrs .d true, .obj .dense .d true, .obj .tdense .d false], .tensmat_crs, .d, [.one, .par 0, .par 1, .zero, .par 2]⟩,
  ⟨.tensmat, [.scal .d, .obj .tcrs .d true, .obj .dense .d true, .scal .d, .obj .tdense .d false], .tensmat_crs, .d, [.par 0, .par 1, .par 2, .par 3, .par 4]⟩,
  ⟨.tensmat, [.obj .tcrs .d true, .obj .dense .d true, .obj (.viewTDense .vec) .d false], .tensmat_crs, .d, [.one, .par 0, .par 1, .zero, .par 2]⟩,
  ⟨.tensmat, [.scal .d, .obj .tcrs .d true, .obj .dense .d true, .scal .d, .obj (.viewTDense .vec) .d false], .tensmat_crs, .d, [.par 0, .par 1, .par 2, .par 3, .par 4]⟩,
  ⟨.tensmat, [.obj .tcrs .d true, .obj .dense .d true, .obj (.viewTDense .mat) .d false], .tensmat_crs, .d, [.one, .par 0, .par 1, .zero, .par 2]⟩,
  ⟨.tensmat, [.scal .d, .obj .tcrs .d true, .obj .dense .d true, .scal .d, .obj (.viewTDense .mat) .d false], .tensmat_crs, .d, [.par 0, .par 1, .par 2, .par 3, .par 4]⟩,
  ⟨.tensmat, [.obj .tcrs .d true, .obj .dense .d true, .obj (.viewTDense .ten) .d false], .tensmat_crs, .d, [.one, .par 0, .par 1, .zero, .par 2]⟩,
  ⟨.tensmat, [.scal .d, .obj .tcrs .d true, .obj .dense .d true, .scal .d, .obj (.viewTDense .ten) .d false], .tensmat_crs, .d, [.par 0, .par 1, .par 2, .par 3, .par 4]⟩,
  ⟨.tensmat, [.obj .tcrs .d true, .obj (.viewDense .vec) .d true, .obj .tdense .d false], .tensmat_crs, .d, [.one, .par 0, .par 1, .zero, .par 2]⟩,
  ⟨.tensmat, [.scal .d, .obj .tcrs .d true, .obj (.viewDense .vec) .d true, .scal .d, .obj .tdense .d false], .tensmat_crs, .d, [.par 0, .par 1, .par 2, .par 3, .par 4]⟩,
  ⟨.tensmat, [.obj .tcrs .d true, .obj (.viewDense .vec) .d true, .obj (.viewTDense .vec) .d false], .tensmat_crs, .d, [.one, .par 0, .par 1, .zero, .par 2]⟩,
  ⟨.tensmat, [.scal .d, .obj .tcrs .d true, .obj (.viewDense .vec) .d true, .scal .d, .obj (.viewTDense .vec) .d false], .tensmat_crs, .d, [.par 0, .par 1, .par 2, .par 3, .par 4]⟩,
  ⟨.tensmat, [.obj .tcrs .d true, .obj (.viewDense .vec) .d true, .obj (.viewTDense .mat) .d false], .tensmat_crs, .d, [.one, .par 0, .par 1, .zero, .par 2]⟩,
  ⟨.tensmat, [.scal .d, .obj .tcrs .d true, .obj (.viewDense .vec) .d true, .scal .d, .obj (.viewTDense .mat) .d false], .tensmat_crs, .d, [.par 0, .par 1, .par 2, .par 3, .par 4]⟩,
  ⟨.tensmat, [.obj .tcrs .d true, .obj (.viewDense .vec) .d true, .obj (.viewTDense .ten) .d false], .tensmat_crs, .d, [.one, .par 0, .par 1, .zero, .par 2]⟩,
  ⟨.tensmat, [.scal .d, .obj .tcrs .d true, .obj (.viewDense .vec) .d true, .scal .d, .obj (.viewTDense .ten) .d false], .tensmat_crs, .d, [.par 0, .par 1, .par 2, .par 3, .par 4]⟩,
  ⟨.tensmat, [.obj .tcrs .d true, .obj (.viewDense .mat) .d true, .obj .tdense .d false], .tensmat_crs, .d, [.one, .par 0, .par 1, .zero, .par 2]⟩,
  ⟨.tensmat, [.scal .d, .obj .tcrs .d true, .obj (.viewDense .mat) .d true, .scal .d, .obj .tdense .d false], .tensmat_crs, .d, [.par 0, .par 1, .par 2, .par 3, .par 4]⟩,
  ⟨.tensmat, [.obj .tcrs .d true, .obj (.viewDense .mat) .d true, .obj (.viewTDense .vec) .d false], .tensmat_crs, .d, [.one, .par 0, .par 1, .zero, .par 2]⟩,
  ⟨.tensmat, [.scal .d, .obj .tcrs .d true, .obj (.viewDense .mat) .d true, .scal .d, .obj (.viewTDense .vec) .d false], .tensmat_crs, .d, [.par 0, .par 1, .par 2, .par 3, .par 4]⟩,
  ⟨.tensmat, [.obj .tcrs .d true, .obj (.viewDense .mat) .d true, .obj (.viewTDense .mat) .d false], .tensmat_crs, .d, [.one, .par 0, .par 1, .zero, .par 2]⟩,
  ⟨.tensmat, [.scal .d, .obj .tcrs .d true, .obj (.viewDense .mat) .d true, .scal .d, .obj (.viewTDense .mat) .d false], .tensmat_crs, .d, [.par 0, .par 1, .par 2, .par 3, .par 4]⟩,
  ⟨.tensmat, [.obj .tcrs .d true, .obj (.viewDense .mat) .d true, .obj (.viewTDense .ten) .d false], .tensmat_crs, .d, [.one, .par 0, .par 1, .zero, .par 2]⟩,
  ⟨.tensmat, [.scal .d, .obj .tcrs .d true, .obj (.viewDense .mat) .d true, .scal .d, .obj (.viewTDense .ten) .d false], .tensmat_crs, .d, [.par 0, .par 1, .par 2, .par 3, .par 4]⟩,
  ⟨.tensmat, [.obj .tcrs .d true, .obj (.viewDense .ten) .d true, .obj .tdense .d false], .tensmat_crs, .d, [.one, .par 0, .par 1, .zero, .par 2]⟩,
  ⟨.tensmat, [.scal .d, .obj .tcrs .d true, .obj (.viewDense .ten) .d true, .scal .d, .obj .tdense .d false], .tensmat_crs, .d, [.par 0, .par 1, .par 2, .par 3, .par 4]⟩,
  ⟨.tensmat, [.obj .tcrs .d true, .obj (.viewDense .ten) .d true, .obj (.viewTDense .vec) .d false], .tensmat_crs, .d, [.one, .par 0, .par 1, .zero, .par 2]⟩,
  ⟨.tensmat, [.scal .d, .obj .tcrs .d true, .obj (.viewDense .ten) .d true, .scal .d, .obj (.viewTDense .vec) .d false], .tensmat_crs, .d, [.par 0, .par 1, .par 2, .par 3, .par 4]⟩,
  ⟨.tensmat, [.obj .tcrs .d true, .obj (.viewDense .ten) .d true, .obj (.viewTDense .mat) .d false], .tensmat_crs, .d, [.one, .par 0, .par 1, .zero, .par 2]⟩,
  ⟨.tensmat, [.scal .d, .obj .tcrs .d true, .obj (.viewDense .ten) .d true, .scal .d, .obj (.viewTDense .mat) .d false], .tensmat_crs, .d, [.par 0, .par 1, .par 2, .par 3, .par 4]⟩,
  ⟨.tensmat, [.obj .tcrs .d true, .obj (.viewDense .ten) .d true, .obj (.viewTDense .ten) .d false], .tensmat_crs, .d, [.one, .par 0, .par 1, .zero, .par 2]⟩,
  ⟨.tensmat, [.scal .d, .obj .tcrs .d true, .obj (.viewDense .ten) .d true, .scal .d, .obj (.viewTDense .ten) .d false], .tensmat_crs, .d, [.par 0, .par 1, .par 2, .par 3, .par 4]⟩,
  ⟨.tensmat, [.obj .tcrs .s true, .obj .dense .s true, .obj .tdense .s false], .tensmat_crs, .s, [.one, .par 0, .par 1, .zero, .par 2]⟩,
  ⟨.tensmat, [.scal .s, .obj .tcrs .s true, .obj .dense .s true, .scal .s, .obj .tdense .s false], .tensmat_crs, .s, [.par 0, .par 1, .par 2, .par 3, .par 4]⟩,
  ⟨.tensmat, [.obj .tcrs .s true, .obj .dense .s true, .obj (.viewTDense .vec) .s false], .tensmat_crs, .s, [.one, .par 0, .par 1, .zero, .par 2]⟩,
  ⟨.tensmat, [.scal .s, .obj .tcrs .s true, .obj .dense .s true, .scal .s, .obj (.viewTDense .vec) .s false], .tensmat_crs, .s, [.par 0, .par 1, .par 2, .par 3, .par 4]⟩,
  ⟨.tensmat, [.obj .tcrs .s true, .obj .dense .s true, .obj (.viewTDense .mat) .s false], .tensmat_crs, .s, [.one, .par 0, .par 1, .zero, .par 2]⟩,
  ⟨.tensmat, [.scal .s, .obj .tcrs .s true, .obj .dense .s true, .scal .s, .obj (.viewTDense .mat) .s false], .tensmat_crs, .s, [.par 0, .par 1, .par 2, .par 3, .par 4]⟩,
  ⟨.tensmat, [.obj .tcrs .s true, .obj .dense .s true, .obj (.viewTDense .ten) .s false], .tensmat_crs, .s, [.one, .par 0, .par 1, .zero, .par 2]⟩,
  ⟨.tensmat, [.scal .s, .obj .tcrs .s true, .obj .dense .s true, .scal .s, .obj (.viewTDense .ten) .s false], .tensmat_crs, .s, [.par 0, .par 1, .par 2, .par 3, .par 4]⟩,
  ⟨.tensmat, [.obj .tcrs .s true, .obj (.viewDense .vec) .s true, .obj .tdense .s false], .tensmat_crs, .s, [.one, .par 0, .par 1, .zero, .par 2]⟩,
  ⟨.tensmat, [.scal .s, .obj .tcrs .s true, .obj (.viewDense .vec) .s true, .scal .s, .obj .tdense .s false], .tensmat_crs, .s, [.par 0, .par 1, .par 2, .par 3, .par 4]⟩,
  ⟨.tensmat, [.obj .tcrs .s true, .obj (.viewDense .vec) .s true, .obj (.viewTDense .vec) .s false], .tensmat_crs, .s, [.one, .par 0, .par 1, .zero, .par 2]⟩,
  ⟨.tensmat, [.scal .s, .obj .tcrs .s true, .obj (.viewDense .vec) .s true, .scal .s, .obj (.viewTDense .vec) .s false], .tensmat_crs, .s, [.par 0, .par 1, .par 2, .par 3, .par 4]⟩,
  ⟨.tensmat, [.obj .tcrs .s true, .obj (.viewDense .vec) .s true, .obj (.viewTDense .mat) .s false], .tensmat_crs, .s, [.one, .par 0, .par 1, .zero, .par 2]⟩,
  ⟨.tensmat, [.scal .s, .obj .tcrs .s true, .obj (.viewDense .vec) .s true, .scal .s, .obj (.viewTDense .mat) .s false], .tensmat_crs, .s, [.par 0, .par 1, .par 2, .par 3, .par 4]⟩,
  ⟨.tensmat, [.obj .tcrs .s true, .obj (.viewDense .vec) .s true, .obj (.viewTDense .ten) .s false], .tensmat_crs, .s, [.one, .par 0, .par 1, .zero, .par 2]⟩,
  ⟨.tensmat, [.scal .s, .obj .tcrs .s true, .obj (.viewDense .vec) .s true, .scal .s, .obj (.viewTDense .ten) .s false], .tensmat_crs, .s, [.par 0, .par 1, .par 2, .par 3, .par 4]⟩,
  ⟨.tensmat, [.obj .tcrs .s true, .obj (.viewDense .mat) .s true, .obj .tdense .s false], .tensmat_crs, .s, [.one, .par 0, .par 1, .zero, .par 2]⟩,
  ⟨.tensmat, [.scal .s, .obj .tcrs .s true, .obj (.viewDense .mat) .s true, .scal .s, .obj .tdense .s false], .tensmat_crs, .s, [.par 0, .par 1, .par 2, .par 3, .par 4]⟩,
  ⟨.tensmat, [.obj .tcrs .s true, .obj (.viewDense .mat) .s true, .obj (.viewTDense .vec) .s false], .tensmat_crs, .s, [.one, .par 0, .par 1, .zero, .par 2]⟩,
  ⟨.tensmat, [.scal .s, .obj .tcrs .s true, .obj (.viewDense .mat) .s true, .scal .s, .obj (.viewTDense .vec) .s false], .tensmat_crs, .s, [.par 0, .par 1, .par 2, .par 3, .par 4]⟩,
  ⟨.tensmat, [.obj .tcrs .s true, .obj (.viewDense .mat) .s true, .obj (.viewTDense .mat) .s false], .tensmat_crs, .s, [.one, .par 0, .par 1, .zero, .par 2]⟩,
  ⟨.tensmat, [.scal .s, .obj .tcrs .s true, .obj (.viewDense .mat) .s true, .scal .s, .obj (.viewTDense .mat) .s false], .tensmat_crs, .s, [.par 0, .par 1, .par 2, .par 3, .par 4]⟩,
  ⟨.tensmat, [.obj .tcrs .s true, .obj (.viewDense .mat) .s true, .obj (.viewTDense .ten) .s false], .tensmat_crs, .s, [.one, .par 0, .par 1, .zero, .par 2]⟩,
  ⟨.tensmat, [.scal .s, .obj .tcrs .s true, .obj (.viewDense .mat) .s true, .scal .s, .obj (.viewTDense .ten) .s false], .tensmat_crs, .s, [.par 0, .par 1, .par 2, .par 3, .par 4]⟩,
  ⟨.tensmat, [.obj .tcrs .s true, .obj (.viewDense .ten) .s true, .obj .tdense .s false], .tensmat_crs, .s, [.one, .par 0, .par 1, .zero, .par 2]⟩,
  ⟨.tensmat, [.scal .s, .obj .tcrs .s true, .obj (.viewDense .ten) .s true, .scal .s, .obj .tdense .s false], .tensmat_crs, .s, [.par 0, .par 1, .par 2, .par 3, .par 4]⟩,
  ⟨.tensmat, [.obj .tcrs .s true, .obj (.viewDense .ten) .s true, .obj (.viewTDense .vec) .s false], .tensmat_crs, .s, [.one, .par 0, .par 1, .zero, .par 2]⟩,
  ⟨.tensmat, [.scal .s, .obj .tcrs .s true, .obj (.viewDense .ten) .s true, .scal .s, .obj (.viewTDense .vec) .s false], .tensmat_crs, .s, [.par 0, .par 1, .par 2, .par 3, .par 4]⟩,
  ⟨.tensmat, [.obj .tcrs .s true, .obj (.viewDense .ten) .s true, .obj (.viewTDense .mat) .s false], .tensmat_crs, .s, [.one, .par 0, .par 1, .zero, .par 2]⟩,
  ⟨.tensmat, [.scal .s, .obj .tcrs .s true, .obj (.viewDense .ten) .s true, .scal .s, .obj (.viewTDense .mat) .s false], .tensmat_crs, .s, [.par 0, .par 1, .par 2, .par 3, .par 4]⟩,
  ⟨.tensmat, [.obj .tcrs .s true, .obj (.viewDense .ten) .s true, .obj (.viewTDense .ten) .s false], .tensmat_crs, .s, [.one, .par 0, .par 1, .zero, .par 2]⟩,
  ⟨.tensmat, [.scal .s, .obj .tcrs .s true, .obj (.viewDense .ten) .s true, .scal .s, .obj (.viewTDense .ten) .s false], .tensmat_crs, .s, [.par 0, .par 1, .par 2, .par 3, .par 4]⟩]

/-- the product overloads of src/blas/tensor/tensmat/tensmat_blas.cpp (320 of them; 0 with a LinearOperator left out) -/
def tTensmat : List (List Overload) :=
  [tTensmat_0, tTensmat_1, tTensmat_2, tTensmat_3]

/-- src/blas/tensor/mattens/mattens_blas.cpp:9-430 -/
def tMattens_0 : List Overload := [
  ⟨.mattens, [.obj .dense .d true, .obj .tdense .d true, .obj .tdense .d false], .mattens_dense, .d, [.one, .par 0, .par 1, .zero, .par 2, .ff, .ff]⟩,
  ⟨.mattens, [.scal .d, .obj .dense .d true, .obj .tdense .d true, .scal .d, .obj .tdense .d false], .mattens_dense, .d, [.par 0, .par 1, .par 2, .par 3, .par 4, .ff, .ff]⟩,
  ⟨.mattens, [.obj .dense .d true, .obj .tdense .d true, .obj (.viewTDense .vec) .d false], .mattens_dense, .d, [.one, .par 0, .par 1, .zero, .par 2, .ff, .ff]⟩,
  ⟨.mattens, [.scal .d, .obj .dense .d true, .obj .tdense .d true, .scal .d, .obj (.viewTDense .vec) .d false], .mattens_dense, .d, [.par 0, .par 1, .par 2, .par 3, .par 4, .ff, .ff]⟩,
  ⟨.mattens, [.obj .dense .d true, .obj .tdense .d true, .obj (.viewTDense .mat) .d false], .mattens_dense, .d, [.one, .par 0, .par 1, .zero, .par 2, .ff, .ff]⟩,
  ⟨.mattens, [.scal .d, .obj .dense .d true, .obj .tdense .d true, .scal .d, .obj (.viewTDense .mat) .d false], .mattens_dense, .d, [.par 0, .par 1, .par 2, .par 3, .par 4, .ff, .ff]⟩,
  ⟨.mattens, [.obj .dense .d true, .obj .tdense .d true, .obj (.viewTDense .ten) .d false], .mattens_dense, .d, [.one, .par 0, .par 1, .zero, .par 2, .ff, .ff]⟩,
  ⟨.mattens, [.scal .d, .obj .dense .d true, .obj .tdense .d true, .scal .d, .obj (.viewTDense .ten) .d false], .mattens_dense, .d, [.par 0, .par 1, .par 2, .par 3, .par 4, .ff, .ff]⟩,
  ⟨.mattens, [.obj .dense .d true, .obj (.viewTDense .vec) .d true, .obj .tdense .d false], .mattens_dense, .d, [.one, .par 0, .par 1, .zero, .par 2, .ff, .ff]⟩,
  ⟨.mattens, [.scal .d, .obj .dense .d true, .obj (.viewTDense .vec) .d true, .scal .d, .obj .tdense .d false], .mattens_dense, .d, [.par 0, .par 1, .par 2, .par 3, .par 4, .ff, .ff]⟩,
  ⟨.mattens, [.obj .dense .d true, .obj (.viewTDense .vec) .d true, .obj (.viewTDense .vec) .d false], .mattens_dense, .d, [.one, .par 0, .par 1, .zero, .par 2, .ff, .ff]⟩,
  ⟨.mattens, [.scal .d, .obj .dense .d true, .obj (.viewTDense .vec) .d true, .scal .d, .obj (.viewTDense .vec) .d false], .mattens_dense, .d, [.par 0, .par 1, .par 2, .par 3, .par 4, .ff, .ff]⟩,
  ⟨.mattens, [.obj .dense .d true, .obj (.viewTDense .vec) .d true, .obj (.viewTDense .mat) .d false], .mattens_dense, .d, [.one, .par 0, .par 1, .zero, .par 2, .ff, .ff]⟩,
  ⟨.mattens, [.scal .d, .obj .dense .d true, .obj (.viewTDense .vec) .d true, .scal .d, .obj (.viewTDense .mat) .d false], .mattens_dense, .d, [.par 0, .par 1, .par 2, .par 3, .par 4, .ff, .ff]⟩,
  ⟨.mattens, [.obj .dense .d true, .obj (.viewTDense .vec) .d true, .obj (.viewTDense .ten) .d false], .mattens_dense, .d, [.one, .par 0, .par 1, .zero, .par 2, .ff, .ff]⟩,
  ⟨.mattens, [.scal .d, .obj .dense .d true, .obj (.viewTDense .vec) .d true, .scal .d, .obj (.viewTDense .ten) .d false], .mattens_dense, .d, [.par 0, .par 1, .par 2, .par 3, .par 4, .ff, .ff]⟩,
  ⟨.mattens, [.obj .dense .d true, .obj (.viewTDense .mat) .d true, .obj .tdense .d false], .mattens_dense, .d, [.one, .par 0, .par 1, .zero, .par 2, .ff, .ff]⟩,
  ⟨.mattens, [.scal .d, .obj .dense .d true, .obj (.viewTDense .mat) .d true, .scal .d, .obj .tdense .d false], .mattens_dense, .d, [.par 0, .par 1, .par 2, .par 3, .par 4, .ff, .ff]⟩,
  ⟨.mattens, [.obj .dense .d true, .obj (.viewTDense .mat) .d true, .obj (.viewTDense .vec) .d false], .mattens_dense, .d, [.one, .par 0, .par 1, .zero, .par 2, .ff, .ff]⟩,
  ⟨.mattens, [.scal .d, .obj .dense .d true, .obj (.viewTDense .mat) .d true, .scal .d, .obj (.viewTDense .vec) .d false], .mattens_dense, .d, [.par 0, .par 1, .par 2, .par 3, .par 4, .ff, .ff]⟩,
  ⟨.mattens, [.obj .dense .d true, .obj (.viewTDense .mat) .d true, .obj (.viewTDense .mat) .d false], .mattens_dense, .d, [.one, .par 0, .par 1, .zero, .par 2, .ff, .ff]⟩,
  ⟨.mattens, [.scal .d, .obj .dense .d true, .obj (.viewTDense .mat) .d true, .scal .d, .obj (.viewTDense .mat) .d false], .mattens_dense, .d, [.par 0, .par 1, .par 2, .par 3, .par 4, .ff, .ff]⟩,
  ⟨.mattens, [.obj .dense .d true, .obj (.viewTDense .mat) .d true, .obj (.viewTDense .ten) .d false], .mattens_dense, .d, [.one, .par 0, .par 1, .zero, .par 2, .ff, .ff]⟩,
  ⟨.mattens, [.scal .d, .obj .dense .d true, .obj (.viewTDense .mat) .d true, .scal .d, .obj (.viewTDense .ten) .d false], .mattens_dense, .d, [.par 0, .par 1, .par 2, .par 3, .par 4, .ff, .ff]⟩,
  ⟨.mattens, [.obj .dense .d true, .obj (.viewTDense .ten) .d true, .obj .tdense .d false], .mattens_dense, .d, [.one, .par 0, .par 1, .zero, .par 2, .ff, .ff]⟩,
  ⟨.mattens, [.scal .d, .obj .dense .d true, .obj (.viewTDense .ten) .d true, .scal .d, .obj .tdense .d false], .mattens_dense, .d, [.par 0, .par 1, .par 2, .par 3, .par 4, .ff, .ff]⟩,
  ⟨.mattens, [.obj .dense .d true, .obj (.viewTDense .ten) .d true, .obj (.viewTDense .vec) .d false], .mattens_dense, .d, [.one, .par 0, .par 1, .zero, .par 2, .ff, .ff]⟩,
  ⟨.mattens, [.scal .d, .obj .dense .d true, .obj (.viewTDense .ten) .d true, .scal .d, .obj (.viewTDense .vec) .d false], .mattens_dense, .d, [.par 0, .par 1, .par 2, .par 3, .par 4, .ff, .ff]⟩,
  ⟨.mattens, [.obj .dense .d true, .obj (.viewTDense .ten) .d true, .obj (.viewTDense .mat) .d false], .mattens_dense, .d, [.one, .par 0, .par 1, .zero, .par 2, .ff, .ff]⟩,
  ⟨.mattens, [.scal .d, .obj .dense .d true, .obj (.viewTDense .ten) .d true, .scal .d, .obj (.viewTDense .mat) .d false], .mattens_dense, .d, [.par 0, .par 1, .par 2, .par 3, .par 4, .ff, .ff]⟩,
  ⟨.mattens, [.obj .dense .d true, .obj (.viewTDense .ten) .d true, .obj (.viewTDense .ten) .d false], .mattens_dense, .d, [.one, .par 0, .par 1, .zero, .par 2, .ff, .ff]⟩,
  ⟨.mattens, [.scal .d, .obj .dense .d true, .obj (.viewTDense .ten) .d true, .scal .d, .obj (.viewTDense .ten) .d false], .mattens_dense, .d, [.par 0, .par 1, .par 2, .par 3, .par 4, .ff, .ff]⟩,
  ⟨.mattens, [.obj (.viewDense .vec) .d true, .obj .tdense .d true, .obj .tdense .d false], .mattens_dense, .d, [.one, .par 0, .par 1, .zero, .par 2, .ff, .ff]⟩,
  ⟨.mattens, [.scal .d, .obj (.viewDense .vec) .d true, .obj .tdense .d true, .scal .d, .obj .tdense .d false], .mattens_dense, .d, [.par 0, .par 1, .par 2, .par 3, .par 4, .ff, .ff]⟩,
  ⟨.mattens, [.obj (.viewDense .vec) .d true, .obj .tdense .d true, .obj (.viewTDense .vec) .d false], .mattens_dense, .d, [.one, .par 0, .par 1, .zero, .par 2, .ff, .ff]⟩,
  ⟨.mattens, [.scal .d, .obj (.viewDense .vec) .d true, .obj .tdense .d true, .scal .d, .obj (.viewTDense .vec) .d false], .mattens_dense, .d, [.par 0, .par 1, .par 2, .par 3, .par 4, .ff, .ff]⟩,
  ⟨.mattens, [.obj (.viewDense .vec) .d true, .obj .tdense .d true, .obj (.viewTDense .mat) .d false], .mattens_dense, .d, [.one, .par 0, .par 1, .zero, .par 2, .ff, .ff]⟩,
  ⟨.mattens, [.scal .d, .obj (.viewDense .vec) .d true, .obj .tdense .d true, .scal .d, .obj (.viewTDense .mat) .d false], .mattens_dense, .d, [.par 0, .par 1, .par 2, .par 3, .par 4, .ff, .ff]⟩,
  ⟨.mattens, [.obj (.viewDense .vec) .d true, .obj .tdense .d true, .obj (.viewTDense .ten) .d false], .mattens_dense, .d, [.one, .par 0, .par 1, .zero, .par 2, .ff, .ff]⟩,
  ⟨.mattens, [.scal .d, .obj (.viewDense .vec) .d true, .obj .tdense .d true, .scal .d, .obj (.viewTDense .ten) .d false], .mattens_dense, .d, [.par 0, .par 1, .par 2, .par 3, .par 4, .ff, .ff]⟩,
  ⟨.mattens, [.obj (.viewDense .vec) .d true, .obj (.viewTDense .vec) .d true, .obj .tdense .d false], .mattens_dense, .d, [.one, .par 0, .par 1, .zero, .par 2, .ff, .ff]⟩,
  ⟨.mattens, [.scal .d, .obj (.viewDense .vec) .d true, .obj (.viewTDense .vec) .d true, .scal .d, .obj .tdense .d false], .mattens_dense, .d, [.par 0, .par 1, .par 2, .par 3, .par 4, .ff, .ff]⟩,
  ⟨.mattens, [.obj (.viewDense .vec) .d true, .obj (.viewTDense .vec) .d true, .obj (.viewTDense .vec) .d false], .mattens_dense, .d, [.one, .par 0, .par 1, .zero, .par 2, .ff, .ff]⟩,
  ⟨.mattens, [.scal .d, .obj (.viewDense .vec) .d true, .obj (.viewTDense .vec) .d true, .scal .d, .obj (.viewTDense .vec) .d false], .mattens_dense, .d, [.par 0, .par 1, .par 2, .par 3, .par 4, .ff, .ff]⟩,
  ⟨.mattens, [.obj (.viewDense .vec) .d true, .obj (.viewTDense .vec) .d true, .obj (.viewTDense .mat) .d false], .mattens_dense, .d, [.one, .par 0, .par 1, .zero, .par 2, .ff, .ff]⟩,
  ⟨.mattens, [.scal .d, .obj (.viewDense .vec) .d true, .obj (.viewTDense .vec) .d true, .scal .d, .obj (.viewTDense .mat) .d false], .mattens_dense, .d, [.par 0, .par 1, .par 2, .par 3, .par 4, .ff, .ff]⟩,
  ⟨.mattens, [.obj (.viewDense .vec) .d true, .obj (.viewTDense .vec) .d true, .obj (.viewTDense .ten) .d false], .mattens_dense, .d, [.one, .par 0, .par 1, .zero, .par 2, .ff, .ff]⟩,
  ⟨.mattens, [.scal .d, .obj (.viewDense .vec) .d true, .obj (.viewTDense .vec) .d true, .scal .d, .obj (.viewTDense .ten) .d false], .mattens_dense, .d, [.par 0, .par 1, .par 2, .par 3, .par 4, .ff, .ff]⟩,
  ⟨.mattens, [.obj (.viewDense .vec) .d true, .obj (.viewTDense .mat) .d true, .obj .tdense .d false], .mattens_dense, .d, [.one, .par 0, .par 1, .zero, .par 2, .ff, .ff]⟩,
  ⟨.mattens, [.scal .d, .obj (.viewDense .vec) .d true, .obj (.viewTDense .mat) .d true, .scal .d, .obj .tdense .d false], .mattens_dense, .d, [.par 0, .par 1, .par 2, .par 3, .par 4, .ff, .ff]⟩,
  ⟨.mattens, [.obj (.viewDense .vec) .d true, .obj (.viewTDense .mat) .d true, .obj (.viewTDense .vec) .d false], .mattens_dense, .d, [.one, .par 0, .par 1, .zero, .par 2, .ff, .ff]⟩,
  ⟨.mattens, [.scal .d, .obj (.viewDense .vec) .d true, .obj (.viewTDense .mat) .d true, .scal .d, .obj (.viewTDense .vec) .d false], .mattens_dense, .d, [.par 0, .par 1, .par 2, .par 3, .par 4, .ff, .ff]⟩,
  ⟨.mattens, [.obj (.viewDense .vec) .d true, .obj (.viewTDense .mat) .d true, .obj (.viewTDense .mat) .d false], .mattens_dense, .d, [.one, .par 0, .par 1, .zero, .par 2, .ff, .ff]⟩,
  ⟨.mattens, [.scal .d, .obj (.viewDense .vec) .d true, .obj (.viewTDense .mat) .d true, .scal .d, .obj (.viewTDense .mat) .d false], .mattens_dense, .d, [.par 0, .par 1, .par 2, .par 3, .par 4, .ff, .ff]⟩,
  ⟨.mattens, [.obj (.viewDense .vec) .d true, .obj (.viewTDense .mat) .d true, .obj (.viewTDense .ten) .d false], .mattens_dense, .d, [.one, .par 0, .par 1, .zero, .par 2, .ff, .ff]⟩,
  ⟨.mattens, [.scal .d, .obj (.viewDense .vec) .d true, .obj (.viewTDense .mat) .d true, .scal .d, .obj (.viewTDense .ten) .d false], .mattens_dense, .d, [.par 0, .par 1, .par 2, .par 3, .par 4, .ff, .ff]⟩,
  ⟨.mattens, [.obj (.viewDense .vec) .d true, .obj (.viewTDense .ten) .d true, .obj .tdense .d false], .mattens_dense, .d, [.one, .par 0, .par 1, .zero, .par 2, .ff, .ff]⟩,
  ⟨.mattens, [.scal .d, .obj (.viewDense .vec) .d true, .obj (.viewTDense .ten) .d true, .scal .d, .obj .tdense .d false], .mattens_dense, .d, [.par 0, .par 1, .par 2, .par 3, .par 4, .ff, .ff]⟩,
  ⟨.mattens, [.obj (.viewDense .vec) .d true, .obj (.viewTDense .ten) .d true, .obj (.viewTDense .vec) .d false], .mattens_dense, .d, [.one, .par 0, .par 1, .zero, .par 2, .ff, .ff]⟩,
  ⟨.mattens, [.scal .d, .obj (.viewDense .vec) .d true, .obj (.viewTDense .ten) .d true, .scal .d, .obj (.viewTDense .vec) .d false], .mattens_dense, .d, [.par 0, .par 1, .par 2, .par 3, .par 4, .ff, .ff]⟩,
  ⟨.mattens, [.obj (.viewDense .vec) .d true, .obj (.viewTDense .ten) .d true, .obj (.viewTDense .mat) .d false], .mattens_dense, .d, [.one, .par 0, .par 1, .zero, .par 2, .ff, .ff]⟩,
  ⟨.mattens, [.scal .d, .obj (.viewDense .vec) .d true, .obj (.viewTDense .ten) .d true, .scal .d, .obj (.viewTDense .mat) .d false], .mattens_dense, .d, [.par 0, .par 1, .par 2, .par 3, .par 4, .ff, .ff]⟩,
  ⟨.mattens, [.obj (.viewDense .vec) .d true, .obj (.viewTDense .ten) .d true, .obj (.viewTDense .ten) .d false], .mattens_dense, .d, [.one, .par 0, .par 1, .zero, .par 2, .ff, .ff]⟩,
  ⟨.mattens, [.scal .d, .obj (.viewDense .vec) .d true, .obj (.viewTDense .ten) .d true, .scal .d, .obj (.viewTDense .ten) .d false], .mattens_dense, .d, [.par 0, .par 1, .par 2, .par 3, .par 4, .ff, .ff]⟩,
  ⟨.mattens, [.obj (.viewDense .mat) .d true, .obj .tdense .d true, .obj .tdense .d false], .mattens_dense, .d, [.one, .par 0, .par 1, .zero, .par 2, .ff, .ff]⟩,
  ⟨.mattens, [.scal .d, .obj (.viewDense .mat) .d true, .obj .tdense .d true, .scal .d, .obj .tdense .d false], .mattens_dense, .d, [.par 0, .par 1, .par 2, .par 3, .par 4, .ff, .ff]⟩,
  ⟨.mattens, [.obj (.viewDense .mat) .d true, .obj .tdense .d true, .obj (.viewTDense .vec) .d false], .mattens_dense, .d, [.one, .par 0, .par 1, .zero, .par 2, .ff, .ff]⟩,
  ⟨.mattens, [.scal .d, .obj (.viewDense .mat) .d true, .obj .tdense .d true, .scal .d, .obj (.viewTDense .vec) .d false], .mattens_dense, .d, [.par 0, .par 1, .par 2, .par 3, .par 4, .ff, .ff]⟩,
  ⟨.mattens, [.obj (.viewDense .mat) .d true, .obj .tdense .d true, .obj (.viewTDense .mat) .d false], .mattens_dense, .d, [.one, .par 0, .par 1, .zero, .par 2, .ff, .ff]⟩,
  ⟨.mattens, [.scal .d, .obj (.viewDense .mat) .d true, .obj .tdense .d true, .scal .d, .obj (.viewTDense .mat) .d false], .mattens_dense, .d, [.par 0, .par 1, .par 2, .par 3, .par 4, .ff, .ff]⟩,
  ⟨.mattens, [.obj (.viewDense .mat) .d true, .obj .tdense .d true, .obj (.viewTDense .ten) .d false], .mattens_dense, .d, [.one, .par 0, .par 1, .zero, .par 2, .ff, .ff]⟩,
  ⟨.mattens, [.scal .d, .obj (.viewDense .mat) .d true, .obj .tdense .d true, .scal .d, .obj (.viewTDense .ten) .d false], .mattens_dense, .d, [.par 0, .par 1, .par 2, .par 3, .par 4, .ff, .ff]⟩,
  ⟨.mattens, [.obj (.viewDense .mat) .d true, .obj (.viewTDense .vec) .d true, .obj .tdense .d false], .mattens_dense, .d, [.one, .par 0, .par 1, .zero, .par 2, .ff, .ff]⟩,
  ⟨.mattens, [.scal .d, .obj (.viewDense .mat) .d true, .obj (.viewTDense .vec) .d true, .scal .d, .obj .tdense .d false], .mattens_dense, .d, [.par 0, .par 1, .par 2, .par 3, .par 4, .ff, .ff]⟩,
  ⟨.mattens, [.obj (.viewDense .mat) .d true, .obj (.viewTDense .vec) .d true, .obj (.viewTDense .vec) .d false], .mattens_dense, .d, [.one, .par 0, .par 1, .zero, .par 2, .ff, .ff]⟩,
  ⟨.mattens, [.scal .d, .obj (.viewDense .mat) .d true, .obj (.viewTDense .vec) .d true, .scal .d, .obj (.viewTDense .vec) .d false], .mattens_dense, .d, [.par 0, .par 1, .par 2, .par 3, .par 4, .ff, .ff]⟩,
  ⟨.mattens, [.obj (.viewDense .mat) .d true, .obj (.viewTDense .vec) .d true, .obj (.viewTDense .mat) .d false], .mattens_dense, .d, [.one, .par 0, .par 1, .zero, .par 2, .ff, .ff]⟩,
  ⟨.mattens, [.scal .d, .obj (.viewDense .mat) .d true, .obj (.viewTDense .vec) .d true, .scal .d, .obj (.viewTDense .mat) .d false], .mattens_dense, .d, [.par 0, .par 1, .par 2, .par 3, .par 4, .ff, .ff]⟩,
  ⟨.mattens, [.obj (.viewDense .mat) .d true, .obj (.viewTDense .vec) .d true, .obj (.viewTDense .ten) .d false], .mattens_dense, .d, [.one, .par 0, .par 1, .zero, .par 2, .ff, .ff]⟩,
  ⟨.mattens, [.scal .d, .obj (.viewDense .mat) .d true, .obj (.viewTDense .vec) .d true, .scal .d, .obj (.viewTDense .ten) .d false], .mattens_dense, .d, [.par 0, .par 1, .par 2, .par 3, .par 4, .ff, .ff]⟩]

/-- src/blas/tensor/mattens/mattens_blas.cpp:431-868 -/
def tMattens_1 : List Overload := [
  ⟨.mattens, [.obj (.viewDense .mat) .d true, .obj (.viewTDense .mat) .d true, .obj .tdense .d false], .mattens_dense, .d, [.one, .par 0, .par 1, .zero, .par 2, .ff, .ff]⟩,
  ⟨.mattens, [.scal .d, .obj (.viewDense .mat) .d true, .obj (.viewTDense .mat) .d true, .scal .d, .obj .tdense .d false], .mattens_dense, .d, [.par 0, .par 1, .par 2, .par 3, .par 4, .ff, .ff]⟩,
  ⟨.mattens, [.obj (.viewDense .mat) .d true, .obj (.viewTDense .mat) .d true, .obj (.viewTDense .vec) .d false], .mattens_dense, .d, [.one, .par 0, .par 1, .zero, .par 2, .ff, .ff]⟩,
  ⟨.mattens, [.scal .d, .obj (.viewDense .mat) .d true, .obj (.viewTDense .mat) .d true, .scal .d, .obj (.viewTDense .vec) .d false], .mattens_dense, .d, [.par 0, .par 1, .par 2, .par 3, .par 4, .ff, .ff]⟩,
  ⟨.mattens, [.obj (.viewDense .mat) .d true, .obj (.viewTDense .mat) .d true, .obj (.viewTDense .mat) .d false], .mattens_dense, .d, [.one, .par 0, .par 1, .zero, .par 2, .ff, .ff]⟩,
  ⟨.mattens, [.scal .d, .obj (.viewDense .mat) .d true, .obj (.viewTDense .mat) .d true, .scal .d, .obj (.viewTDense .mat) .d false], .mattens_dense, .d, [.par 0, .par 1, .par 2, .par 3, .par 4, .ff, .ff]⟩,
  ⟨.mattens, [.obj (.viewDense .mat) .d true, .obj (.viewTDense .mat) .d true, .obj (.viewTDense .ten) .d false], .mattens_dense, .d, [.one, .par 0, .par 1, .zero, .par 2, .ff, .ff]⟩,
  ⟨.mattens, [.scal .d, .obj (.viewDense .mat) .d true, .obj (.viewTDense .mat) .d true, .scal .d, .obj (.viewTDense .ten) .d false], .mattens_dense, .d, [.par 0, .par 1, .par 2, .par 3, .par 4, .ff, .ff]⟩,
  ⟨.mattens, [.obj (.viewDense .mat) .d true, .obj (.viewTDense .ten) .d true, .obj .tdense .d false], .mattens_dense, .d, [.one, .par 0, .par 1, .zero, .par 2, .ff, .ff]⟩,
  ⟨.mattens, [.scal .d, .obj (.viewDense .mat) .d true, .obj (.viewTDense .ten) .d true, .scal .d, .obj .tdense .d false], .mattens_dense, .d, [.par 0, .par 1, .par 2, .par 3, .par 4, .ff, .ff]⟩,
  ⟨.mattens, [.obj (.viewDense .mat) .d true, .obj (.viewTDense .ten) .d true, .obj (.viewTDense .vec) .d false], .mattens_dense, .d, [.one, .par 0, .par 1, .zero, .par 2, .ff, .ff]⟩,
  ⟨.mattens, [.scal .d, .obj (.viewDense .mat) .d true, .obj (.viewTDense .ten) .d true, .scal .d, .obj (.viewTDense .vec) .d false], .mattens_dense, .d, [.par 0, .par 1, .par 2, .par 3, .par 4, .ff, .ff]⟩,
  ⟨.mattens, [.obj (.viewDense .mat) .d true, .obj (.viewTDense .ten) .d true, .obj (.viewTDense .mat) .d false], .mattens_dense, .d, [.one, .par 0, .par 1, .zero, .par 2, .ff, .ff]⟩,
  ⟨.mattens, [.scal .d, .obj (.viewDense .mat) .d true, .obj (.viewTDense .ten) .d true, .scal .d, .obj (.viewTDense .mat) .d false], .mattens_dense, .d, [.par 0, .par 1, .par 2, .par 3, .par 4, .ff, .ff]⟩,
  ⟨.mattens, [.obj (.viewDense .mat) .d true, .obj (.viewTDense .ten) .d true, .obj (.viewTDense .ten) .d false], .mattens_dense, .d, [.one, .par 0, .par 1, .zero, .par 2, .ff, .ff]⟩,
  ⟨.mattens, [.scal .d, .obj (.viewDense .mat) .d true, .obj (.viewTDense .ten) .d true, .scal .d, .obj (.viewTDense .ten) .d false], .mattens_dense, .d, [.par 0, .par 1, .par 2, .par 3, .par 4, .ff, .ff]⟩,
  ⟨.mattens, [.obj (.viewDense .ten) .d true, .obj .tdense .d true, .obj .tdense .d false], .mattens_dense, .d, [.one, .par 0, .par 1, .zero, .par 2, .ff, .ff]⟩,
  ⟨.mattens, [.scal .d, .obj (.viewDense .ten) .d true, .obj .tdense .d true, .scal .d, .obj .tdense .d false], .mattens_dense, .d, [.par 0, .par 1, .par 2, .par 3, .par 4, .ff, .ff]⟩,
  ⟨.mattens, [.obj (.viewDense .ten) .d true, .obj .tdense .d true, .obj (.viewTDense .vec) .d false], .mattens_dense, .d, [.one, .par 0, .par 1, .zero, .par 2, .ff, .ff]⟩,
  ⟨.mattens, [.scal .d, .obj (.viewDense .ten) .d true, .obj .tdense .d true, .scal .d, .obj (.viewTDense .vec) .d false], .mattens_dense, .d, [.par 0, .par 1, .par 2, .par 3, .par 4, .ff, .ff]⟩,
  ⟨.mattens, [.obj (.viewDense .ten) .d true, .obj .tdense .d true, .obj (.viewTDense .mat) .d false], .mattens_dense, .d, [.one, .par 0, .par 1, .zero, .par 2, .ff, .ff]⟩,
  ⟨.mattens, [.scal .d, .obj (.viewDense .ten) .d true, .obj .tdense .d true, .scal .d, .obj (.viewTDense .mat) .d false], .mattens_dense, .d, [.par 0, .par 1, .par 2, .par 3, .par 4, .ff, .ff]⟩,
  ⟨.mattens, [.obj (.viewDense .ten) .d true, .obj .tdense .d true, .obj (.viewTDense .ten) .d false], .mattens_dense, .d, [.one, .par 0, .par 1, .zero, .par 2, .ff, .ff]⟩,
  ⟨.mattens, [.scal .d, .obj (.viewDense .ten) .d true, .obj .tdense .d true, .scal .d, .obj (.viewTDense .ten) .d false], .mattens_dense, .d, [.par 0, .par 1, .par 2, .par 3, .par 4, .ff, .ff]⟩,
  ⟨.mattens, [.obj (.viewDense .ten) .d true, .obj (.viewTDense .vec) .d true, .obj .tdense .d false], .mattens_dense, .d, [.one, .par 0, .par 1, .zero, .par 2, .ff, .ff]⟩,
  ⟨.mattens, [.scal .d, .obj (.viewDense .ten) .d true, .obj (.viewTDense .vec) .d true, .scal .d, .obj .tdense .d false], .mattens_dense, .d, [.par 0, .par 1, .par 2, .par 3, .par 4, .ff, .ff]⟩,
  ⟨.mattens, [.obj (.viewDense .ten) .d true, .obj (.viewTDense .vec) .d true, .obj (.viewTDense .vec) .d false], .mattens_dense, .d, [.one, .par 0, .par 1, .zero, .par 2, .ff, .ff]⟩,
  ⟨.mattens, [.scal .d, .obj (.viewDense .ten) .d true, .obj (.viewTDense .vec) .d true, .scal .d, .obj (.viewTDense .vec) .d false], .mattens_dense, .d, [.par 0, .par 1, .par 2, .par 3, .par 4, .ff, .ff]⟩,
  ⟨.mattens, [.obj (.viewDense .ten) .d true, .obj (.viewTDense .vec) .d true, .obj (.viewTDense .mat) .d false], .mattens_dense, .d, [.one, .par 0, .par 1, .zero, .par 2, .ff, .ff]⟩,
  ⟨.mattens, [.scal .d, .obj (.viewDense .ten) .d true, .obj (.viewTDense .vec) .d true, .scal .d, .obj (.viewTDense .mat) .d false], .mattens_dense, .d, [.par 0, .par 1, .par 2, .par 3, .par 4, .ff, .ff]⟩,
  ⟨.mattens, [.obj (.viewDense .ten) .d true, .obj (.viewTDense .vec) .d true, .obj (.viewTDense .ten) .d false], .mattens_dense, .d, [.one, .par 0, .par 1, .zero, .par 2, .ff, .ff]⟩,
  ⟨.mattens, [.scal .d, .obj (.viewDense .ten) .d true, .obj (.viewTDense .vec) .d true, .scal .d, .obj (.viewTDense .ten) .d false], .mattens_dense, .d, [.par 0, .par 1, .par 2, .par 3, .par 4, .ff, .ff]⟩,
  ⟨.mattens, [.obj (.viewDense .ten) .d true, .obj (.viewTDense .mat) .d true, .obj .tdense .d false], .mattens_dense, .d, [.one, .par 0, .par 1, .zero, .par 2, .ff, .ff]⟩,
  ⟨.mattens, [.scal .d, .obj (.viewDense .ten) .d true, .obj (.viewTDense .mat) .d true, .scal .d, .obj .tdense .d false], .mattens_dense, .d, [.par 0, .par 1, .par 2, .par 3, .par 4, .ff, .ff]⟩,
  ⟨.mattens, [.obj (.viewDense .ten) .d true, .obj (.viewTDense .mat) .d true, .obj (.viewTDense .vec) .d false], .mattens_dense, .d, [.one, .par 0, .par 1, .zero, .par 2, .ff, .ff]⟩,
  ⟨.mattens, [.scal .d, .obj (.viewDense .ten) .d true, .obj (.viewTDense .mat) .d true, .scal .d, .obj (.viewTDense .vec) .d false], .mattens_dense, .d, [.par 0, .par 1, .par 2, .par 3, .par 4, .ff, .ff]⟩,
  ⟨.mattens, [.obj (.viewDense .ten) .d true, .obj (.viewTDense .mat) .d true, .obj (.viewTDense .mat) .d false], .mattens_dense, .d, [.one, .par 0, .par 1, .zero, .par 2, .ff, .ff]⟩,
  ⟨.mattens, [.scal .d, .obj (.viewDense .ten) .d true, .obj (.viewTDense .mat) .d true, .scal .d, .obj (.viewTDense .mat) .d false], .mattens_dense, .d, [.par 0, .par 1, .par 2, .par 3, .par 4, .ff, .ff]⟩,
  ⟨.mattens, [.obj (.viewDense .ten) .d true, .obj (.viewTDense .mat) .d true, .obj (.viewTDense .ten) .d false], .mattens_dense, .d, [.one, .par 0, .par 1, .zero, .par 2, .ff, .ff]⟩,
  ⟨.mattens, [.scal .d, .obj (.viewDense .ten) .d true, .obj (.viewTDense .mat) .d true, .scal .d, .obj (.viewTDense .ten) .d false], .mattens_dense, .d, [.par 0, .par 1, .par 2, .par 3, .par 4, .ff, .ff]⟩,
  ⟨.mattens, [.obj (.viewDense .ten) .d true, .obj (.viewTDense .ten) .d true, .obj .tdense .d false], .mattens_dense, .d, [.one, .par 0, .par 1, .zero, .par 2, .ff, .ff]⟩,
  ⟨.mattens, [.scal .d, .obj (.viewDense .ten) .d true, .obj (.viewTDense .ten) .d true, .scal .d, .obj .tdense .d false], .mattens_dense, .d, [.par 0, .par 1, .par 2, .par 3, .par 4, .ff, .ff]⟩,
  ⟨.mattens, [.obj (.viewDense .ten) .d true, .obj (.viewTDense .ten) .d true, .obj (.viewTDense .vec) .d false], .mattens_dense, .d, [.one, .par 0, .par 1, .zero, .par 2, .ff, .ff]⟩,
  ⟨.mattens, [.scal .d, .obj (.viewDense .ten) .d true, .obj (.viewTDense .ten) .d true, .scal .d, .obj (.viewTDense .vec) .d false], .mattens_dense, .d, [.par 0, .par 1, .par 2, .par 3, .par 4, .ff, .ff]⟩,
  ⟨.mattens, [.obj (.viewDense .ten) .d true, .obj (.viewTDense .ten) .d true, .obj (.viewTDense .mat) .d false], .mattens_dense, .d, [.one, .par 0, .par 1, .zero, .par 2, .ff, .ff]⟩,
  ⟨.mattens, [.scal .d, .obj (.viewDense .ten) .d true, .obj (.viewTDense .ten) .d true, .scal .d, .obj (.viewTDense .mat) .d false], .mattens_dense, .d, [.par 0, .par 1, .par 2, .par 3, .par 4, .ff, .ff]⟩,
  ⟨.mattens, [.obj (.viewDense .ten) .d true, .obj (.viewTDense .ten) .d true, .obj (.viewTDense .ten) .d false], .mattens_dense, .d, [.one, .par 0, .par 1, .zero, .par 2, .ff, .ff]⟩,
  ⟨.mattens, [.scal .d, .obj (.viewDense .ten) .d true, .obj (.viewTDense .ten) .d true, .scal .d, .obj (.viewTDense .ten) .d false], .mattens_dense, .d, [.par 0, .par 1, .par 2, .par 3, .par 4, .ff, .ff]⟩,
  ⟨.mattens, [.obj .dense .s true, .obj .tdense .s true, .obj .tdense .s false], .mattens_dense, .s, [.one, .par 0, .par 1, .zero, .par 2, .ff, .ff]⟩,
  ⟨.mattens, [.scal .s, .obj .dense .s true, .obj .tdense .s true, .scal .s, .obj .tdense .s false], .mattens_dense, .s, [.par 0, .par 1, .par 2, .par 3, .par 4, .ff, .ff]⟩,
  ⟨.mattens, [.obj .dense .s true, .obj .tdense .s true, .obj (.viewTDense .vec) .s false], .mattens_dense, .s, [.one, .par 0, .par 1, .zero, .par 2, .ff, .ff]⟩,
  ⟨.mattens, [.scal .s, .obj .dense .s true, .obj .tdense .s true, .scal .s, .obj (.viewTDense .vec) .s false], .mattens_dense, .s, [.par 0, .par 1, .par 2, .par 3, .par 4, .ff, .ff]⟩,
  ⟨.mattens, [.obj .dense .s true, .obj .tdense .s true, .obj (.viewTDense .mat) .s false], .mattens_dense, .s, [.one, .par 0, .par 1, .zero, .par 2, .ff, .ff]⟩,
  ⟨.mattens, [.scal .s, .obj .dense .s true, .obj .tdense .s true, .scal .s, .obj (.viewTDense .mat) .s false], .mattens_dense, .s, [.par 0, .par 1, .par 2, .par 3, .par 4, .ff, .ff]⟩,
  ⟨.mattens, [.obj .dense .s true, .obj .tdense .s true, .obj (.viewTDense .ten) .s false], .mattens_dense, .s, [.one, .par 0, .par 1, .zero, .par 2, .ff, .ff]⟩,
  ⟨.mattens, [.scal .s, .obj .dense .s true, .obj .tdense .s true, .scal .s, .obj (.viewTDense .ten) .s false], .mattens_dense, .s, [.par 0, .par 1, .par 2, .par 3, .par 4, .ff, .ff]⟩,
  ⟨.mattens, [.obj .dense .s true, .obj (.viewTDense .vec) .s true, .obj .tdense .s false], .mattens_dense, .s, [.one, .par 0, .par 1, .zero, .par 2, .ff, .ff]⟩,
  ⟨.mattens, [.scal .s, .obj .dense .s true, .obj (.viewTDense .vec) .s true, .scal .s, .obj .tdense .s false], .mattens_dense, .s, [.par 0, .par 1, .par 2, .par 3, .par 4, .ff, .ff]⟩,
  ⟨.mattens, [.obj .dense .s true, .obj (.viewTDense .vec) .s true, .obj (.viewTDense .vec) .s false], .mattens_dense, .s, [.one, .par 0, .par 1, .zero, .par 2, .ff, .ff]⟩,
  ⟨.mattens, [.scal .s, .obj .dense .s true, .obj (.viewTDense .vec) .s true, .scal .s, .obj (.viewTDense .vec) .s false], .mattens_dense, .s, [.par 0, .par 1, .par 2, .par 3, .par 4, .ff, .ff]⟩,
  ⟨.mattens, [.obj .dense .s true, .obj (.viewTDense .vec) .s true, .obj (.viewTDense .mat) .s false], .mattens_dense, .s, [.one, .par 0, .par 1, .zero, .par 2, .ff, .ff]⟩,
  ⟨.mattens, [.scal .s, .obj .dense .s true, .obj (.viewTDense .vec) .s true, .scal .s, .obj (.viewTDense .mat) .s false], .mattens_dense, .s, [.par 0, .par 1, .par 2, .par 3, .par 4, .ff, .ff]⟩,
  ⟨.mattens, [.obj .dense .s true, .obj (.viewTDense .vec) .s true, .obj (.viewTDense .ten) .s false], .mattens_dense, .s, [.one, .par 0, .par 1, .zero, .par 2, .ff, .ff]⟩,
  ⟨.mattens, [.scal .s, .obj .dense .s true, .obj (.viewTDense .vec) .s true, .scal .s, .obj (.viewTDense .ten) .s false], .mattens_dense, .s, [.par 0, .par 1, .par 2, .par 3, .par 4, .ff, .ff]⟩,
  ⟨.mattens, [.obj .dense .s true, .obj (.viewTDense .mat) .s true, .obj .tdense .s false], .mattens_dense, .s, [.one, .par 0, .par 1, .zero, .par 2, .ff, .ff]⟩,
  ⟨.mattens, [.scal .s, .obj .dense .s true, .obj (.viewTDense .mat) .s true, .scal .s, .obj .tdense .s false], .mattens_dense, .s, [.par 0, .par 1, .par 2, .par 3, .par 4, .ff, .ff]⟩,
  ⟨.mattens, [.obj .dense .s true, .obj (.viewTDense .mat) .s true, .obj (.viewTDense .vec) .s false], .mattens_dense, .s, [.one, .par 0, .par 1, .zero, .par 2, .ff, .ff]⟩,
  ⟨.mattens, [.scal .s, .obj .dense .s true, .obj (.viewTDense .mat) .s true, .scal .s, .obj (.viewTDense .vec) .s false], .mattens_dense, .s, [.par 0, .par 1, .par 2, .par 3, .par 4, .ff, .ff]⟩,
  ⟨.mattens, [.obj .dense .s true, .obj (.viewTDense .mat) .s true, .obj (.viewTDense .mat) .s false], .mattens_dense, .s, [.one, .par 0, .par 1, .zero, .par 2, .ff, .ff]⟩,
  ⟨.mattens, [.scal .s, .obj .dense .s true, .obj (.viewTDense .mat) .s true, .scal .s, .obj (.viewTDense .mat) .s false], .mattens_dense, .s, [.par 0, .par 1, .par 2, .par 3, .par 4, .ff, .ff]⟩,
  ⟨.mattens, [.obj .dense .s true, .obj (.viewTDense .mat) .s true, .obj (.viewTDense .ten) .s false], .mattens_dense, .s, [.one, .par 0, .par 1, .zero, .par 2, .ff, .ff]⟩,
  ⟨.mattens, [.scal .s, .obj .dense .s true, .obj (.viewTDense .mat) .s true, .scal .s, .obj (.viewTDense .ten) .s false], .mattens_dense, .s, [.par 0, .par 1, .par 2, .par 3, .par 4, .ff, .ff]⟩,
  ⟨.mattens, [.obj .dense .s true, .obj (.viewTDense .ten) .s true, .obj .tdense .s false], .mattens_dense, .s, [.one, .par 0, .par 1, .zero, .par 2, .ff, .ff]⟩,
  ⟨.mattens, [.scal .s, .obj .dense .s true, .obj (.viewTDense .ten) .s true, .scal .s, .obj .tdense .s false], .mattens_dense, .s, [.par 0, .par 1, .par 2, .par 3, .par 4, .ff, .ff]⟩,
  ⟨.mattens, [.obj .dense .s true, .obj (.viewTDense .ten) .s true, .obj (.viewTDense .vec) .s false], .mattens_dense, .s, [.one, .par 0, .par 1, .zero, .par 2, .ff, .ff]⟩,
  ⟨.mattens, [.scal .s, .obj .dense .s true, .obj (.viewTDense .ten) .s true, .scal .s, .obj (.viewTDense .vec) .s false], .mattens_dense, .s, [.par 0, .par 1, .par 2, .par 3, .par 4, .ff, .ff]⟩,
  ⟨.mattens, [.obj .dense .s true, .obj (.viewTDense .ten) .s true, .obj (.viewTDense .mat) .s false], .mattens_dense, .s, [.one, .par 0, .par 1, .zero, .par 2, .ff, .ff]⟩,
  ⟨.mattens, [.scal .s, .obj .dense .s true, .obj (.viewTDense .ten) .s true, .scal .s, .obj (.viewTDense .mat) .s false], .mattens_dense, .s, [.par 0, .par 1, .par 2, .par 3, .par 4, .ff, .ff]⟩,
  ⟨.mattens, [.obj .dense .s true, .obj (.viewTDense .ten) .s true, .obj (.viewTDense .ten) .s false], .mattens_dense, .s, [.one, .par 0, .par 1, .zero, .par 2, .ff, .ff]⟩,
  ⟨.mattens, [.scal .s, .obj .dense .s true, .obj (.viewTDense .ten) .s true, .scal .s, .obj (.viewTDense .ten) .s false], .mattens_dense, .s, [.par 0, .par 1, .par 2, .par 3, .par 4, .ff, .ff]⟩]

/-- src/blas/tensor/mattens/mattens_blas.cpp:869-1284 -/
def tMattens_2 : List Overload := [
  ⟨.mattens, [.obj (.viewDense .vec) .s true, .obj .tdense .s true, .obj .tdense .s false], .mattens_dense, .s, [.one, .par 0, .par 1, .zero, .par 2, .ff, .ff]⟩,
  ⟨.mattens, [.scal .s, .obj (.viewDense .vec) .s true, .obj .tdense .s true, .scal .s, .obj .tdense .s false], .mattens_dense, .s, [.par 0, .par 1, .par 2, .par 3, .par 4, .ff, .ff]⟩,
  ⟨.mattens, [.obj (.viewDense .vec) .s true, .obj .tdense .s true, .obj (.viewTDense .vec) .s false], .mattens_dense, .s, [.one, .par 0, .par 1, .zero, .par 2, .ff, .ff]⟩,
  ⟨.mattens, [.scal .s, .obj (.viewDense .vec) .s true, .obj .tdense .s true, .scal .s, .obj (.viewTDense .vec) .s false], .mattens_dense, .s, [.par 0, .par 1, .par 2, .par 3, .par 4, .ff, .ff]⟩,
  ⟨.mattens, [.obj (.viewDense .vec) .s true, .obj .tdense .s true, .obj (.viewTDense .mat) .s false], .mattens_dense, .s, [.one, .par 0, .par 1, .zero, .par 2, .ff, .ff]⟩,
  ⟨.mattens, [.scal .s, .obj (.viewDense .vec) .s true, .obj .tdense .s true, .scal .s, .obj (.viewTDense .mat) .s false], .mattens_dense, .s, [.par 0, .par 1, .par 2, .par 3, .par 4, .ff, .ff]⟩,
  ⟨.mattens, [.obj (.viewDense .vec) .s true, .obj .tdense .s true, .obj (.viewTDense .ten) .s false], .mattens_dense, .s, [.one, .par 0, .par 1, .zero, .par 2, .ff, .ff]⟩,
  ⟨.mattens, [.scal .s, .obj (.viewDense .vec) .s true, .obj .tdense .s true, .scal .s, .obj (.viewTDense .ten) .s false], .mattens_dense, .s, [.par 0, .par 1, .par 2, .par 3, .par 4, .ff, .ff]⟩,
  ⟨.mattens, [.obj (.viewDense .vec) .s true, .obj (.viewTDense .vec) .s true, .obj .tdense .s false], .mattens_dense, .s, [.one, .par 0, .par 1, .zero, .par 2, .ff, .ff]⟩,
  ⟨.mattens, [.scal .s, .obj (.viewDense .vec) .s true, .obj (.viewTDense .vec) .s true, .scal .s, .obj .tdense .s false], .mattens_dense, .s, [.par 0, .par 1, .par 2, .par 3, .par 4, .ff, .ff]⟩,
  ⟨.mattens, [.obj (.viewDense .vec) .s true, .obj (.viewTDense .vec) .s true, .obj (.viewTDense .vec) .s false], .mattens_dense, .s, [.one, .par 0, .par 1, .zero, .par 2, .ff, .ff]⟩,
  ⟨.mattens, [.scal .s, .obj (.viewDense .vec) .s true, .obj (.viewTDense .vec) .s true, .scal .s, .obj (.viewTDense .vec) .s false], .mattens_dense, .s, [.par 0, .par 1, .par 2, .par 3, .par 4, .ff, .ff]⟩,
  ⟨.mattens, [.obj (.viewDense .vec) .s true, .obj (.viewTDense .vec) .s true, .obj (.viewTDense .mat) .s false], .mattens_dense, .s, [.one, .par 0, .par 1, .zero, .par 2, .ff, .ff]⟩,
  ⟨.mattens, [.scal .s, .obj (.viewDense .vec) .s true, .obj (.viewTDense .vec) .s true, .scal .s, .obj (.viewTDense .mat) .s false], .mattens_dense, .s, [.par 0, .par 1, .par 2, .par 3, .par 4, .ff, .ff]⟩,
  ⟨.mattens, [.obj (.viewDense .vec) .s true, .obj (.viewTDense .vec) .s true, .obj (.viewTDense .ten) .s false], .mattens_dense, .s, [.one, .par 0, .par 1, .zero, .par 2, .ff, .ff]⟩,
  ⟨.mattens, [.scal .s, .obj (.viewDense .vec) .s true, .obj (.viewTDense .vec) .s true, .scal .s, .obj (.viewTDense .ten) .s false], .mattens_dense, .s, [.par 0, .par 1, .par 2, .par 3, .par 4, .ff, .ff]⟩,
  ⟨.mattens, [.obj (.viewDense .vec) .s true, .obj (.viewTDense .mat) .s true, .obj .tdense .s false], .mattens_dense, .s, [.one, .par 0, .par 1, .zero, .par 2, .ff, .ff]⟩,
  ⟨.mattens, [.scal .s, .obj (.viewDense .vec) .s true, .obj (.viewTDense .mat) .s true, .scal .s, .obj .tdense .s false], .mattens_dense, .s, [.par 0, .par 1, .par 2, .par 3, .par 4, .ff, .ff]⟩,
  ⟨.mattens, [.obj (.viewDense .vec) .s true, .obj (.viewTDense .mat) .s true, .obj (.viewTDense .vec) .s false], .mattens_dense, .s, [.one, .par 0, .par 1, .zero, .par 2, .ff, .ff]⟩,
  ⟨.mattens, [.scal .s, .obj (.viewDense .vec) .s true, .obj (.viewTDense .mat) .s true, .scal .s, .obj (.viewTDense .vec) .s false], .mattens_dense, .s, [.par 0, .par 1, .par 2, .par 3, .par 4, .ff, .ff]⟩,
  ⟨.mattens, [.obj (.viewDense .vec) .s true, .obj (.viewTDense .mat) .s true, .obj (.viewTDense .mat) .s false], .mattens_dense, .s, [.one, .par 0, .par 1, .zero, .par 2, .ff, .ff]⟩,
  ⟨.mattens, [.scal .s, .obj (.viewDense .vec) .s true, .obj (.viewTDense .mat) .s true, .scal .s, .obj (.viewTDense .mat) .s false], .mattens_dense, .s, [.par 0, .par 1, .par 2, .par 3, .par 4, .ff, .ff]⟩,
  ⟨.mattens, [.obj (.viewDense .vec) .s true, .obj (.viewTDense .mat) .s true, .obj (.viewTDense .ten) .s false], .mattens_dense, .s, [.one, .par 0, .par 1, .zero, .par 2, .ff, .ff]⟩,
  ⟨.mattens, [.scal .s, .obj (.viewDense .vec) .s true, .obj (.viewTDense .mat) .s true, .scal .s, .obj (.viewTDense .ten) .s false], .mattens_dense, .s, [.par 0, .par 1, .par 2, .par 3, .par 4, .ff, .ff]⟩,
  ⟨.mattens, [.obj (.viewDense .vec) .s true, .obj (.viewTDense .ten) .s true, .obj .tdense .s false], .mattens_dense, .s, [.one, .par 0, .par 1, .zero, .par 2, .ff, .ff]⟩,
  ⟨.mattens, [.scal .s, .obj (.viewDense .vec) .s true, .obj (.viewTDense .ten) .s true, .scal .s, .obj .tdense .s false], .mattens_dense, .s, [.par 0, .par 1, .par 2, .par 3, .par 4, .ff, .ff]⟩,
  ⟨.mattens, [.obj (.viewDense .vec) .s true, .obj (.viewTDense .ten) .s true, .obj (.viewTDense .vec) .s false], .mattens_dense, .s, [.one, .par 0, .par 1, .zero, .par 2, .ff, .ff]⟩,
  ⟨.mattens, [.scal .s, .obj (.viewDense .vec) .s true, .obj (.viewTDense .ten) .s true, .scal .s, .obj (.viewTDense .vec) .s false], .mattens_dense, .s, [.par 0, .par 1, .par 2, .par 3, .par 4, .ff, .ff]⟩,
  ⟨.mattens, [.obj (.viewDense .vec) .s true, .obj (.viewTDense .ten) .s true, .obj (.viewTDense .mat) .s false], .mattens_dense, .s, [.one, .par 0, .par 1, .zero, .par 2, .ff, .ff]⟩,
  ⟨.mattens, [.scal .s, .obj (.viewDense .vec) .s true, .obj (.viewTDense .ten) .s true, .scal .s, .obj (.viewTDense .mat) .s false], .mattens_dense, .s, [.par 0, .par 1, .par 2, .par 3, .par 4, .ff, .ff]⟩,
  ⟨.mattens, [.obj (.viewDense .vec) .s true, .obj (.viewTDense .ten) .s true, .obj (.viewTDense .ten) .s false], .mattens_dense, .s, [.one, .par 0, .par 1, .zero, .par 2, .ff, .ff]⟩,
  ⟨.mattens, [.scal .s, .obj (.viewDense .vec) .s true, .obj (.viewTDense .ten) .s true, .scal .s, .obj (.viewTDense .ten) .s false], .mattens_dense, .s, [.par 0, .par 1, .par 2, .par 3, .par 4, .ff, .ff]⟩,
  ⟨.mattens, [.obj (.viewDense .mat) .s true, .obj .tdense .s true, .obj .tdense .s false], .mattens_dense, .s, [.one, .par 0, .par 1, .zero, .par 2, .ff, .ff]⟩,
  ⟨.mattens, [.scal .s, .obj (.viewDense .mat) .s true, .obj .tdense .s true, .scal .s, .obj .tdense .s false], .mattens_dense, .s, [.par 0, .par 1, .par 2, .par 3, .par 4, .ff, .ff]⟩,
  ⟨.mattens, [.obj (.viewDense .mat) .s true, .obj .tdense .s true, .obj (.viewTDense .vec) .s false], .mattens_dense, .s, [.one, .par 0, .par 1, .zero, .par 2, .ff, .ff]⟩,
  ⟨.mattens, [.scal .s, .obj (.viewDense .mat) .s true, .obj .tdense .s true, .scal .s, .obj (.viewTDense .vec) .s false], .mattens_dense, .s, [.par 0, .par 1, .par 2, .par 3, .par 4, .ff, .ff]⟩,
  ⟨.mattens, [.obj (.viewDense .mat) .s true, .obj .tdense .s true, .obj (.viewTDense .mat) .s false], .mattens_dense, .s, [.one, .par 0, .par 1, .zero, .par 2, .ff, .ff]⟩,
  ⟨.mattens, [.scal .s, .obj (.viewDense .mat) .s true, .obj .tdense .s true, .scal .s, .obj (.viewTDense .mat) .s false], .mattens_dense, .s, [.par 0, .par 1, .par 2, .par 3, .par 4, .ff, .ff]⟩,
  ⟨.mattens, [.obj (.viewDense .mat) .s true, .obj .tdense .s true, .obj (.viewTDense .ten) .s false], .mattens_dense, .s, [.one, .par 0, .par 1, .zero, .par 2, .ff, .ff]⟩,
  ⟨.mattens, [.scal .s, .obj (.viewDense .mat) .s true, .obj .tdense .s true, .scal .s, .obj (.viewTDense .ten) .s false], .mattens_dense, .s, [.par 0, .par 1, .par 2, .par 3, .par 4, .ff, .ff]⟩,
  ⟨.mattens, [.obj (.viewDense .mat) .s true, .obj (.viewTDense .vec) .s true, .obj .tdense .s false], .mattens_dense, .s, [.one, .par 0, .par 1, .zero, .par 2, .ff, .ff]⟩,
  ⟨.mattens, [.scal .s, .obj (.viewDense .mat) .s true, .obj (.viewTDense .vec) .s true, .scal .s, .obj .tdense .s false], .mattens_dense, .s, [.par 0, .par 1, .par 2, .par 3, .par 4, .ff, .ff]⟩,
  ⟨.mattens, [.obj (.viewDense .mat) .s true, .obj (.viewTDense .vec) .s true, .obj (.viewTDense .vec) .s false], .mattens_dense, .s, [.one, .par 0, .par 1, .zero, .par 2, .ff, .ff]⟩,
  ⟨.mattens, [.scal .s, .obj (.viewDense .mat) .s true, .obj (.viewTDense .vec) .s true, .scal .s, .obj (.viewTDense .vec) .s false], .mattens_dense, .s, [.par 0, .par 1, .par 2, .par 3, .par 4, .ff, .ff]⟩,
  ⟨.mattens, [.obj (.viewDense .mat) .s true, .obj (.viewTDense .vec) .s true, .obj (.viewTDense .mat) .s false], .mattens_dense, .s, [.one, .par 0, .par 1, .zero, .par 2, .ff, .ff]⟩,
  ⟨.mattens, [.scal .s, .obj (.viewDense .mat) .s true, .obj (.viewTDense .vec) .s true, .scal .s, .obj (.viewTDense .mat) .s false], .mattens_dense, .s, [.par 0, .par 1, .par 2, .par 3, .par 4, .ff, .ff]⟩,
  ⟨.mattens, [.obj (.viewDense .mat) .s true, .obj (.viewTDense .vec) .s true, .obj (.viewTDense .ten) .s false], .mattens_dense, .s, [.one, .par 0, .par 1, .zero, .par 2, .ff, .ff]⟩,
  ⟨.mattens, [.scal .s, .obj (.viewDense .mat) .s true, .obj (.viewTDense .vec) .s true, .scal .s, .obj (.viewTDense .ten) .s false], .mattens_dense, .s, [.par 0, .par 1, .par 2, .par 3, .par 4, .ff, .ff]⟩,
  ⟨.mattens, [.obj (.viewDense .mat) .s true, .obj (.viewTDense .mat) .s true, .obj .tdense .s false], .mattens_dense, .s, [.one, .par 0, .par 1, .zero, .par 2, .ff, .ff]⟩,
  ⟨.mattens, [.scal .s, .obj (.viewDense .mat) .s true, .obj (.viewTDense .mat) .s true, .scal .s, .obj .tdense .s false], .mattens_dense, .s, [.par 0, .par 1, .par 2, .par 3, .par 4, .ff, .ff]⟩,
  ⟨.mattens, [.obj (.viewDense .mat) .s true, .obj (.viewTDense .mat) .s true, .obj (.viewTDense .vec) .s false], .mattens_dense, .s, [.one, .par 0, .par 1, .zero, .par 2, .ff, .ff]⟩,
  ⟨.mattens, [.scal .s, .obj (.viewDense .mat) .s true, .obj (.viewTDense .mat) .s true, .scal .s, .obj (.viewTDense .vec) .s false], .mattens_dense, .s, [.par 0, .par 1, .par 2, .par 3, .par 4, .ff, .ff]⟩,
  ⟨.mattens, [.obj (.viewDense .mat) .s true, .obj (.viewTDense .mat) .s true, .obj (.viewTDense .mat) .s false], .mattens_dense, .s, [.one, .par 0, .par 1, .zero, .par 2, .ff, .ff]⟩,
  ⟨.mattens, [.scal .s, .obj (.viewDense .mat) .s true, .obj (.viewTDense .mat) .s true, .scal .s, .obj (.viewTDense .mat) .s false], .mattens_dense, .s, [.par 0, .par 1, .par 2, .par 3, .par 4, .ff, .ff]⟩,
  ⟨.mattens, [.obj (.viewDense .mat) .s true, .obj (.viewTDense .mat) .s true, .obj (.viewTDense .ten) .s false], .mattens_dense, .s, [.one, .par 0, .par 1, .zero, .par 2, .ff, .ff]⟩,
  ⟨.mattens, [.scal .s, .obj (.viewDense .mat) .s true, .obj (.viewTDense .mat) .s true, .scal .s, .obj (.viewTDense .ten) .s false], .mattens_dense, .s, [.par 0, .par 1, .par 2, .par 3, .par 4, .ff, .ff]⟩,
  ⟨.mattens, [.obj (.viewDense .mat) .s true, .obj (.viewTDense .ten) .s true, .obj .tdense .s false], .mattens_dense, .s, [.one, .par 0, .par 1, .zero, .par 2, .ff, .ff]⟩,
  ⟨.mattens, [.scal .s, .obj (.viewDense .mat) .s true, .obj (.viewTDense .ten) .s true, .scal .s, .obj .tdense .s false], .mattens_dense, .s, [.par 0, .par 1, .par 2, .par 3, .par 4, .ff, .ff]⟩,
  ⟨.mattens, [.obj (.viewDense .mat) .s true, .obj (.viewTDense .ten) .s true, .obj (.viewTDense .vec) .s false], .mattens_dense, .s, [.one, .par 0, .par 1, .zero, .par 2, .ff, .ff]⟩,
  ⟨.mattens, [.scal .s, .obj (.viewDense .mat) .s true, .obj (.viewTDense .ten) .s true, .scal .s, .obj (.viewTDense .vec) .s false], .mattens_dense, .s, [.par 0, .par 1, .par 2, .par 3, .par 4, .ff, .ff]⟩,
  ⟨.mattens, [.obj (.viewDense .mat) .s true, .obj (.viewTDense .ten) .s true, .obj (.viewTDense .mat) .s false], .mattens_dense, .s, [.one, .par 0, .par 1, .zero, .par 2, .ff, .ff]⟩,
  ⟨.mattens, [.scal .s, .obj (.viewDense .mat) .s true, .obj (.viewTDense .ten) .s true, .scal .s, .obj (.viewTDense .mat) .s false], .mattens_dense, .s, [.par 0, .par 1, .par 2, .par 3, .par 4, .ff, .ff]⟩,
  ⟨.mattens, [.obj (.viewDense .mat) .s true, .obj (.viewTDense .ten) .s true, .obj (.viewTDense .ten) .s false], .mattens_dense, .s, [.one, .par 0, .par 1, .zero, .par 2, .ff, .ff]⟩,
  ⟨.mattens, [.scal .s, .obj (.viewDense .mat) .s true, .obj (.viewTDense .ten) .s true, .scal .s, .obj (.viewTDense .ten) .s false], .mattens_dense, .s, [.par 0, .par 1, .par 2, .par 3, .par 4, .ff, .ff]⟩,
  ⟨.mattens, [.obj (.viewDense .ten) .s true, .obj .tdense .s true, .obj .tdense .s false], .mattens_dense, .s, [.one, .par 0, .par 1, .zero, .par 2, .ff, .ff]⟩,
  ⟨.mattens, [.scal .s, .obj (.viewDense .ten) .s true, .obj .tdense .s true, .scal .s, .obj .tdense .s false], .mattens_dense, .s, [.par 0, .par 1, .par 2, .par 3, .par 4, .ff, .ff]⟩,
  ⟨.mattens, [.obj (.viewDense .ten) .s true, .obj .tdense .s true, .obj (.viewTDense .vec) .s false], .mattens_dense, .s, [.one, .par 0, .par 1, .zero, .par 2, .ff, .ff]⟩,
  ⟨.mattens, [.scal .s, .obj (.viewDense .ten) .s true, .obj .tdense .s true, .scal .s, .obj (.viewTDense .vec) .s false], .mattens_dense, .s, [.par 0, .par 1, .par 2, .par 3, .par 4, .ff, .ff]⟩,
  ⟨.mattens, [.obj (.viewDense .ten) .s true, .obj .tdense .s true, .obj (.viewTDense .mat) .s false], .mattens_dense, .s, [.one, .par 0, .par 1, .zero, .par 2, .ff, .ff]⟩,
  ⟨.mattens, [.scal .s, .obj (.viewDense .ten) .s true, .obj .tdense .s true, .scal .s, .obj (.viewTDense .mat) .s false], .mattens_dense, .s, [.par 0, .par 1, .par 2, .par 3, .par 4, .ff, .ff]⟩,
  ⟨.mattens, [.obj (.viewDense .ten) .s true, .obj .tdense .s true, .obj (.viewTDense .ten) .s false], .mattens_dense, .s, [.one, .par 0, .par 1, .zero, .par 2, .ff, .ff]⟩,
  ⟨.mattens, [.scal .s, .obj (.viewDense .ten) .s true, .obj .tdense .s true, .scal .s, .obj (.viewTDense .ten) .s false], .mattens_dense, .s, [.par 0, .par 1, .par 2, .par 3, .par 4, .ff, .ff]⟩,
  ⟨.mattens, [.obj (.viewDense .ten) .s true, .obj (.viewTDense .vec) .s true, .obj .tdense .s false], .mattens_dense, .s, [.one, .par 0, .par 1, .zero, .par 2, .ff, .ff]⟩,
  ⟨.mattens, [.scal .s, .obj (.viewDense .ten) .s true, .obj (.viewTDense .vec) .s true, .scal .s, .obj .tdense .s false], .mattens_dense, .s, [.par 0, .par 1, .par 2, .par 3, .par 4, .ff, .ff]⟩,
  ⟨.mattens, [.obj (.viewDense .ten) .s true, .obj (.viewTDense .vec) .s true, .obj (.viewTDense .vec) .s false], .mattens_dense, .s, [.one, .par 0, .par 1, .zero, .par 2, .ff, .ff]⟩,
  ⟨.mattens, [.scal .s, .obj (.viewDense .ten) .s true, .obj (.viewTDense .vec) .s true, .scal .s, .obj (.viewTDense .vec) .s false], .mattens_dense, .s, [.par 0, .par 1, .par 2, .par 3, .par 4, .ff, .ff]⟩,
  ⟨.mattens, [.obj (.viewDense .ten) .s true, .obj (.viewTDense .vec) .s true, .obj (.viewTDense .mat) .s false], .mattens_dense, .s, [.one, .par 0, .par 1, .zero, .par 2, .ff, .ff]⟩,
  ⟨.mattens, [.scal .s, .obj (.viewDense .ten) .s true, .obj (.viewTDense .vec) .s true, .scal .s, .obj (.viewTDense .mat) .s false], .mattens_dense, .s, [.par 0, .par 1, .par 2, .par 3, .par 4, .ff, .ff]⟩,
  ⟨.mattens, [.obj (.viewDense .ten) .s true, .obj (.viewTDense .vec) .s true, .obj (.viewTDense .ten) .s false], .mattens_dense, .s, [.one, .par 0, .par 1, .zero, .par 2, .ff, .ff]⟩,
  ⟨.mattens, [.scal .s, .obj (.viewDense .ten) .s true, .obj (.viewTDense .vec) .s true, .scal .s, .obj (.viewTDense .ten) .s false], .mattens_dense, .s, [.par 0, .par 1, .par 2, .par 3, .par 4, .ff, .ff]⟩]

/-- src/blas/tensor/mattens/mattens_blas.cpp:1285-1703 -/
def tMattens_3 : List Overload := [
  ⟨.mattens, [.obj (.viewDense .ten) .s true, .obj (.viewTDense .mat) .s true, .obj .tdense .s false], .mattens_dense, .s, [.one, .par 0, .par 1, .zero, .par 2, .ff, .ff]⟩,
  ⟨.mattens, [.scal .s, .obj (.viewDense .ten) .s true, .obj (.viewTDense .mat) .s true, .scal .s, .obj .tdense .s false], .mattens_dense, .s, [.par 0, .par 1, .par 2, .par 3, .par 4, .ff, .ff]⟩,
  ⟨.mattens, [.obj (.viewDense .ten) .s true, .obj (.viewTDense .mat) .s true, .obj (.viewTDense .vec) .s false], .mattens_dense, .s, [.one, .par 0, .par 1, .zero, .par 2, .ff, .ff]⟩,
  ⟨.mattens, [.scal .s, .obj (.viewDense .ten) .s true, .obj (.viewTDense .mat) .s true, .scal .s, .obj (.viewTDense .vec) .s false], .mattens_dense, .s, [.par 0, .par 1, .par 2, .par 3, .par 4, .ff, .ff]⟩,
  ⟨.mattens, [.obj (.viewDense .ten) .s true, .obj (.viewTDense .mat) .s true, .obj (.viewTDense .mat) .s false], .mattens_dense, .s, [.one, .par 0, .par 1, .zero, .par 2, .ff, .ff]⟩,
  ⟨.mattens, [.scal .s, .obj (.viewDense .ten) .s true, .obj (.viewTDense .mat) .s true, .scal .s, .obj (.viewTDense .mat) .s false], .mattens_dense, .s, [.par 0, .par 1, .par 2, .par 3, .par 4, .ff, .ff]⟩,
  ⟨.mattens, [.obj (.viewDense .ten) .s true, .obj (.viewTDense .mat) .s true, .obj (.viewTDense .ten) .s false], .mattens_dense, .s, [.one, .par 0, .par 1, .zero, .par 2, .ff, .ff]⟩,
  ⟨.mattens, [.scal .s, .obj (.viewDense .ten) .s true, .obj (.viewTDense .mat) .s true, .scal .s, .obj (.viewTDense .ten) .s false], .mattens_dense, .s, [.par 0, .par 1, .par 2, .par 3, .par 4, .ff, .ff]⟩,
  ⟨.mattens, [.obj (.viewDense .ten) .s true, .obj (.viewTDense .ten) .s true, .obj .tdense .s false], .mattens_dense, .s, [.one, .par 0, .par 1, .zero, .par 2, .ff, .ff]⟩,
  ⟨.mattens, [.scal .s, .obj (.viewDense .ten) .s true, .obj (.viewTDense .ten) .s true, .scal .s, .obj .tdense .s false], .mattens_dense, .s, [.par 0, .par 1, .par 2, .par 3, .par 4, .ff, .ff]⟩,
  ⟨.mattens, [.obj (.viewDense .ten) .s true, .obj (.viewTDense .ten) .s true, .obj (.viewTDense .vec) .s false], .mattens_dense, .s, [.one, .par 0, .par 1, .zero, .par 2, .ff, .ff]⟩,
  ⟨.mattens, [.scal .s, .obj (.viewDense .ten) .s true, .obj (.viewTDense .ten) .s true, .scal .s, .obj (.viewTDense .vec) .s false], .mattens_dense, .s, [.par 0, .par 1, .par 2, .par 3, .par 4, .ff, .ff]⟩,
  ⟨.mattens, [.obj (.viewDense .ten) .s true, .obj (.viewTDense .ten) .s true, .obj (.viewTDense .mat) .s false], .mattens_dense, .s, [.one, .par 0, .par 1, .zero, .par 2, .ff, .ff]⟩,
  ⟨.mattens, [.scal .s, .obj (.viewDense .ten) .s true, .obj (.viewTDense .ten) .s true, .scal .s, .obj (.viewTDense .mat) .s false], .mattens_dense, .s, [.par 0, .par 1, .par 2, .par 3, .par 4, .ff, .ff]⟩,
  ⟨.mattens, [.obj (.viewDense .ten) .s true, .obj (.viewTDense .ten) .s true, .obj (.viewTDense .ten) .s false], .mattens_dense, .s, [.one, .par 0, .par 1, .zero, .par 2, .ff, .ff]⟩,
  ⟨.mattens, [.scal .s, .obj (.viewDense .ten) .s true, .obj (.viewTDense .ten) .s true, .scal .s, .obj (.viewTDense .ten) .s false], .mattens_dense, .s, [.par 0, .par 1, .par 2, .par 3, .par 4, .ff, .ff]⟩,
  ⟨.mattens, [.obj .crs .d true, .obj .tdense .d true, .obj .tdense .d false], .mattens_crs, .d, [.one, .par 0, .par 1, .zero, .par 2]⟩,
  ⟨.mattens, [.scal .d, .obj .crs .d true, .obj .tdense .d true, .scal .d, .obj .tdense .d false], .mattens_crs, .d, [.par 0, .par 1, .par 2, .par 3, .par 4]⟩,
  ⟨.mattens, [.obj .crs .d true, .obj .tdense .d true, .obj (.viewTDense .vec) .d false], .mattens_crs, .d, [.one, .par 0, .par 1, .zero, .par 2]⟩,
  ⟨.mattens, [.scal .d, .obj .crs .d true, .obj .tdense .d true, .scal .d, .obj (.viewTDense .vec) .d false], .mattens_crs, .d, [.par 0, .par 1, .par 2, .par 3, .par 4]⟩,
  ⟨.mattens, [.obj .crs .d true, .obj .tdense .d true, .obj (.viewTDense .mat) .d false], .mattens_crs, .d, [.one, .par 0, .par 1, .zero, .par 2]⟩,
  ⟨.mattens, [.scal .d, .obj .crs .d true, .obj .tdense .d true, .scal .d, .obj (.viewTDense .mat) .d false], .mattens_crs, .d, [.par 0, .par 1, .par 2, .par 3, .par 4]⟩,
  ⟨.mattens, [.obj .crs .d true, .obj .tdense .d true, .obj (.viewTDense .ten) .d false], .mattens_crs, .d, [.one, .par 0, .par 1, .zero, .par 2]⟩,
  ⟨.mattens, [.scal .d, .obj .crs .d true, .obj .tdense .d true, .scal .d, .obj (.viewTDense .ten) .d false], .mattens_crs, .d, [.par 0, .par 1, .par 2, .par 3, .par 4]⟩,
  ⟨.mattens, [.obj .crs .d true, .obj (.viewTDense .vec) .d true, .obj .tdense .d false], .mattens_crs, .d, [.one, .par 0, .par 1, .zero, .par 2]⟩,
  ⟨.mattens, [.scal .d, .obj .crs .d true, .obj (.viewTDense .vec) .d true, .scal .d, .obj .tdense .d false], .mattens_crs, .d, [.par 0, .par 1, .par 2, .par 3, .par 4]⟩,
  ⟨.mattens, [.obj .crs .d true, .obj (.viewTDense .vec) .d true, .obj (.viewTDense .vec) .d false], .mattens_crs, .d, [.one, .par 0, .par 1, .zero, .par 2]⟩,
  ⟨.mattens, [.scal .d, .obj .crs .d true, .obj (.viewTDense .vec) .d true, .scal .d, .obj (.viewTDense .vec) .d false], .mattens_crs, .d, [.par 0, .par 1, .par 2, .par 3, .par 4]⟩,
  ⟨.mattens, [.obj .crs .d true, .obj (.viewTDense .vec) .d true, .obj (.viewTDense .mat) .d false], .mattens_crs, .d, [.one, .par 0, .par 1, .zero, .par 2]⟩,
  ⟨.mattens, [.scal .d, .obj .crs .d true, .obj (.viewTDense .vec) .d true, .scal .d, .obj (.viewTDense .mat) .d false], .mattens_crs, .d, [.par 0, .par 1, .par 2, .par 3, .par 4]⟩,
  ⟨.mattens, [.obj .crs .d true, .obj (.viewTDense .vec) .d true, .obj (.viewTDense .ten) .d false], .mattens_crs, .d, [.one, .par 0, .par 1, .zero, .par 2]⟩,
  ⟨.mattens, [.scal .d, .obj .crs .d true, .obj (.viewTDense .vec) .d true, .scal .d, .obj (.viewTDense .ten) .d false], .mattens_crs, .d, [.par 0, .par 1, .par 2, .par 3, .par 4]⟩,
  ⟨.mattens, [.obj .crs .d true, .obj (.viewTDense .mat) .d true, .obj .tdense .d false], .mattens_crs, .d, [.one, .par 0, .par 1, .zero, .par 2]⟩,
  ⟨.mattens, [.scal .d, .obj .crs .d true, .obj (.viewTDense .mat) .d true, .scal .d, .obj .tdense .d false], .mattens_crs, .d, [.par 0, .par 1, .par 2, .par 3, .par 4]⟩,
  ⟨.mattens, [.obj .crs .d true, .obj (.viewTDense .mat) .d true, .obj (.viewTDense .vec) .d false], .mattens_crs, .d, [.one, .par 0, .par 1, .zero, .par 2]⟩,
  ⟨.mattens, [.scal .d, .obj .crs .d true, .obj (.viewTDense .mat) .d true, .scal .d, .obj (.viewTDense .vec) .d false], .mattens_crs, .d, [.par 0, .par 1, .par 2, .par 3, .par 4]⟩,
  ⟨.mattens, [.obj .crs .d true, .obj (.viewTDense .mat) .d true, .obj (.viewTDense .mat) .d false], .mattens_crs, .d, [.one, .par 0, .par 1, .zero, .par 2]⟩,
  ⟨.mattens, [.scal .d, .obj .crs .d true, .obj (.viewTDense .mat) .d true, .scal .d, .obj (.viewTDense .mat) .d false], .mattens_crs, .d, [.par 0, .par 1, .par 2, .par 3, .par 4]⟩,
  ⟨.mattens, [.obj .crs .d true, .obj (.viewTDense .mat) .d true, .obj (.viewTDense .ten) .d false], .mattens_crs, .d, [.one, .par 0, .par 1, .zero, .par 2]⟩,
  ⟨.mattens, [.scal .d, .obj .crs .d true, .obj (.viewTDense .mat) .d true, .scal .d, .obj (.viewTDense .ten) .d false], .mattens_crs, .d, [.par 0, .par 1, .par 2, .par 3, .par 4]⟩,
  ⟨.mattens, [.obj .crs .d true, .obj (.viewTDense .ten) .d true, .obj .tdense .d false], .mattens_crs, .d, [.one, .par 0, .par 1, .zero, .par 2]⟩,
  ⟨.mattens, [.scal .d, .obj .crs .d true, .obj (.viewTDense .ten) .d true, .scal .d, .obj .tdense .d false], .mattens_crs, .d, [.par 0, .par 1, .par 2, .par 3, .par 4]⟩,
  ⟨.mattens, [.obj .crs .d true, .obj (.viewTDense .ten) .d true, .obj (.viewTDense .vec) .d false], .mattens_crs, .d, [.one, .par 0, .par 1, .zero, .par 2]⟩,
  ⟨.mattens, [.scal .d, .obj .crs .d true, .obj (.viewTDense .ten) .d true, .scal .d, .obj (.viewTDense .vec) .d false], .mattens_crs, .d, [.par 0, .par 1, .par 2, .par 3, .par 4]⟩,
  ⟨.mattens, [.obj .crs .d true, .obj (.viewTDense .ten) .d true, .obj (.viewTDense .mat) .d false], .mattens_crs, .d, [.one, .par 0, .par 1, .zero, .par 2]⟩,
  ⟨.mattens, [.scal .d, .obj .crs .d true, .obj (.viewTDense .ten) .d true, .scal .d, .obj (.viewTDense .mat) .d false], .mattens_crs, .d, [.par 0, .par 1, .par 2, .par 3, .par 4]⟩,
  ⟨.mattens, [.obj .crs .d true, .obj (.viewTDense .ten) .d true, .obj (.viewTDense .ten) .d false], .mattens_crs, .d, [.one, .par 0, .par 1, .zero, .par 2]⟩,
  ⟨.mattens, [.scal .d, .obj .crs .d true, .obj (.viewTDense .ten) .d true, .scal .d, .obj (.viewTDense .ten) .d false], .mattens_crs, .d, [.par 0, .par 1, .par 2, .par 3, .par 4]⟩,
  ⟨.mattens, [.obj .crs .s true, .obj .tdense .s true, .obj .tdense .s false], .mattens_crs, .s, [.one, .par 0, .par 1, .zero, .par 2]⟩,
  ⟨.mattens, [.scal .s, .obj .crs .s true, .obj .tdense .s true, .scal .s, .obj .tdense .s false], .mattens_crs, .s, [.par 0, .par 1, .par 2, .par 3, .par 4]⟩,
  ⟨.mattens, [.obj .crs .s true, .obj .tdense .s true, .obj (.viewTDense .vec) .s false], .mattens_crs, .s, [.one, .par 0, .par 1, .zero, .par 2]⟩,
  ⟨.mattens, [.scal .s, .obj .crs .s true, .obj .tdense .s true, .scal .s, .obj (.viewTDense .vec) .s false], .mattens_crs, .s, [.par 0, .par 1, .par 2, .par 3, .par 4]⟩,
  ⟨.mattens, [.obj .crs .s true, .obj .tdense .s true, .obj (.viewTDense .mat) .s false], .mattens_crs, .s, [.one, .par 0, .par 1, .zero, .par 2]⟩,
  ⟨.mattens, [.scal .s, .obj .crs .s true, .obj .tdense .s true, .scal .s, .obj (.viewTDense .mat) .s false], .mattens_crs, .s, [.par 0, .par 1, .par 2, .par 3, .par 4]⟩,
  ⟨.mattens, [.obj .crs .s true, .obj .tdense .s true, .obj (.viewTDense .ten) .s false], .mattens_crs, .s, [.one, .par 0, .par 1, .zero, .par 2]⟩,
  ⟨.mattens, [.scal .s, .obj .crs .s true, .obj .tdense .s true, .scal .s, .obj (.viewTDense .ten) .s false], .mattens_crs, .s, [.par 0, .par 1, .par 2, .par 3, .par 4]⟩,
  ⟨.mattens, [.obj .crs .s true, .obj (.viewTDense .vec) .s true, .obj .tdense .s false], .mattens_crs, .s, [.one, .par 0, .par 1, .zero, .par 2]⟩,
  ⟨.mattens, [.scal .s, .obj .crs .s true, .obj (.viewTDense .vec) .s true, .scal .s, .obj .tdense .s false], .mattens_crs, .s, [.par 0, .par 1, .par 2, .par 3, .par 4]⟩,
  ⟨.mattens, [.obj .crs .s true, .obj (.viewTDense .vec) .s true, .obj (.viewTDense .vec) .s false], .mattens_crs, .s, [.one, .par 0, .par 1, .zero, .par 2]⟩,
  ⟨.mattens, [.scal .s, .obj .crs .s true, .obj (.viewTDense .vec) .s true, .scal .s, .obj (.viewTDense .vec) .s false], .mattens_crs, .s, [.par 0, .par 1, .par 2, .par 3, .par 4]⟩,
  ⟨.mattens, [.obj .crs .s true, .obj (.viewTDense .vec) .s true, .obj (.viewTDense .mat) .s false], .mattens_crs, .s, [.one, .par 0, .par 1, .zero, .par 2]⟩,
  ⟨.mattens, [.scal .s, .obj .crs .s true, .obj (.viewTDense .vec) .s true, .scal .s, .obj (.viewTDense .mat) .s false], .mattens_crs, .s, [.par 0, .par 1, .par 2, .par 3, .par 4]⟩,
  ⟨.mattens, [.obj .crs .s true, .obj (.viewTDense .vec) .s true, .obj (.viewTDense .ten) .s false], .mattens_crs, .s, [.one, .par 0, .par 1, .zero, .par 2]⟩,
  ⟨.mattens, [.scal .s, .obj .crs .s true, .obj (.viewTDense .vec) .s true, .scal .s, .obj (.viewTDense .ten) .s false], .mattens_crs, .s, [.par 0, .par 1, .par 2, .par 3, .par 4]⟩,
  ⟨.mattens, [.obj .crs .s true, .obj (.viewTDense .mat) .s true, .obj .tdense .s false], .mattens_crs, .s, [.one, .par 0, .par 1, .zero, .par 2]⟩,
  ⟨.mattens, [.scal .s, .obj .crs .s true, .obj (.viewTDense .mat) .s true, .scal .s, .obj .tdense .s false], .mattens_crs, .s, [.par 0, .par 1, .par 2, .par 3, .par 4]⟩,
  ⟨.mattens, [.obj .crs .s true, .obj (.viewTDense .mat) .s true, .obj (.viewTDense .vec) .s false], .mattens_crs, .s, [.one, .par 0, .par 1, .zero, .par 2]⟩,
  ⟨.mattens, [.scal .s, .obj .crs .s true, .obj (.viewTDense .mat) .s true, .scal .s, .obj (.viewTDense .vec) .s false], .mattens_crs, .s, [.par 0, .par 1, .par 2, .par 3, .par 4]⟩,
  ⟨.mattens, [.obj .crs .s true, .obj (.viewTDense .mat) .s true, .obj (.viewTDense .mat) .s false], .mattens_crs, .s, [.one, .par 0, .par 1, .zero, .par 2]⟩,
  ⟨.mattens, [.scal .s, .obj .crs .s true, .obj (.viewTDense .mat) .s true, .scal .s, .obj (.viewTDense .mat) .s false], .mattens_crs, .s, [.par 0, .par 1, .par 2, .par 3, .par 4]⟩,
  ⟨.mattens, [.obj .crs .s true, .obj (.viewTDense .mat) .s true, .obj (.viewTDense .ten) .s false], .mattens_crs, .s, [.one, .par 0, .par 1, .zero, .par 2]⟩,
  ⟨.mattens, [.scal .s, .obj .crs .s true, .obj (.viewTDense .mat) .s true, .scal .s, .obj (.viewTDense .ten) .s false], .mattens_crs, .s, [.par 0, .par 1, .par 2, .par 3, .par 4]⟩,
  ⟨.mattens, [.obj .crs .s true, .obj (.viewTDense .ten) .s true, .obj .tdense .s false], .mattens_crs, .s, [.one, .par 0, .par 1, .zero, .par 2]⟩,
  ⟨.mattens, [.scal .s, .obj .crs .s true, .obj (.viewTDense .ten) .s true, .scal .s, .obj .tdense .s false], .mattens_crs, .s, [.par 0, .par 1, .par 2, .par 3, .par 4]⟩,
  ⟨.mattens, [.obj .crs .s true, .obj (.viewTDense .ten) .s true, .obj (.viewTDense .vec) .s false], .mattens_crs, .s, [.one, .par 0, .par 1, .zero, .par 2]⟩,
  ⟨.mattens, [.scal .s, .obj .crs .s true, .obj (.viewTDense .ten) .s true, .scal .s, .obj (.viewTDense .vec) .s false], .mattens_crs, .s, [.par 0, .par 1, .par 2, .par 3, .par 4]⟩,
  ⟨.mattens, [.obj .crs .s true, .obj (.viewTDense .ten) .s true, .obj (.viewTDense .mat) .s false], .mattens_crs, .s, [.one, .par 0, .par 1, .zero, .par 2]⟩,
  ⟨.mattens, [.scal .s, .obj .crs .s true, .obj (.viewTDense .ten) .s true, .scal .s, .obj (.viewTDense .mat) .s false], .mattens_crs, .s, [.par 0, .par 1, .par 2, .par 3, .par 4]⟩,
  ⟨.mattens, [.obj .crs .s true, .obj (.viewTDense .ten) .s true, .obj (.viewTDense .ten) .s false], .mattens_crs, .s, [.one, .par 0, .par 1, .zero, .par 2]⟩,
  ⟨.mattens, [.scal .s, .obj .crs .s true, .obj (.viewTDense .ten) .s true, .scal .s, .obj (.viewTDense .ten) .s false], .mattens_crs, .s, [.par 0, .par 1, .par 2, .par 3, .par 4]⟩]

/-- the product overloads of src/blas/tensor/mattens/mattens_blas.cpp (320 of them; 0 with a LinearOperator left out) -/
def tMattens : List (List Overload) :=
  [tMattens_0, tMattens_1, tMattens_2, tMattens_3]

/-- src/blas/tensor/tensmul/tensmul_blas.cpp:9-446 -/
def tTensmul_0 : List Overload := [
  ⟨.tensmul, [.obj .tdense .d true, .obj .tdense .d true, .obj .tdense .d false], .tensmul_dense, .d, [.one, .par 0, .par 1, .zero, .par 2, .ff, .ff]⟩,
  ⟨.tensmul, [.scal .d, .obj .tdense .d true, .obj .tdense .d true, .scal .d, .obj .tdense .d false], .tensmul_dense, .d, [.par 0, .par 1, .par 2, .par 3, .par 4, .ff, .ff]⟩,
  ⟨.tensmul, [.obj .tdense .d true, .obj .tdense .d true, .obj (.viewTDense .vec) .d false], .tensmul_dense, .d, [.one, .par 0, .par 1, .zero, .par 2, .ff, .ff]⟩,
  ⟨.tensmul, [.scal .d, .obj .tdense .d true, .obj .tdense .d true, .scal .d, .obj (.viewTDense .vec) .d false], .tensmul_dense, .d, [.par 0, .par 1, .par 2, .par 3, .par 4, .ff, .ff]⟩,
  ⟨.tensmul, [.obj .tdense .d true, .obj .tdense .d true, .obj (.viewTDense .mat) .d false], .tensmul_dense, .d, [.one, .par 0, .par 1, .zero, .par 2, .ff, .ff]⟩,
  ⟨.tensmul, [.scal .d, .obj .tdense .d true, .obj .tdense .d true, .scal .d, .obj (.viewTDense .mat) .d false], .tensmul_dense, .d, [.par 0, .par 1, .par 2, .par 3, .par 4, .ff, .ff]⟩,
  ⟨.tensmul, [.obj .tdense .d true, .obj .tdense .d true, .obj (.viewTDense .ten) .d false], .tensmul_dense, .d, [.one, .par 0, .par 1, .zero, .par 2, .ff, .ff]⟩,
  ⟨.tensmul, [.scal .d, .obj .tdense .d true, .obj .tdense .d true, .scal .d, .obj (.viewTDense .ten) .d false], .tensmul_dense, .d, [.par 0, .par 1, .par 2, .par 3, .par 4, .ff, .ff]⟩,
  ⟨.tensmul, [.obj .tdense .d true, .obj (.viewTDense .vec) .d true, .obj .tdense .d false], .tensmul_dense, .d, [.one, .par 0, .par 1, .zero, .par 2, .ff, .ff]⟩,
  ⟨.tensmul, [.scal .d, .obj .tdense .d true, .obj (.viewTDense .vec) .d true, .scal .d, .obj .tdense .d false], .tensmul_dense, .d, [.par 0, .par 1, .par 2, .par 3, .par 4, .ff, .ff]⟩,
  ⟨.tensmul, [.obj .tdense .d true, .obj (.viewTDense .vec) .d true, .obj (.viewTDense .vec) .d false], .tensmul_dense, .d, [.one, .par 0, .par 1, .zero, .par 2, .ff, .ff]⟩,
  ⟨.tensmul, [.scal .d, .obj .tdense .d true, .obj (.viewTDense .vec) .d true, .scal .d, .obj (.viewTDense .vec) .d false], .tensmul_dense, .d, [.par 0, .par 1, .par 2, .par 3, .par 4, .ff, .ff]⟩,
  ⟨.tensmul, [.obj .tdense .d true, .obj (.viewTDense .vec) .d true, .obj (.viewTDense .mat) .d false], .tensmul_dense, .d, [.one, .par 0, .par 1, .zero, .par 2, .ff, .ff]⟩,
  ⟨.tensmul, [.scal .d, .obj .tdense .d true, .obj (.viewTDense .vec) .d true, .scal .d, .obj (.viewTDense .mat) .d false], .tensmul_dense, .d, [.par 0, .par 1, .par 2, .par 3, .par 4, .ff, .ff]⟩,
  ⟨.tensmul, [.obj .tdense .d true, .obj (.viewTDense .vec) .d true, .obj (.viewTDense .ten) .d false], .tensmul_dense, .d, [.one, .par 0, .par 1, .zero, .par 2, .ff, .ff]⟩,
  ⟨.tensmul, [.scal .d, .obj .tdense .d true, .obj (.viewTDense .vec) .d true, .scal .d, .obj (.viewTDense .ten) .d false], .tensmul_dense, .d, [.par 0, .par 1, .par 2, .par 3, .par 4, .ff, .ff]⟩,
  ⟨.tensmul, [.obj .tdense .d true, .obj (.viewTDense .mat) .d true, .obj .tdense .d false], .tensmul_dense, .d, [.one, .par 0, .par 1, .zero, .par 2, .ff, .ff]⟩,
  ⟨.tensmul, [.scal .d, .obj .tdense .d true, .obj (.viewTDense .mat) .d true, .scal .d, .obj .tdense .d false], .tensmul_dense, .d, [.par 0, .par 1, .par 2, .par 3, .par 4, .ff, .ff]⟩,
  ⟨.tensmul, [.obj .tdense .d true, .obj (.viewTDense .mat) .d true, .obj (.viewTDense .vec) .d false], .tensmul_dense, .d, [.one, .par 0, .par 1, .zero, .par 2, .ff, .ff]⟩,
  ⟨.tensmul, [.scal .d, .obj .tdense .d true, .obj (.viewTDense .mat) .d true, .scal .d, .obj (.viewTDense .vec) .d false], .tensmul_dense, .d, [.par 0, .par 1, .par 2, .par 3, .par 4, .ff, .ff]⟩,
  ⟨.tensmul, [.obj .tdense .d true, .obj (.viewTDense .mat) .d true, .obj (.viewTDense .mat) .d false], .tensmul_dense, .d, [.one, .par 0, .par 1, .zero, .par 2, .ff, .ff]⟩,
  ⟨.tensmul, [.scal .d, .obj .tdense .d true, .obj (.viewTDense .mat) .d true, .scal .d, .obj (.viewTDense .mat) .d false], .tensmul_dense, .d, [.par 0, .par 1, .par 2, .par 3, .par 4, .ff, .ff]⟩,
  ⟨.tensmul, [.obj .tdense .d true, .obj (.viewTDense .mat) .d true, .obj (.viewTDense .ten) .d false], .tensmul_dense, .d, [.one, .par 0, .par 1, .zero, .par 2, .ff, .ff]⟩,
  ⟨.tensmul, [.scal .d, .obj .tdense .d true, .obj (.viewTDense .mat) .d true, .scal .d, .obj (.viewTDense .ten) .d false], .tensmul_dense, .d, [.par 0, .par 1, .par 2, .par 3, .par 4, .ff, .ff]⟩,
  ⟨.tensmul, [.obj .tdense .d true, .obj (.viewTDense .ten) .d true, .obj .tdense .d false], .tensmul_dense, .d, [.one, .par 0, .par 1, .zero, .par 2, .ff, .ff]⟩,
  ⟨.tensmul, [.scal .d, .obj .tdense .d true, .obj (.viewTDense .ten) .d true, .scal .d, .obj .tdense .d false], .tensmul_dense, .d, [.par 0, .par 1, .par 2, .par 3, .par 4, .ff, .ff]⟩,
  ⟨.tensmul, [.obj .tdense .d true, .obj (.viewTDense .ten) .d true, .obj (.viewTDense .vec) .d false], .tensmul_dense, .d, [.one, .par 0, .par 1, .zero, .par 2, .ff, .ff]⟩,
  ⟨.tensmul, [.scal .d, .obj .tdense .d true, .obj (.viewTDense .ten) .d true, .scal .d, .obj (.viewTDense .vec) .d false], .tensmul_dense, .d, [.par 0, .par 1, .par 2, .par 3, .par 4, .ff, .ff]⟩,
  ⟨.tensmul, [.obj .tdense .d true, .obj (.viewTDense .ten) .d true, .obj (.viewTDense .mat) .d false], .tensmul_dense, .d, [.one, .par 0, .par 1, .zero, .par 2, .ff, .ff]⟩,
  ⟨.tensmul, [.scal .d, .obj .tdense .d true, .obj (.viewTDense .ten) .d true, .scal .d, .obj (.viewTDense .mat) .d false], .tensmul_dense, .d, [.par 0, .par 1, .par 2, .par 3, .par 4, .ff, .ff]⟩,
  ⟨.tensmul, [.obj .tdense .d true, .obj (.viewTDense .ten) .d true, .obj (.viewTDense .ten) .d false], .tensmul_dense, .d, [.one, .par 0, .par 1, .zero, .par 2, .ff, .ff]⟩,
  ⟨.tensmul, [.scal .d, .obj .tdense .d true, .obj (.viewTDense .ten) .d true, .scal .d, .obj (.viewTDense .ten) .d false], .tensmul_dense, .d, [.par 0, .par 1, .par 2, .par 3, .par 4, .ff, .ff]⟩,
  ⟨.tensmul, [.obj (.viewTDense .vec) .d true, .obj .tdense .d true, .obj .tdense .d false], .tensmul_dense, .d, [.one, .par 0, .par 1, .zero, .par 2, .ff, .ff]⟩,
  ⟨.tensmul, [.scal .d, .obj (.viewTDense .vec) .d true, .obj .tdense .d true, .scal .d, .obj .tdense .d false], .tensmul_dense, .d, [.par 0, .par 1, .par 2, .par 3, .par 4, .ff, .ff]⟩,
  ⟨.tensmul, [.obj (.viewTDense .vec) .d true, .obj .tdense .d true, .obj (.viewTDense .vec) .d false], .tensmul_dense, .d, [.one, .par 0, .par 1, .zero, .par 2, .ff, .ff]⟩,
  ⟨.tensmul, [.scal .d, .obj (.viewTDense .vec) .d true, .obj .tdense .d true, .scal .d, .obj (.viewTDense .vec) .d false], .tensmul_dense, .d, [.par 0, .par 1, .par 2, .par 3, .par 4, .ff, .ff]⟩,
  ⟨.tensmul, [.obj (.viewTDense .vec) .d true, .obj .tdense .d true, .obj (.viewTDense .mat) .d false], .tensmul_dense, .d, [.one, .par 0, .par 1, .zero, .par 2, .ff, .ff]⟩,
  ⟨.tensmul, [.scal .d, .obj (.viewTDense .vec) .d true, .obj .tdense .d true, .scal .d, .obj (.viewTDense .mat) .d false], .tensmul_dense, .d, [.par 0, .par 1, .par 2, .par 3, .par 4, .ff, .ff]⟩,
  ⟨.tensmul, [.obj (.viewTDense .vec) .d true, .obj .tdense .d true, .obj (.viewTDense .ten) .d false], .tensmul_dense, .d, [.one, .par 0, .par 1, .zero, .par 2, .ff, .ff]⟩,
  ⟨.tensmul, [.scal .d, .obj (.viewTDense .vec) .d true, .obj .tdense .d true, .scal .d, .obj (.viewTDense .ten) .d false], .tensmul_dense, .d, [.par 0, .par 1, .par 2, .par 3, .par 4, .ff, .ff]⟩,
  ⟨.tensmul, [.obj (.viewTDense .vec) .d true, .obj (.viewTDense .vec) .d true, .obj .tdense .d false], .tensmul_dense, .d, [.one, .par 0, .par 1, .zero, .par 2, .ff, .ff]⟩,
  ⟨.tensmul, [.scal .d, .obj (.viewTDense .vec) .d true, .obj (.viewTDense .vec) .d true, .scal .d, .obj .tdense .d false], .tensmul_dense, .d, [.par 0, .par 1, .par 2, .par 3, .par 4, .ff, .ff]⟩,
  ⟨.tensmul, [.obj (.viewTDense .vec) .d true, .obj (.viewTDense .vec) .d true, .obj (.viewTDense .vec) .d false], .tensmul_dense, .d, [.one, .par 0, .par 1, .zero, .par 2, .ff, .ff]⟩,
  ⟨.tensmul, [.scal .d, .obj (.viewTDense .vec) .d true, .obj (.viewTDense .vec) .d true, .scal .d, .obj (.viewTDense .vec) .d false], .tensmul_dense, .d, [.par 0, .par 1, .par 2, .par 3, .par 4, .ff, .ff]⟩,
  ⟨.tensmul, [.obj (.viewTDense .vec) .d true, .obj (.viewTDense .vec) .d true, .obj (.viewTDense .mat) .d false], .tensmul_dense, .d, [.one, .par 0, .par 1, .zero, .par 2, .ff, .ff]⟩,
  ⟨.tensmul, [.scal .d, .obj (.viewTDense .vec) .d true, .obj (.viewTDense .vec) .d true, .scal .d, .obj (.viewTDense .mat) .d false], .tensmul_dense, .d, [.par 0, .par 1, .par 2, .par 3, .par 4, .ff, .ff]⟩,
  ⟨.tensmul, [.obj (.viewTDense .vec) .d true, .obj (.viewTDense .vec) .d true, .obj (.viewTDense .ten) .d false], .tensmul_dense, .d, [.one, .par 0, .par 1, .zero, .par 2, .ff, .ff]⟩,
  ⟨.tensmul, [.scal .d, .obj (.viewTDense .vec) .d true, .obj (.viewTDense .vec) .d true, .scal .d, .obj (.viewTDense .ten) .d false], .tensmul_dense, .d, [.par 0, .par 1, .par 2, .par 3, .par 4, .ff, .ff]⟩,
  ⟨.tensmul, [.obj (.viewTDense .vec) .d true, .obj (.viewTDense .mat) .d true, .obj .tdense .d false], .tensmul_dense, .d, [.one, .par 0, .par 1, .zero, .par 2, .ff, .ff]⟩,
  ⟨.tensmul, [.scal .d, .obj (.viewTDense .vec) .d true, .obj (.viewTDense .mat) .d true, .scal .d, .obj .tdense .d false], .tensmul_dense, .d, [.par 0, .par 1, .par 2, .par 3, .par 4, .ff, .ff]⟩,
  ⟨.tensmul, [.obj (.viewTDense .vec) .d true, .obj (.viewTDense .mat) .d true, .obj (.viewTDense .vec) .d false], .tensmul_dense, .d, [.one, .par 0, .par 1, .zero, .par 2, .ff, .ff]⟩,
  ⟨.tensmul, [.scal .d, .obj (.viewTDense .vec) .d true, .obj (.viewTDense .mat) .d true, .scal .d, .obj (.viewTDense .vec) .d false], .tensmul_dense, .d, [.par 0, .par 1, .par 2, .par 3, .par 4, .ff, .ff]⟩,
  ⟨.tensmul, [.obj (.viewTDense .vec) .d true, .obj (.viewTDense .mat) .d true, .obj (.viewTDense .mat) .d false], .tensmul_dense, .d, [.one, .par 0, .par 1, .zero, .par 2, .ff, .ff]⟩,
  ⟨.tensmul, [.scal .d, .obj (.viewTDense .vec) .d true, .obj (.viewTDense .mat) .d true, .scal .d, .obj (.viewTDense .mat) .d false], .tensmul_dense, .d, [.par 0, .par 1, .par 2, .par 3, .par 4, .ff, .ff]⟩,
  ⟨.tensmul, [.obj (.viewTDense .vec) .d true, .obj (.viewTDense .mat) .d true, .obj (.viewTDense .ten) .d false], .tensmul_dense, .d, [.one, .par 0, .par 1, .zero, .par 2, .ff, .ff]⟩,
  ⟨.tensmul, [.scal .d, .obj (.viewTDense .vec) .d true, .obj (.viewTDense .mat) .d true, .scal .d, .obj (.viewTDense .ten) .d false], .tensmul_dense, .d, [.par 0, .par 1, .par 2, .par 3, .par 4, .ff, .ff]⟩,
  ⟨.tensmul, [.obj (.viewTDense .vec) .d true, .obj (.viewTDense .ten) .d true, .obj .tdense .d false], .tensmul_dense, .d, [.one, .par 0, .par 1, .zero, .par 2, .ff, .ff]⟩,
  ⟨.tensmul, [.scal .d, .obj (.viewTDense .vec) .d true, .obj (.viewTDense .ten) .d true, .scal .d, .obj .tdense .d false], .tensmul_dense, .d, [.par 0, .par 1, .par 2, .par 3, .par 4, .ff, .ff]⟩,
  ⟨.tensmul, [.obj (.viewTDense .vec) .d true, .obj (.viewTDense .ten) .d true, .obj (.viewTDense .vec) .d false], .tensmul_dense, .d, [.one, .par 0, .par 1, .zero, .par 2, .ff, .ff]⟩,
  ⟨.tensmul, [.scal .d, .obj (.viewTDense .vec) .d true, .obj (.viewTDense .ten) .d true, .scal .d, .obj (.viewTDense .vec) .d false], .tensmul_dense, .d, [.par 0, .par 1, .par 2, .par 3, .par 4, .ff, .ff]⟩,
  ⟨.tensmul, [.obj (.viewTDense .vec) .d true, .obj (.viewTDense .ten) .d true, .obj (.viewTDense .mat) .d false], .tensmul_dense, .d, [.one, .par 0, .par 1, .zero, .par 2, .ff, .ff]⟩,
  ⟨.tensmul, [.scal .d, .obj (.viewTDense .vec) .d true, .obj (.viewTDense .ten) .d true, .scal .d, .obj (.viewTDense .mat) .d false], .tensmul_dense, .d, [.par 0, .par 1, .par 2, .par 3, .par 4, .ff, .ff]⟩,
  ⟨.tensmul, [.obj (.viewTDense .vec) .d true, .obj (.viewTDense .ten) .d true, .obj (.viewTDense .ten) .d false], .tensmul_dense, .d, [.one, .par 0, .par 1, .zero, .par 2, .ff, .ff]⟩,
  ⟨.tensmul, [.scal .d, .obj (.viewTDense .vec) .d true, .obj (.viewTDense .ten) .d true, .scal .d, .obj (.viewTDense .ten) .d false], .tensmul_dense, .d, [.par 0, .par 1, .par 2, .par 3, .par 4, .ff, .ff]⟩,
  ⟨.tensmul, [.obj (.viewTDense .mat) .d true, .obj .tdense .d true, .obj .tdense .d false], .tensmul_dense, .d, [.one, .par 0, .par 1, .zero, .par 2, .ff, .ff]⟩,
  ⟨.tensmul, [.scal .d, .obj (.viewTDense .mat) .d true, .obj .tdense .d true, .scal .d, .obj .tdense .d false], .tensmul_dense, .d, [.par 0, .par 1, .par 2, .par 3, .par 4, .ff, .ff]⟩,
  ⟨.tensmul, [.obj (.viewTDense .mat) .d true, .obj .tdense .d true, .obj (.viewTDense .vec) .d false], .tensmul_dense, .d, [.one, .par 0, .par 1, .zero, .par 2, .ff, .ff]⟩,
  ⟨.tensmul, [.scal .d, .obj (.viewTDense .mat) .d true, .obj .tdense .d true, .scal .d, .obj (.viewTDense .vec) .d false], .tensmul_dense, .d, [.par 0, .par 1, .par 2, .par 3, .par 4, .ff, .ff]⟩,
  ⟨.tensmul, [.obj (.viewTDense .mat) .d true, .obj .tdense .d true, .obj (.viewTDense .mat) .d false], .tensmul_dense, .d, [.one, .par 0, .par 1, .zero, .par 2, .ff, .ff]⟩,
  ⟨.tensmul, [.scal .d, .obj (.viewTDense .mat) .d true, .obj .tdense .d true, .scal .d, .obj (.viewTDense .mat) .d false], .tensmul_dense, .d, [.par 0, .par 1, .par 2, .par 3, .par 4, .ff, .ff]⟩,
  ⟨.tensmul, [.obj (.viewTDense .mat) .d true, .obj .tdense .d true, .obj (.viewTDense .ten) .d false], .tensmul_dense, .d, [.one, .par 0, .par 1, .zero, .par 2, .ff, .ff]⟩,
  ⟨.tensmul, [.scal .d, .obj (.viewTDense .mat) .d true, .obj .tdense .d true, .scal .d, .obj (.viewTDense .ten) .d false], .tensmul_dense, .d, [.par 0, .par 1, .par 2, .par 3, .par 4, .ff, .ff]⟩,
  ⟨.tensmul, [.obj (.viewTDense .mat) .d true, .obj (.viewTDense .vec) .d true, .obj .tdense .d false], .tensmul_dense, .d, [.one, .par 0, .par 1, .zero, .par 2, .ff, .ff]⟩,
  ⟨.tensmul, [.scal .d, .obj (.viewTDense .mat) .d true, .obj (.viewTDense .vec) .d true, .scal .d, .obj .tdense .d false], .tensmul_dense, .d, [.par 0, .par 1, .par 2, .par 3, .par 4, .ff, .ff]⟩,
  ⟨.tensmul, [.obj (.viewTDense .mat) .d true, .obj (.viewTDense .vec) .d true, .obj (.viewTDense .vec) .d false], .tensmul_dense, .d, [.one, .par 0, .par 1, .zero, .par 2, .ff, .ff]⟩,
  ⟨.tensmul, [.scal .d, .obj (.viewTDense .mat) .d true, .obj (.viewTDense .vec) .d true, .scal .d, .obj (.viewTDense .vec) .d false], .tensmul_dense, .d, [.par 0, .par 1, .par 2, .par 3, .par 4, .ff, .ff]⟩,
  ⟨.tensmul, [.obj (.viewTDense .mat) .d true, .obj (.viewTDense .vec) .d true, .obj (.viewTDense .mat) .d false], .tensmul_dense, .d, [.one, .par 0, .par 1, .zero, .par 2, .ff, .ff]⟩,
  ⟨.tensmul, [.scal .d, .obj (.viewTDense .mat) .d true, .obj (.viewTDense .vec) .d true, .scal .d, .obj (.viewTDense .mat) .d false], .tensmul_dense, .d, [.par 0, .par 1, .par 2, .par 3, .par 4, .ff, .ff]⟩,
  ⟨.tensmul, [.obj (.viewTDense .mat) .d true, .obj (.viewTDense .vec) .d true, .obj (.viewTDense .ten) .d false], .tensmul_dense, .d, [.one, .par 0, .par 1, .zero, .par 2, .ff, .ff]⟩,
  ⟨.tensmul, [.scal .d, .obj (.viewTDense .mat) .d true, .obj (.viewTDense .vec) .d true, .scal .d, .obj (.viewTDense .ten) .d false], .tensmul_dense, .d, [.par 0, .par 1, .par 2, .par 3, .par 4, .ff, .ff]⟩]

/-- src/blas/tensor/tensmul/tensmul_blas.cpp:447-884 -/
def tTensmul_1 : List Overload := [
  ⟨.tensmul, [.obj (.viewTDense .mat) .d true, .obj (.viewTDense .mat) .d true, .obj .tdense .d false], .tensmul_dense, .d, [.one, .par 0, .par 1, .zero, .par 2, .ff, .ff]⟩,
  ⟨.tensmul, [.scal .d, .obj (.viewTDense .mat) .d true, .obj (.viewTDense .mat) .d true, .scal .d, .obj .tdense .d false], .tensmul_dense, .d, [.par 0, .par 1, .par 2, .par 3, .par 4, .ff, .ff]⟩,
  ⟨.tensmul, [.obj (.viewTDense .mat) .d true, .obj (.viewTDense .mat) .d true, .obj (.viewTDense .vec) .d false], .tensmul_dense, .d, [.one, .par 0, .par 1, .zero, .par 2, .ff, .ff]⟩,
  ⟨.tensmul, [.scal .d, .obj (.viewTDense .mat) .d true, .obj (.viewTDense .mat) .d true, .scal .d, .obj (.viewTDense .vec) .d false], .tensmul_dense, .d, [.par 0, .par 1, .par 2, .par 3, .par 4, .ff, .ff]⟩,
  ⟨.tensmul, [.obj (.viewTDense .mat) .d true, .obj (.viewTDense .mat) .d true, .obj (.viewTDense .mat) .d false], .tensmul_dense, .d, [.one, .par 0, .par 1, .zero, .par 2, .ff, .ff]⟩,
  ⟨.tensmul, [.scal .d, .obj (.viewTDense .mat) .d true, .obj (.viewTDense .mat) .d true, .scal .d, .obj (.viewTDense .mat) .d false], .tensmul_dense, .d, [.par 0, .par 1, .par 2, .par 3, .par 4, .ff, .ff]⟩,
  ⟨.tensmul, [.obj (.viewTDense .mat) .d true, .obj (.viewTDense .mat) .d true, .obj (.viewTDense .ten) .d false], .tensmul_dense, .d, [.one, .par 0, .par 1, .zero, .par 2, .ff, .ff]⟩,
  ⟨.tensmul, [.scal .d, .obj (.viewTDense .mat) .d true, .obj (.viewTDense .mat) .d true, .scal .d, .obj (.viewTDense .ten) .d false], .tensmul_dense, .d, [.par 0, .par 1, .par 2, .par 3, .par 4, .ff, .ff]⟩,
  ⟨.tensmul, [.obj (.viewTDense .mat) .d true, .obj (.viewTDense .ten) .d true, .obj .tdense .d false], .tensmul_dense, .d, [.one, .par 0, .par 1, .zero, .par 2, .ff, .ff]⟩,
  ⟨.tensmul, [.scal .d, .obj (.viewTDense .mat) .d true, .obj (.viewTDense .ten) .d true, .scal .d, .obj .tdense .d false], .tensmul_dense, .d, [.par 0, .par 1, .par 2, .par 3, .par 4, .ff, .ff]⟩,
  ⟨.tensmul, [.obj (.viewTDense .mat) .d true, .obj (.viewTDense .ten) .d true, .obj (.viewTDense .vec) .d false], .tensmul_dense, .d, [.one, .par 0, .par 1, .zero, .par 2, .ff, .ff]⟩,
  ⟨.tensmul, [.scal .d, .obj (.viewTDense .mat) .d true, .obj (.viewTDense .ten) .d true, .scal .d, .obj (.viewTDense .vec) .d false], .tensmul_dense, .d, [.par 0, .par 1, .par 2, .par 3, .par 4, .ff, .ff]⟩,
  ⟨.tensmul, [.obj (.viewTDense .mat) .d true, .obj (.viewTDense .ten) .d true, .obj (.viewTDense .mat) .d false], .tensmul_dense, .d, [.one, .par 0, .par 1, .zero, .par 2, .ff, .ff]⟩,
  ⟨.tensmul, [.scal .d, .obj (.viewTDense .mat) .d true, .obj (.viewTDense .ten) .d true, .scal .d, .obj (.viewTDense .mat) .d false], .tensmul_dense, .d, [.par 0, .par 1, .par 2, .par 3, .par 4, .ff, .ff]⟩,
  ⟨.tensmul, [.obj (.viewTDense .mat) .d true, .obj (.viewTDense .ten) .d true, .obj (.viewTDense .ten) .d false], .tensmul_dense, .d, [.one, .par 0, .par 1, .zero, .par 2, .ff, .ff]⟩,
  ⟨.tensmul, [.scal .d, .obj (.viewTDense .mat) .d true, .obj (.viewTDense .ten) .d true, .scal .d, .obj (.viewTDense .ten) .d false], .tensmul_dense, .d, [.par 0, .par 1, .par 2, .par 3, .par 4, .ff, .ff]⟩,
  ⟨.tensmul, [.obj (.viewTDense .ten) .d true, .obj .tdense .d true, .obj .tdense .d false], .tensmul_dense, .d, [.one, .par 0, .par 1, .zero, .par 2, .ff, .ff]⟩,
  ⟨.tensmul, [.scal .d, .obj (.viewTDense .ten) .d true, .obj .tdense .d true, .scal .d, .obj .tdense .d false], .tensmul_dense, .d, [.par 0, .par 1, .par 2, .par 3, .par 4, .ff, .ff]⟩,
  ⟨.tensmul, [.obj (.viewTDense .ten) .d true, .obj .tdense .d true, .obj (.viewTDense .vec) .d false], .tensmul_dense, .d, [.one, .par 0, .par 1, .zero, .par 2, .ff, .ff]⟩,
  ⟨.tensmul, [.scal .d, .obj (.viewTDense .ten) .d true, .obj .tdense .d true, .scal .d, .obj (.viewTDense .vec) .d false], .tensmul_dense, .d, [.par 0, .par 1, .par 2, .par 3, .par 4, .ff, .ff]⟩,
  ⟨.tensmul, [.obj (.viewTDense .ten) .d true, .obj .tdense .d true, .obj (.viewTDense .mat) .d false], .tensmul_dense, .d, [.one, .par 0, .par 1, .zero, .par 2, .ff, .ff]⟩,
  ⟨.tensmul, [.scal .d, .obj (.viewTDense .ten) .d true, .obj .tdense .d true, .scal .d, .obj (.viewTDense .mat) .d false], .tensmul_dense, .d, [.par 0, .par 1, .par 2, .par 3, .par 4, .ff, .ff]⟩,
  ⟨.tensmul, [.obj (.viewTDense .ten) .d true, .obj .tdense .d true, .obj (.viewTDense .ten) .d false], .tensmul_dense, .d, [.one, .par 0, .par 1, .zero, .par 2, .ff, .ff]⟩,
  ⟨.tensmul, [.scal .d, .obj (.viewTDense .ten) .d true, .obj .tdense .d true, .scal .d, .obj (.viewTDense .ten) .d false], .tensmul_dense, .d, [.par 0, .par 1, .par 2, .par 3, .par 4, .ff, .ff]⟩,
  ⟨.tensmul, [.obj (.viewTDense .ten) .d true, .obj (.viewTDense .vec) .d true, .obj .tdense .d false], .tensmul_dense, .d, [.one, .par 0, .par 1, .zero, .par 2, .ff, .ff]⟩,
  ⟨.tensmul, [.scal .d, .obj (.viewTDense .ten) .d true, .obj (.viewTDense .vec) .d true, .scal .d, .obj .tdense .d false], .tensmul_dense, .d, [.par 0, .par 1, .par 2, .par 3, .par 4, .ff, .ff]⟩,
  ⟨.tensmul, [.obj (.viewTDense .ten) .d true, .obj (.viewTDense .vec) .d true, .obj (.viewTDense .vec) .d false], .tensmul_dense, .d, [.one, .par 0, .par 1, .zero, .par 2, .ff, .ff]⟩,
  ⟨.tensmul, [.scal .d, .obj (.viewTDense .ten) .d true, .obj (.viewTDense .vec) .d true, .scal .d, .obj (.viewTDense .vec) .d false], .tensmul_dense, .d, [.par 0, .par 1, .par 2, .par 3, .par 4, .ff, .ff]⟩,
  ⟨.tensmul, [.obj (.viewTDense .ten) .d true, .obj (.viewTDense .vec) .d true, .obj (.viewTDense .mat) .d false], .tensmul_dense, .d, [.one, .par 0, .par 1, .zero, .par 2, .ff, .ff]⟩,
  ⟨.tensmul, [.scal .d, .obj (.viewTDense .ten) .d true, .obj (.viewTDense .vec) .d true, .scal .d, .obj (.viewTDense .mat) .d false], .tensmul_dense, .d, [.par 0, .par 1, .par 2, .par 3, .par 4, .ff, .ff]⟩,
  ⟨.tensmul, [.obj (.viewTDense .ten) .d true, .obj (.viewTDense .vec) .d true, .obj (.viewTDense .ten) .d false], .tensmul_dense, .d, [.one, .par 0, .par 1, .zero, .par 2, .ff, .ff]⟩,
  ⟨.tensmul, [.scal .d, .obj (.viewTDense .ten) .d true, .obj (.viewTDense .vec) .d true, .scal .d, .obj (.viewTDense .ten) .d false], .tensmul_dense, .d, [.par 0, .par 1, .par 2, .par 3, .par 4, .ff, .ff]⟩,
  ⟨.tensmul, [.obj (.viewTDense .ten) .d true, .obj (.viewTDense .mat) .d true, .obj .tdense .d false], .tensmul_dense, .d, [.one, .par 0, .par 1, .zero, .par 2, .ff, .ff]⟩,
  ⟨.tensmul, [.scal .d, .obj (.viewTDense .ten) .d true, .obj (.viewTDense .mat) .d true, .scal .d, .obj .tdense .d false], .tensmul_dense, .d, [.par 0, .par 1, .par 2, .par 3, .par 4, .ff, .ff]⟩,
  ⟨.tensmul, [.obj (.viewTDense .ten) .d true, .obj (.viewTDense .mat) .d true, .obj (.viewTDense .vec) .d false], .tensmul_dense, .d, [.one, .par 0, .par 1, .zero, .par 2, .ff, .ff]⟩,
  ⟨.tensmul, [.scal .d, .obj (.viewTDense .ten) .d true, .obj (.viewTDense .mat) .d true, .scal .d, .obj (.viewTDense .vec) .d false], .tensmul_dense, .d, [.par 0, .par 1, .par 2, .par 3, .par 4, .ff, .ff]⟩,
  ⟨.tensmul, [.obj (.viewTDense .ten) .d true, .obj (.viewTDense .mat) .d true, .obj (.viewTDense .mat) .d false], .tensmul_dense, .d, [.one, .par 0, .par 1, .zero, .par 2, .ff, .ff]⟩,
  ⟨.tensmul, [.scal .d, .obj (.viewTDense .ten) .d true, .obj (.viewTDense .mat) .d true, .scal .d, .obj (.viewTDense .mat) .d false], .tensmul_dense, .d, [.par 0, .par 1, .par 2, .par 3, .par 4, .ff, .ff]⟩,
  ⟨.tensmul, [.obj (.viewTDense .ten) .d true, .obj (.viewTDense .mat) .d true, .obj (.viewTDense .ten) .d false], .tensmul_dense, .d, [.one, .par 0, .par 1, .zero, .par 2, .ff, .ff]⟩,
  ⟨.tensmul, [.scal .d, .obj (.viewTDense .ten) .d true, .obj (.viewTDense .mat) .d true, .scal .d, .obj (.viewTDense .ten) .d false], .tensmul_dense, .d, [.par 0, .par 1, .par 2, .par 3, .par 4, .ff, .ff]⟩,
  ⟨.tensmul, [.obj (.viewTDense .ten) .d true, .obj (.viewTDense .ten) .d true, .obj .tdense .d false], .tensmul_dense, .d, [.one, .par 0, .par 1, .zero, .par 2, .ff, .ff]⟩,
  ⟨.tensmul, [.scal .d, .obj (.viewTDense .ten) .d true, .obj (.viewTDense .ten) .d true, .scal .d, .obj .tdense .d false], .tensmul_dense, .d, [.par 0, .par 1, .par 2, .par 3, .par 4, .ff, .ff]⟩,
  ⟨.tensmul, [.obj (.viewTDense .ten) .d true, .obj (.viewTDense .ten) .d true, .obj (.viewTDense .vec) .d false], .tensmul_dense, .d, [.one, .par 0, .par 1, .zero, .par 2, .ff, .ff]⟩,
  ⟨.tensmul, [.scal .d, .obj (.viewTDense .ten) .d true, .obj (.viewTDense .ten) .d true, .scal .d, .obj (.viewTDense .vec) .d false], .tensmul_dense, .d, [.par 0, .par 1, .par 2, .par 3, .par 4, .ff, .ff]⟩,
  ⟨.tensmul, [.obj (.viewTDense .ten) .d true, .obj (.viewTDense .ten) .d true, .obj (.viewTDense .mat) .d false], .tensmul_dense, .d, [.one, .par 0, .par 1, .zero, .par 2, .ff, .ff]⟩,
  ⟨.tensmul, [.scal .d, .obj (.viewTDense .ten) .d true, .obj (.viewTDense .ten) .d true, .scal .d, .obj (.viewTDense .mat) .d false], .tensmul_dense, .d, [.par 0, .par 1, .par 2, .par 3, .par 4, .ff, .ff]⟩,
  ⟨.tensmul, [.obj (.viewTDense .ten) .d true, .obj (.viewTDense .ten) .d true, .obj (.viewTDense .ten) .d false], .tensmul_dense, .d, [.one, .par 0, .par 1, .zero, .par 2, .ff, .ff]⟩,
  ⟨.tensmul, [.scal .d, .obj (.viewTDense .ten) .d true, .obj (.viewTDense .ten) .d true, .scal .d, .obj (.viewTDense .ten) .d false], .tensmul_dense, .d, [.par 0, .par 1, .par 2, .par 3, .par 4, .ff, .ff]⟩,
  ⟨.tensmul, [.obj .tdense .s true, .obj .tdense .s true, .obj .tdense .s false], .tensmul_dense, .s, [.one, .par 0, .par 1, .zero, .par 2, .ff, .ff]⟩,
  ⟨.tensmul, [.scal .s, .obj .tdense .s true, .obj .tdense .s true, .scal .s, .obj .tdense .s false], .tensmul_dense, .s, [.par 0, .par 1, .par 2, .par 3, .par 4, .ff, .ff]⟩,
  ⟨.tensmul, [.obj .tdense .s true, .obj .tdense .s true, .obj (.viewTDense .vec) .s false], .tensmul_dense, .s, [.one, .par 0, .par 1, .zero, .par 2, .ff, .ff]⟩,
  ⟨.tensmul, [.scal .s, .obj .tdense .s true, .obj .tdense .s true, .scal .s, .obj (.viewTDense .vec) .s false], .tensmul_dense, .s, [.par 0, .par 1, .par 2, .par 3, .par 4, .ff, .ff]⟩,
  ⟨.tensmul, [.obj .tdense .s true, .obj .tdense .s true, .obj (.viewTDense .mat) .s false], .tensmul_dense, .s, [.one, .par 0, .par 1, .zero, .par 2, .ff, .ff]⟩,
  ⟨.tensmul, [.scal .s, .obj .tdense .s true, .obj .tdense .s true, .scal .s, .obj (.viewTDense .mat) .s false], .tensmul_dense, .s, [.par 0, .par 1, .par 2, .par 3, .par 4, .ff, .ff]⟩,
  ⟨.tensmul, [.obj .tdense .s true, .obj .tdense .s true, .obj (.viewTDense .ten) .s false], .tensmul_dense, .s, [.one, .par 0, .par 1, .zero, .par 2, .ff, .ff]⟩,
  ⟨.tensmul, [.scal .s, .obj .tdense .s true, .obj .tdense .s true, .scal .s, .obj (.viewTDense .ten) .s false], .tensmul_dense, .s, [.par 0, .par 1, .par 2, .par 3, .par 4, .ff, .ff]⟩,
  ⟨.tensmul, [.obj .tdense .s true, .obj (.viewTDense .vec) .s true, .obj .tdense .s false], .tensmul_dense, .s, [.one, .par 0, .par 1, .zero, .par 2, .ff, .ff]⟩,
  ⟨.tensmul, [.scal .s, .obj .tdense .s true, .obj (.viewTDense .vec) .s true, .scal .s, .obj .tdense .s false], .tensmul_dense, .s, [.par 0, .par 1, .par 2, .par 3, .par 4, .ff, .ff]⟩,
  ⟨.tensmul, [.obj .tdense .s true, .obj (.viewTDense .vec) .s true, .obj (.viewTDense .vec) .s false], .tensmul_dense, .s, [.one, .par 0, .par 1, .zero, .par 2, .ff, .ff]⟩,
  ⟨.tensmul, [.scal .s, .obj .tdense .s true, .obj (.viewTDense .vec) .s true, .scal .s, .obj (.viewTDense .vec) .s false], .tensmul_dense, .s, [.par 0, .par 1, .par 2, .par 3, .par 4, .ff, .ff]⟩,
  ⟨.tensmul, [.obj .tdense .s true, .obj (.viewTDense .vec) .s true, .obj (.viewTDense .mat) .s false], .tensmul_dense, .s, [.one, .par 0, .par 1, .zero, .par 2, .ff, .ff]⟩,
  ⟨.tensmul, [.scal .s, .obj .tdense .s true, .obj (.viewTDense .vec) .s true, .scal .s, .obj (.viewTDense .mat) .s false], .tensmul_dense, .s, [.par 0, .par 1, .par 2, .par 3, .par 4, .ff, .ff]⟩,
  ⟨.tensmul, [.obj .tdense .s true, .obj (.viewTDense .vec) .s true, .obj (.viewTDense .ten) .s false], .tensmul_dense, .s, [.one, .par 0, .par 1, .zero, .par 2, .ff, .ff]⟩,
  ⟨.tensmul, [.scal .s, .obj .tdense .s true, .obj (.viewTDense .vec) .s true, .scal .s, .obj (.viewTDense .ten) .s false], .tensmul_dense, .s, [.par 0, .par 1, .par 2, .par 3, .par 4, .ff, .ff]⟩,
  ⟨.tensmul, [.obj .tdense .s true, .obj (.viewTDense .mat) .s true, .obj .tdense .s false], .tensmul_dense, .s, [.one, .par 0, .par 1, .zero, .par 2, .ff, .ff]⟩,
  ⟨.tensmul, [.scal .s, .obj .tdense .s true, .obj (.viewTDense .mat) .s true, .scal .s, .obj .tdense .s false], .tensmul_dense, .s, [.par 0, .par 1, .par 2, .par 3, .par 4, .ff, .ff]⟩,
  ⟨.tensmul, [.obj .tdense .s true, .obj (.viewTDense .mat) .s true, .obj (.viewTDense .vec) .s false], .tensmul_dense, .s, [.one, .par 0, .par 1, .zero, .par 2, .ff, .ff]⟩,
  ⟨.tensmul, [.scal .s, .obj .tdense .s true, .obj (.viewTDense .mat) .s true, .scal .s, .obj (.viewTDense .vec) .s false], .tensmul_dense, .s, [.par 0, .par 1, .par 2, .par 3, .par 4, .ff, .ff]⟩,
  ⟨.tensmul, [.obj .tdense .s true, .obj (.viewTDense .mat) .s true, .obj (.viewTDense .mat) .s false], .tensmul_dense, .s, [.one, .par 0, .par 1, .zero, .par 2, .ff, .ff]⟩,
  ⟨.tensmul, [.scal .s, .obj .tdense .s true, .obj (.viewTDense .mat) .s true, .scal .s, .obj (.viewTDense .mat) .s false], .tensmul_dense, .s, [.par 0, .par 1, .par 2, .par 3, .par 4, .ff, .ff]⟩,
  ⟨.tensmul, [.obj .tdense .s true, .obj (.viewTDense .mat) .s true, .obj (.viewTDense .ten) .s false], .tensmul_dense, .s, [.one, .par 0, .par 1, .zero, .par 2, .ff, .ff]⟩,
  ⟨.tensmul, [.scal .s, .obj .tdense .s true, .obj (.viewTDense .mat) .s true, .scal .s, .obj (.viewTDense .ten) .s false], .tensmul_dense, .s, [.par 0, .par 1, .par 2, .par 3, .par 4, .ff, .ff]⟩,
  ⟨.tensmul, [.obj .tdense .s true, .obj (.viewTDense .ten) .s true, .obj .tdense .s false], .tensmul_dense, .s, [.one, .par 0, .par 1, .zero, .par 2, .ff, .ff]⟩,
  ⟨.tensmul, [.scal .s, .obj .tdense .s true, .obj (.viewTDense .ten) .s true, .scal .s, .obj .tdense .s false], .tensmul_dense, .s, [.par 0, .par 1, .par 2, .par 3, .par 4, .ff, .ff]⟩,
  ⟨.tensmul, [.obj .tdense .s true, .obj (.viewTDense .ten) .s true, .obj (.viewTDense .vec) .s false], .tensmul_dense, .s, [.one, .par 0, .par 1, .zero, .par 2, .ff, .ff]⟩,
  ⟨.tensmul, [.scal .s, .obj .tdense .s true, .obj (.viewTDense .ten) .s true, .scal .s, .obj (.viewTDense .vec) .s false], .tensmul_dense, .s, [.par 0, .par 1, .par 2, .par 3, .par 4, .ff, .ff]⟩,
  ⟨.tensmul, [.obj .tdense .s true, .obj (.viewTDense .ten) .s true, .obj (.viewTDense .mat) .s false], .tensmul_dense, .s, [.one, .par 0, .par 1, .zero, .par 2, .ff, .ff]⟩,
  ⟨.tensmul, [.scal .s, .obj .tdense .s true, .obj (.viewTDense .ten) .s true, .scal .s, .obj (.viewTDense .mat) .s false], .tensmul_dense, .s, [.par 0, .par 1, .par 2, .par 3, .par 4, .ff, .ff]⟩,
  ⟨.tensmul, [.obj .tdense .s true, .obj (.viewTDense .ten) .s true, .obj (.viewTDense .ten) .s false], .tensmul_dense, .s, [.one, .par 0, .par 1, .zero, .par 2, .ff, .ff]⟩,
  ⟨.tensmul, [.scal .s, .obj .tdense .s true, .obj (.viewTDense .ten) .s true, .scal .s, .obj (.viewTDense .ten) .s false], .tensmul_dense, .s, [.par 0, .par 1, .par 2, .par 3, .par 4, .ff, .ff]⟩]

/-- src/blas/tensor/tensmul/tensmul_blas.cpp:885-1316 -/
def tTensmul_2 : List Overload := [
  ⟨.tensmul, [.obj (.viewTDense .vec) .s true, .obj .tdense .s true, .obj .tdense .s false], .tensmul_dense, .s, [.one, .par 0, .par 1, .zero, .par 2, .ff, .ff]⟩,
  ⟨.tensmul, [.scal .s, .obj (.viewTDense .vec) .s true, .obj .tdense .s true, .scal .s, .obj .tdense .s false], .tensmul_dense, .s, [.par 0, .par 1, .par 2, .par 3, .par 4, .ff, .ff]⟩,
  ⟨.tensmul, [.obj (.viewTDense .vec) .s true, .obj .tdense .s true, .obj (.viewTDense .vec) .s false], .tensmul_dense, .s, [.one, .par 0, .par 1, .zero, .par 2, .ff, .ff]⟩,
  ⟨.tensmul, [.scal .s, .obj (.viewTDense .vec) .s true, .obj .tdense .s true, .scal .s, .obj (.viewTDense .vec) .s false], .tensmul_dense, .s, [.par 0, .par 1, .par 2, .par 3, .par 4, .ff, .ff]⟩,
  ⟨.tensmul, [.obj (.viewTDense .vec) .s true, .obj .tdense .s true, .obj (.viewTDense .mat) .s false], .tensmul_dense, .s, [.one, .par 0, .par 1, .zero, .par 2, .ff, .ff]⟩,
  ⟨.tensmul, [.scal .s, .obj (.viewTDense .vec) .s true, .obj .tdense .s true, .scal .s, .obj (.viewTDense .mat) .s false], .tensmul_dense, .s, [.par 0, .par 1, .par 2, .par 3, .par 4, .ff, .ff]⟩,
  ⟨.tensmul, [.obj (.viewTDense .vec) .s true, .obj .tdense .s true, .obj (.viewTDense .ten) .s false], .tensmul_dense, .s, [.one, .par 0, .par 1, .zero, .par 2, .ff, .ff]⟩,
  ⟨.tensmul, [.scal .s, .obj (.viewTDense .vec) .s true, .obj .tdense .s true, .scal .s, .obj (.viewTDense .ten) .s false], .tensmul_dense, .s, [.par 0, .par 1, .par 2, .par 3, .par 4, .ff, .ff]⟩,
  ⟨.tensmul, [.obj (.viewTDense .vec) .s true, .obj (.viewTDense .vec) .s true, .obj .tdense .s false], .tensmul_dense, .s, [.one, .par 0, .par 1, .zero, .par 2, .ff, .ff]⟩,
  ⟨.tensmul, [.scal .s, .obj (.viewTDense .vec) .s true, .obj (.viewTDense .vec) .s true, .scal .s, .obj .tdense .s false], .tensmul_dense, .s, [.par 0, .par 1, .par 2, .par 3, .par 4, .ff, .ff]⟩,
  ⟨.tensmul, [.obj (.viewTDense .vec) .s true, .obj (.viewTDense .vec) .s true, .obj (.viewTDense .vec) .s false], .tensmul_dense, .s, [.one, .par 0, .par 1, .zero, .par 2, .ff, .ff]⟩,
  ⟨.tensmul, [.scal .s, .obj (.viewTDense .vec) .s true, .obj (.viewTDense .vec) .s true, .scal .s, .obj (.viewTDense .vec) .s false], .tensmul_dense, .s, [.par 0, .par 1, .par 2, .par 3, .par 4, .ff, .ff]⟩,
  ⟨.tensmul, [.obj (.viewTDense .vec) .s true, .obj (.viewTDense .vec) .s true, .obj (.viewTDense .mat) .s false], .tensmul_dense, .s, [.one, .par 0, .par 1, .zero, .par 2, .ff, .ff]⟩,
  ⟨.tensmul, [.scal .s, .obj (.viewTDense .vec) .s true, .obj (.viewTDense .vec) .s true, .scal .s, .obj (.viewTDense .mat) .s false], .tensmul_dense, .s, [.par 0, .par 1, .par 2, .par 3, .par 4, .ff, .ff]⟩,
  ⟨.tensmul, [.obj (.viewTDense .vec) .s true, .obj (.viewTDense .vec) .s true, .obj (.viewTDense .ten) .s false], .tensmul_dense, .s, [.one, .par 0, .par 1, .zero, .par 2, .ff, .ff]⟩,
  ⟨.tensmul, [.scal .s, .obj (.viewTDense .vec) .s true, .obj (.viewTDense .vec) .s true, .scal .s, .obj (.viewTDense .ten) .s false], .tensmul_dense, .s, [.par 0, .par 1, .par 2, .par 3, .par 4, .ff, .ff]⟩,
  ⟨.tensmul, [.obj (.viewTDense .vec) .s true, .obj (.viewTDense .mat) .s true, .obj .tdense .s false], .tensmul_dense, .s, [.one, .par 0, .par 1, .zero, .par 2, .ff, .ff]⟩,
  ⟨.tensmul, [.scal .s, .obj (.viewTDense .vec) .s true, .obj (.viewTDense .mat) .s true, .scal .s, .obj .tdense .s false], .tensmul_dense, .s, [.par 0, .par 1, .par 2, .par 3, .par 4, .ff, .ff]⟩,
  ⟨.tensmul, [.obj (.viewTDense .vec) .s true, .obj (.viewTDense .mat) .s true, .obj (.viewTDense .vec) .s false], .tensmul_dense, .s, [.one, .par 0, .par 1, .zero, .par 2, .ff, .ff]⟩,
  ⟨.tensmul, [.scal .s, .obj (.viewTDense .vec) .s true, .obj (.viewTDense .mat) .s true, .scal .s, .obj (.viewTDense .vec) .s false], .tensmul_dense, .s, [.par 0, .par 1, .par 2, .par 3, .par 4, .ff, .ff]⟩,
  ⟨.tensmul, [.obj (.viewTDense .vec) .s true, .obj (.viewTDense .mat) .s true, .obj (.viewTDense .mat) .s false], .tensmul_dense, .s, [.one, .par 0, .par 1, .zero, .par 2, .ff, .ff]⟩,
  ⟨.tensmul, [.scal .s, .obj (.viewTDense .vec) .s true, .obj (.viewTDense .mat) .s true, .scal .s, .obj (.viewTDense .mat) .s false], .tensmul_dense, .s, [.par 0, .par 1, .par 2, .par 3, .par 4, .ff, .ff]⟩,
  ⟨.tensmul, [.obj (.viewTDense .vec) .s true, .obj (.viewTDense .mat) .s true, .obj (.viewTDense .ten) .s false], .tensmul_dense, .s, [.one, .par 0, .par 1, .zero, .par 2, .ff, .ff]⟩,
  ⟨.tensmul, [.scal .s, .obj (.viewTDense .vec) .s true, .obj (.viewTDense .mat) .s true, .scal .s, .obj (.viewTDense .ten) .s false], .tensmul_dense, .s, [.par 0, .par 1, .par 2, .par 3, .par 4, .ff, .ff]⟩,
  ⟨.tensmul, [.obj (.viewTDense .vec) .s true, .obj (.viewTDense .ten) .s true, .obj .tdense .s false], .tensmul_dense, .s, [.one, .par 0, .par 1, .zero, .par 2, .ff, .ff]⟩,
  ⟨.tensmul, [.scal .s, .obj (.viewTDense .vec) .s true, .obj (.viewTDense .ten) .s true, .scal .s, .obj .tdense .s false], .tensmul_dense, .s, [.par 0, .par 1, .par 2, .par 3, .par 4, .ff, .ff]⟩,
  ⟨.tensmul, [.obj (.viewTDense .vec) .s true, .obj (.viewTDense .ten) .s true, .obj (.viewTDense .vec) .s false], .tensmul_dense, .s, [.one, .par 0, .par 1, .zero, .par 2, .ff, .ff]⟩,
  ⟨.tensmul, [.scal .s, .obj (.viewTDense .vec) .s true, .obj (.viewTDense .ten) .s true, .scal .s, .obj (.viewTDense .vec) .s false], .tensmul_dense, .s, [.par 0, .par 1, .par 2, .par 3, .par 4, .ff, .ff]⟩,
  ⟨.tensmul, [.obj (.viewTDense .vec) .s true, .obj (.viewTDense .ten) .s true, .obj (.viewTDense .mat) .s false], .tensmul_dense, .s, [.one, .par 0, .par 1, .zero, .par 2, .ff, .ff]⟩,
  ⟨.tensmul, [.scal .s, .obj (.viewTDense .vec) .s true, .obj (.viewTDense .ten) .s true, .scal .s, .obj (.viewTDense .mat) .s false], .tensmul_dense, .s, [.par 0, .par 1, .par 2, .par 3, .par 4, .ff, .ff]⟩,
  ⟨.tensmul, [.obj (.viewTDense .vec) .s true, .obj (.viewTDense .ten) .s true, .obj (.viewTDense .ten) .s false], .tensmul_dense, .s, [.one, .par 0, .par 1, .zero, .par 2, .ff, .ff]⟩,
  ⟨.tensmul, [.scal .s, .obj (.viewTDense .vec) .s true, .obj (.viewTDense .ten) .s true, .scal .s, .obj (.viewTDense .ten) .s false], .tensmul_dense, .s, [.par 0, .par 1, .par 2, .par 3, .par 4, .ff, .ff]⟩,
  ⟨.tensmul, [.obj (.viewTDense .mat) .s true, .obj .tdense .s true, .obj .tdense .s false], .tensmul_dense, .s, [.one, .par 0, .par 1, .zero, .par 2, .ff, .ff]⟩,
  ⟨.tensmul, [.scal .s, .obj (.viewTDense .mat) .s true, .obj .tdense .s true, .scal .s, .obj .tdense .s false], .tensmul_dense, .s, [.par 0, .par 1, .par 2, .par 3, .par 4, .ff, .ff]⟩,
  ⟨.tensmul, [.obj (.viewTDense .mat) .s true, .obj .tdense .s true, .obj (.viewTDense .vec) .s false], .tensmul_dense, .s, [.one, .par 0, .par 1, .zero, .par 2, .ff, .ff]⟩,
  ⟨.tensmul, [.scal .s, .obj (.viewTDense .mat) .s true, .obj .tdense .s true, .scal .s, .obj (.viewTDense .vec) .s false], .tensmul_dense, .s, [.par 0, .par 1, .par 2, .par 3, .par 4, .ff, .ff]⟩,
  ⟨.tensmul, [.obj (.viewTDense .mat) .s true, .obj .tdense .s true, .obj (.viewTDense .mat) .s false], .tensmul_dense, .s, [.one, .par 0, .par 1, .zero, .par 2, .ff, .ff]⟩,
  ⟨.tensmul, [.scal .s, .obj (.viewTDense .mat) .s true, .obj .tdense .s true, .scal .s, .obj (.viewTDense .mat) .s false], .tensmul_dense, .s, [.par 0, .par 1, .par 2, .par 3, .par 4, .ff, .ff]⟩,
  ⟨.tensmul, [.obj (.viewTDense .mat) .s true, .obj .tdense .s true, .obj (.viewTDense .ten) .s false], .tensmul_dense, .s, [.one, .par 0, .par 1, .zero, .par 2, .ff, .ff]⟩,
  ⟨.tensmul, [.scal .s, .obj (.viewTDense .mat) .s true, .obj .tdense .s true, .scal .s, .obj (.viewTDense .ten) .s false], .tensmul_dense, .s, [.par 0, .par 1, .par 2, .par 3, .par 4, .ff, .ff]⟩,
  ⟨.tensmul, [.obj (.viewTDense .mat) .s true, .obj (.viewTDense .vec) .s true, .obj .tdense .s false], .tensmul_dense, .s, [.one, .par 0, .par 1, .zero, .par 2, .ff, .ff]⟩,
  ⟨.tensmul, [.scal .s, .obj (.viewTDense .mat) .s true, .obj (.viewTDense .vec) .s true, .scal .s, .obj .tdense .s false], .tensmul_dense, .s, [.par 0, .par 1, .par 2, .par 3, .par 4, .ff, .ff]⟩,
  ⟨.tensmul, [.obj (.viewTDense .mat) .s true, .obj (.viewTDense .vec) .s true, .obj (.viewTDense .vec) .s false], .tensmul_dense, .s, [.one, .par 0, .par 1, .zero, .par 2, .ff, .ff]⟩,
  ⟨.tensmul, [.scal .s, .obj (.viewTDense .mat) .s true, .obj (.viewTDense .vec) .s true, .scal .s, .obj (.viewTDense .vec) .s false], .tensmul_dense, .s, [.par 0, .par 1, .par 2, .par 3, .par 4, .ff, .ff]⟩,
  ⟨.tensmul, [.obj (.viewTDense .mat) .s true, .obj (.viewTDense .vec) .s true, .obj (.viewTDense .mat) .s false], .tensmul_dense, .s, [.one, .par 0, .par 1, .zero, .par 2, .ff, .ff]⟩,
  ⟨.tensmul, [.scal .s, .obj (.viewTDense .mat) .s true, .obj (.viewTDense .vec) .s true, .scal .s, .obj (.viewTDense .mat) .s false], .tensmul_dense, .s, [.par 0, .par 1, .par 2, .par 3, .par 4, .ff, .ff]⟩,
  ⟨.tensmul, [.obj (.viewTDense .mat) .s true, .obj (.viewTDense .vec) .s true, .obj (.viewTDense .ten) .s false], .tensmul_dense, .s, [.one, .par 0, .par 1, .zero, .par 2, .ff, .ff]⟩,
  ⟨.tensmul, [.scal .s, .obj (.viewTDense .mat) .s true, .obj (.viewTDense .vec) .s true, .scal .s, .obj (.viewTDense .ten) .s false], .tensmul_dense, .s, [.par 0, .par 1, .par 2, .par 3, .par 4, .ff, .ff]⟩,
  ⟨.tensmul, [.obj (.viewTDense .mat) .s true, .obj (.viewTDense .mat) .s true, .obj .tdense .s false], .tensmul_dense, .s, [.one, .par 0, .par 1, .zero, .par 2, .ff, .ff]⟩,
  ⟨.tensmul, [.scal .s, .obj (.viewTDense .mat) .s true, .obj (.viewTDense .mat) .s true, .scal .s, .obj .tdense .s false], .tensmul_dense, .s, [.par 0, .par 1, .par 2, .par 3, .par 4, .ff, .ff]⟩,
  ⟨.tensmul, [.obj (.viewTDense .mat) .s true, .obj (.viewTDense .mat) .s true, .obj (.viewTDense .vec) .s false], .tensmul_dense, .s, [.one, .par 0, .par 1, .zero, .par 2, .ff, .ff]⟩,
  ⟨.tensmul, [.scal .s, .obj (.viewTDense .mat) .s true, .obj (.viewTDense .mat) .s true, .scal .s, .obj (.viewTDense .vec) .s false], .tensmul_dense, .s, [.par 0, .par 1, .par 2, .par 3, .par 4, .ff, .ff]⟩,
  ⟨.tensmul, [.obj (.viewTDense .mat) .s true, .obj (.viewTDense .mat) .s true, .obj (.viewTDense .mat) .s false], .tensmul_dense, .s, [.one, .par 0, .par 1, .zero, .par 2, .ff, .ff]⟩,
  ⟨.tensmul, [.scal .s, .obj (.viewTDense .mat) .s true, .obj (.viewTDense .mat) .s true, .scal .s, .obj (.viewTDense .mat) .s false], .tensmul_dense, .s, [.par 0, .par 1, .par 2, .par 3, .par 4, .ff, .ff]⟩,
  ⟨.tensmul, [.obj (.viewTDense .mat) .s true, .obj (.viewTDense .mat) .s true, .obj (.viewTDense .ten) .s false], .tensmul_dense, .s, [.one, .par 0, .par 1, .zero, .par 2, .ff, .ff]⟩,
  ⟨.tensmul, [.scal .s, .obj (.viewTDense .mat) .s true, .obj (.viewTDense .mat) .s true, .scal .s, .obj (.viewTDense .ten) .s false], .tensmul_dense, .s, [.par 0, .par 1, .par 2, .par 3, .par 4, .ff, .ff]⟩,
  ⟨.tensmul, [.obj (.viewTDense .mat) .s true, .obj (.viewTDense .ten) .s true, .obj .tdense .s false], .tensmul_dense, .s, [.one, .par 0, .par 1, .zero, .par 2, .ff, .ff]⟩,
  ⟨.tensmul, [.scal .s, .obj (.viewTDense .mat) .s true, .obj (.viewTDense .ten) .s true, .scal .s, .obj .tdense .s false], .tensmul_dense, .s, [.par 0, .par 1, .par 2, .par 3, .par 4, .ff, .ff]⟩,
  ⟨.tensmul, [.obj (.viewTDense .mat) .s true, .obj (.viewTDense .ten) .s true, .obj (.viewTDense .vec) .s false], .tensmul_dense, .s, [.one, .par 0, .par 1, .zero, .par 2, .ff, .ff]⟩,
  ⟨.tensmul, [.scal .s, .obj (.viewTDense .mat) .s true, .obj (.viewTDense .ten) .s true, .scal .s, .obj (.viewTDense .vec) .s false], .tensmul_dense, .s, [.par 0, .par 1, .par 2, .par 3, .par 4, .ff, .ff]⟩,
  ⟨.tensmul, [.obj (.viewTDense .mat) .s true, .obj (.viewTDense .ten) .s true, .obj (.viewTDense .mat) .s false], .tensmul_dense, .s, [.one, .par 0, .par 1, .zero, .par 2, .ff, .ff]⟩,
  ⟨.tensmul, [.scal .s, .obj (.viewTDense .mat) .s true, .obj (.viewTDense .ten) .s true, .scal .s, .obj (.viewTDense .mat) .s false], .tensmul_dense, .s, [.par 0, .par 1, .par 2, .par 3, .par 4, .ff, .ff]⟩,
  ⟨.tensmul, [.obj (.viewTDense .mat) .s true, .obj (.viewTDense .ten) .s true, .obj (.viewTDense .ten) .s false], .tensmul_dense, .s, [.one, .par 0, .par 1, .zero, .par 2, .ff, .ff]⟩,
  ⟨.tensmul, [.scal .s, .obj (.viewTDense .mat) .s true, .obj (.viewTDense .ten) .s true, .scal .s, .obj (.viewTDense .ten) .s false], .tensmul_dense, .s, [.par 0, .par 1, .par 2, .par 3, .par 4, .ff, .ff]⟩,
  ⟨.tensmul, [.obj (.viewTDense .ten) .s true, .obj .tdense .s true, .obj .tdense .s false], .tensmul_dense, .s, [.one, .par 0, .par 1, .zero, .par 2, .ff, .ff]⟩,
  ⟨.tensmul, [.scal .s, .obj (.viewTDense .ten) .s true, .obj .tdense .s true, .scal .s, .obj .tdense .s false], .tensmul_dense, .s, [.par 0, .par 1, .par 2, .par 3, .par 4, .ff, .ff]⟩,
  ⟨.tensmul, [.obj (.viewTDense .ten) .s true, .obj .tdense .s true, .obj (.viewTDense .vec) .s false], .tensmul_dense, .s, [.one, .par 0, .par 1, .zero, .par 2, .ff, .ff]⟩,
  ⟨.tensmul, [.scal .s, .obj (.viewTDense .ten) .s true, .obj .tdense .s true, .scal .s, .obj (.viewTDense .vec) .s false], .tensmul_dense, .s, [.par 0, .par 1, .par 2, .par 3, .par 4, .ff, .ff]⟩,
  ⟨.tensmul, [.obj (.viewTDense .ten) .s true, .obj .tdense .s true, .obj (.viewTDense .mat) .s false], .tensmul_dense, .s, [.one, .par 0, .par 1, .zero, .par 2, .ff, .ff]⟩,
  ⟨.tensmul, [.scal .s, .obj (.viewTDense .ten) .s true, .obj .tdense .s true, .scal .s, .obj (.viewTDense .mat) .s false], .tensmul_dense, .s, [.par 0, .par 1, .par 2, .par 3, .par 4, .ff, .ff]⟩,
  ⟨.tensmul, [.obj (.viewTDense .ten) .s true, .obj .tdense .s true, .obj (.viewTDense .ten) .s false], .tensmul_dense, .s, [.one, .par 0, .par 1, .zero, .par 2, .ff, .ff]⟩,
  ⟨.tensmul, [.scal .s, .obj (.viewTDense .ten) .s true, .obj .tdense .s true, .scal .s, .obj (.viewTDense .ten) .s false], .tensmul_dense, .s, [.par 0, .par 1, .par 2, .par 3, .par 4, .ff, .ff]⟩,
  ⟨.tensmul, [.obj (.viewTDense .ten) .s true, .obj (.viewTDense .vec) .s true, .obj .tdense .s false], .tensmul_dense, .s, [.one, .par 0, .par 1, .zero, .par 2, .ff, .ff]⟩,
  ⟨.tensmul, [.scal .s, .obj (.viewTDense .ten) .s true, .obj (.viewTDense .vec) .s true, .scal .s, .obj .tdense .s false], .tensmul_dense, .s, [.par 0, .par 1, .par 2, .par 3, .par 4, .ff, .ff]⟩,
  ⟨.tensmul, [.obj (.viewTDense .ten) .s true, .obj (.viewTDense .vec) .s true, .obj (.viewTDense .vec) .s false], .tensmul_dense, .s, [.one, .par 0, .par 1, .zero, .par 2, .ff, .ff]⟩,
  ⟨.tensmul, [.scal .s, .obj (.viewTDense .ten) .s true, .obj (.viewTDense .vec) .s true, .scal .s, .obj (.viewTDense .vec) .s false], .tensmul_dense, .s, [.par 0, .par 1, .par 2, .par 3, .par 4, .ff, .ff]⟩,
  ⟨.tensmul, [.obj (.viewTDense .ten) .s true, .obj (.viewTDense .vec) .s true, .obj (.viewTDense .mat) .s false], .tensmul_dense, .s, [.one, .par 0, .par 1, .zero, .par 2, .ff, .ff]⟩,
  ⟨.tensmul, [.scal .s, .obj (.viewTDense .ten) .s true, .obj (.viewTDense .vec) .s true, .scal .s, .obj (.viewTDense .mat) .s false], .tensmul_dense, .s, [.par 0, .par 1, .par 2, .par 3, .par 4, .ff, .ff]⟩,
  ⟨.tensmul, [.obj (.viewTDense .ten) .s true, .obj (.viewTDense .vec) .s true, .obj (.viewTDense .ten) .s false], .tensmul_dense, .s, [.one, .par 0, .par 1, .zero, .par 2, .ff, .ff]⟩,
  ⟨.tensmul, [.scal .s, .obj (.viewTDense .ten) .s true, .obj (.viewTDense .vec) .s true, .scal .s, .obj (.viewTDense .ten) .s false], .tensmul_dense, .s, [.par 0, .par 1, .par 2, .par 3, .par 4, .ff, .ff]⟩]

/-- src/blas/tensor/tensmul/tensmul_blas.cpp:1317-1739 -/
def tTensmul_3 : List Overload := [
  ⟨.tensmul, [.obj (.viewTDense .ten) .s true, .obj (.viewTDense .mat) .s true, .obj .tdense .s false], .tensmul_dense, .s, [.one, .par 0, .par 1, .zero, .par 2, .ff, .ff]⟩,
  ⟨.tensmul, [.scal .s, .obj (.viewTDense .ten) .s true, .obj (.viewTDense .mat) .s true, .scal .s, .obj .tdense .s false], .tensmul_dense, .s, [.par 0, .par 1, .par 2, .par 3, .par 4, .ff, .ff]⟩,
  ⟨.tensmul, [.obj (.viewTDense .ten) .s true, .obj (.viewTDense .mat) .s true, .obj (.viewTDense .vec) .s false], .tensmul_dense, .s, [.one, .par 0, .par 1, .zero, .par 2, .ff, .ff]⟩,
  ⟨.tensmul, [.scal .s, .obj (.viewTDense .ten) .s true, .obj (.viewTDense .mat) .s true, .scal .s, .obj (.viewTDense .vec) .s false], .tensmul_dense, .s, [.par 0, .par 1, .par 2, .par 3, .par 4, .ff, .ff]⟩,
  ⟨.tensmul, [.obj (.viewTDense .ten) .s true, .obj (.viewTDense .mat) .s true, .obj (.viewTDense .mat) .s false], .tensmul_dense, .s, [.one, .par 0, .par 1, .zero, .par 2, .ff, .ff]⟩,
  ⟨.tensmul, [.scal .s, .obj (.viewTDense .ten) .s true, .obj (.viewTDense .mat) .s true, .scal .s, .obj (.viewTDense .mat) .s false], .tensmul_dense, .s, [.par 0, .par 1, .par 2, .par 3, .par 4, .ff, .ff]⟩,
  ⟨.tensmul, [.obj (.viewTDense .ten) .s true, .obj (.viewTDense .mat) .s true, .obj (.viewTDense .ten) .s false], .tensmul_dense, .s, [.one, .par 0, .par 1, .zero, .par 2, .ff, .ff]⟩,
  ⟨.tensmul, [.scal .s, .obj (.viewTDense .ten) .s true, .obj (.viewTDense .mat) .s true, .scal .s, .obj (.viewTDense .ten) .s false], .tensmul_dense, .s, [.par 0, .par 1, .par 2, .par 3, .par 4, .ff, .ff]⟩,
  ⟨.tensmul, [.obj (.viewTDense .ten) .s true, .obj (.viewTDense .ten) .s true, .obj .tdense .s false], .tensmul_dense, .s, [.one, .par 0, .par 1, .zero, .par 2, .ff, .ff]⟩,
  ⟨.tensmul, [.scal .s, .obj (.viewTDense .ten) .s true, .obj (.viewTDense .ten) .s true, .scal .s, .obj .tdense .s false], .tensmul_dense, .s, [.par 0, .par 1, .par 2, .par 3, .par 4, .ff, .ff]⟩,
  ⟨.tensmul, [.obj (.viewTDense .ten) .s true, .obj (.viewTDense .ten) .s true, .obj (.viewTDense .vec) .s false], .tensmul_dense, .s, [.one, .par 0, .par 1, .zero, .par 2, .ff, .ff]⟩,
  ⟨.tensmul, [.scal .s, .obj (.viewTDense .ten) .s true, .obj (.viewTDense .ten) .s true, .scal .s, .obj (.viewTDense .vec) .s false], .tensmul_dense, .s, [.par 0, .par 1, .par 2, .par 3, .par 4, .ff, .ff]⟩,
  ⟨.tensmul, [.obj (.viewTDense .ten) .s true, .obj (.viewTDense .ten) .s true, .obj (.viewTDense .mat) .s false], .tensmul_dense, .s, [.one, .par 0, .par 1, .zero, .par 2, .ff, .ff]⟩,
  ⟨.tensmul, [.scal .s, .obj (.viewTDense .ten) .s true, .obj (.viewTDense .ten) .s true, .scal .s, .obj (.viewTDense .mat) .s false], .tensmul_dense, .s, [.par 0, .par 1, .par 2, .par 3, .par 4, .ff, .ff]⟩,
  ⟨.tensmul, [.obj (.viewTDense .ten) .s true, .obj (.viewTDense .ten) .s true, .obj (.viewTDense .ten) .s false], .tensmul_dense, .s, [.one, .par 0, .par 1, .zero, .par 2, .ff, .ff]⟩,
  ⟨.tensmul, [.scal .s, .obj (.viewTDense .ten) .s true, .obj (.viewTDense .ten) .s true, .scal .s, .obj (.viewTDense .ten) .s false], .tensmul_dense, .s, [.par 0, .par 1, .par 2, .par 3, .par 4, .ff, .ff]⟩,
  ⟨.tensmul, [.obj .tcrs .d true, .obj .tdense .d true, .obj .tdense .d false], .tensmul_crs, .d, [.one, .par 0, .par 1, .zero, .par 2]⟩,
  ⟨.tensmul, [.scal .d, .obj .tcrs .d true, .obj .tdense .d true, .scal .d, .obj .tdense .d false], .tensmul_crs, .d, [.par 0, .par 1, .par 2, .par 3, .par 4]⟩,
  ⟨.tensmul, [.obj .tcrs .d true, .obj .tdense .d true, .obj (.viewTDense .vec) .d false], .tensmul_crs, .d, [.one, .par 0, .par 1, .zero, .par 2]⟩,
  ⟨.tensmul, [.scal .d, .obj .tcrs .d true, .obj .tdense .d true, .scal .d, .obj (.viewTDense .vec) .d false], .tensmul_crs, .d, [.par 0, .par 1, .par 2, .par 3, .par 4]⟩,
  ⟨.tensmul, [.obj .tcrs .d true, .obj .tdense .d true, .obj (.viewTDense .mat) .d false], .tensmul_crs, .d, [.one, .par 0, .par 1, .zero, .par 2]⟩,
  ⟨.tensmul, [.scal .d, .obj .tcrs .d true, .obj .tdense .d true, .scal .d, .obj (.viewTDense .mat) .d false], .tensmul_crs, .d, [.par 0, .par 1, .par 2, .par 3, .par 4]⟩,
  ⟨.tensmul, [.obj .tcrs .d true, .obj .tdense .d true, .obj (.viewTDense .ten) .d false], .tensmul_crs, .d, [.one, .par 0, .par 1, .zero, .par 2]⟩,
  ⟨.tensmul, [.scal .d, .obj .tcrs .d true, .obj .tdense .d true, .scal .d, .obj (.viewTDense .ten) .d false], .tensmul_crs, .d, [.par 0, .par 1, .par 2, .par 3, .par 4]⟩,
  ⟨.tensmul, [.obj .tcrs .d true, .obj (.viewTDense .vec) .d true, .obj .tdense .d false], .tensmul_crs, .d, [.one, .par 0, .par 1, .zero, .par 2]⟩,
  ⟨.tensmul, [.scal .d, .obj .tcrs .d true, .obj (.viewTDense .vec) .d true, .scal .d, .obj .tdense .d false], .tensmul_crs, .d, [.par 0, .par 1, .par 2, .par 3, .par 4]⟩,
  ⟨.tensmul, [.obj .tcrs .d true, .obj (.viewTDense .vec) .d true, .obj (.viewTDense .vec) .d false], .tensmul_crs, .d, [.one, .par 0, .par 1, .zero, .par 2]⟩,
  ⟨.tensmul, [.scal .d, .obj .tcrs .d true, .obj (.viewTDense .vec) .d true, .scal .d, .obj (.viewTDense .vec) .d false], .tensmul_crs, .d, [.par 0, .par 1, .par 2, .par 3, .par 4]⟩,
  ⟨.tensmul, [.obj .tcrs .d true, .obj (.viewTDense .vec) .d true, .obj (.viewTDense .mat) .d false], .tensmul_crs, .d, [.one, .par 0, .par 1, .zero, .par 2]⟩,
  ⟨.tensmul, [.scal .d, .obj .tcrs .d true, .obj (.viewTDense .vec) .d true, .scal .d, .obj (.viewTDense .mat) .d false], .tensmul_crs, .d, [.par 0, .par 1, .par 2, .par 3, .par 4]⟩,
  ⟨.tensmul, [.obj .tcrs .d true, .obj (.viewTDense .vec) .d true, .obj (.viewTDense .ten) .d false], .tensmul_crs, .d, [.one, .par 0, .par 1, .zero, .par 2]⟩,
  ⟨.tensmul, [.scal .d, .obj .tcrs .d true, .obj (.viewTDense .vec) .d true, .scal .d, .obj (.viewTDense .ten) .d false], .tensmul_crs, .d, [.par 0, .par 1, .par 2, .par 3, .par 4]⟩,
  ⟨.tensmul, [.obj .tcrs .d true, .obj (.viewTDense .mat) .d true, .obj .tdense .d false], .tensmul_crs, .d, [.one, .par 0, .par 1, .zero, .par 2]⟩,
  ⟨.tensmul, [.scal .d, .obj .tcrs .d true, .obj (.viewTDense .mat) .d true, .scal .d, .obj .tdense .d false], .tensmul_crs, .d, [.par 0, .par 1, .par 2, .par 3, .par 4]⟩,
  ⟨.tensmul, [.obj .tcrs .d true, .obj (.viewTDense .mat) .d true, .obj (.viewTDense .vec) .d false], .tensmul_crs, .d, [.one, .par 0, .par 1, .zero, .par 2]⟩,
  ⟨.tensmul, [.scal .d, .obj .tcrs .d true, .obj (.viewTDense .mat) .d true, .scal .d, .obj (.viewTDense .vec) .d false], .tensmul_crs, .d, [.par 0, .par 1, .par 2, .par 3, .par 4]⟩,
  ⟨.tensmul, [.obj .tcrs .d true, .obj (.viewTDense .mat) .d true, .obj (.viewTDense .mat) .d false], .tensmul_crs, .d, [.one, .par 0, .par 1, .zero, .par 2]⟩,
  ⟨.tensmul, [.scal .d, .obj .tcrs .d true, .obj (.viewTDense .mat) .d true, .scal .d, .obj (.viewTDense .mat) .d false], .tensmul_crs, .d, [.par 0, .par 1, .par 2, .par 3, .par 4]⟩,
  ⟨.tensmul, [.obj .tcrs .d true, .obj (.viewTDense .mat) .d true, .obj (.viewTDense .ten) .d false], .tensmul_crs, .d, [.one, .par 0, .par 1, .zero, .par 2]⟩,
  ⟨.tensmul, [.scal .d, .obj .tcrs .d true, .obj (.viewTDense .mat) .d true, .scal .d, .obj (.viewTDense .ten) .d false], .tensmul_crs, .d, [.par 0, .par 1, .par 2, .par 3, .par 4]⟩,
  ⟨.tensmul, [.obj .tcrs .d true, .obj (.viewTDense .ten) .d true, .obj .tdense .d false], .tensmul_crs, .d, [.one, .par 0, .par 1, .zero, .par 2]⟩,
  ⟨.tensmul, [.scal .d, .obj .tcrs .d true, .obj (.viewTDense .ten) .d true, .scal .d, .obj .tdense .d false], .tensmul_crs, .d, [.par 0, .par 1, .par 2, .par 3, .par 4]⟩,
  ⟨.tensmul, [.obj .tcrs .d true, .obj (.viewTDense .ten) .d true, .obj (.viewTDense .vec) .d false], .tensmul_crs, .d, [.one, .par 0, .par 1, .zero, .par 2]⟩,
  ⟨.tensmul, [.scal .d, .obj .tcrs .d true, .obj (.viewTDense .ten) .d true, .scal .d, .obj (.viewTDense .vec) .d false], .tensmul_crs, .d, [.par 0, .par 1, .par 2, .par 3, .par 4]⟩,
  ⟨.tensmul, [.obj .tcrs .d true, .obj (.viewTDense .ten) .d true, .obj (.viewTDense .mat) .d false], .tensmul_crs, .d, [.one, .par 0, .par 1, .zero, .par 2]⟩,
  ⟨.tensmul, [.scal .d, .obj .tcrs .d true, .obj (.viewTDense .ten) .d true, .scal .d, .obj (.viewTDense .mat) .d false], .tensmul_crs, .d, [.par 0, .par 1, .par 2, .par 3, .par 4]⟩,
  ⟨.tensmul, [.obj .tcrs .d true, .obj (.viewTDense .ten) .d true, .obj (.viewTDense .ten) .d false], .tensmul_crs, .d, [.one, .par 0, .par 1, .zero, .par 2]⟩,
  ⟨.tensmul, [.scal .d, .obj .tcrs .d true, .obj (.viewTDense .ten) .d true, .scal .d, .obj (.viewTDense .ten) .d false], .tensmul_crs, .d, [.par 0, .par 1, .par 2, .par 3, .par 4]⟩,
  ⟨.tensmul, [.obj .tcrs .s true, .obj .tdense .s true, .obj .tdense .s false], .tensmul_crs, .s, [.one, .par 0, .par 1, .zero, .par 2]⟩,
  ⟨.tensmul, [.scal .s, .obj .tcrs .s true, .obj .tdense .s true, .scal .s, .obj .tdense .s false], .tensmul_crs, .s, [.par 0, .par 1, .par 2, .par 3, .par 4]⟩,
  ⟨.tensmul, [.obj .tcrs .s true, .obj .tdense .s true, .obj (.viewTDense .vec) .s false], .tensmul_crs, .s, [.one, .par 0, .par 1, .zero, .par 2]⟩,
  ⟨.tensmul, [.scal .s, .obj .tcrs .s true, .obj .tdense .s true, .scal .s, .obj (.viewTDense .vec) .s false], .tensmul_crs, .s, [.par 0, .par 1, .par 2, .par 3, .par 4]⟩,
  ⟨.tensmul, [.obj .tcrs .s true, .obj .tdense .s true, .obj (.viewTDense .mat) .s false], .tensmul_crs, .s, [.one, .par 0, .par 1, .zero, .par 2]⟩,
  ⟨.tensmul, [.scal .s, .obj .tcrs .s true, .obj .tdense .s true, .scal .s, .obj (.viewTDense .mat) .s false], .tensmul_crs, .s, [.par 0, .par 1, .par 2, .par 3, .par 4]⟩,
  ⟨.tensmul, [.obj .tcrs .s true, .obj .tdense .s true, .obj (.viewTDense .ten) .s false], .tensmul_crs, .s, [.one, .par 0, .par 1, .zero, .par 2]⟩,
  ⟨.tensmul, [.scal .s, .obj .tcrs .s true, .obj .tdense .s true, .scal .s, .obj (.viewTDense .ten) .s false], .tensmul_crs, .s, [.par 0, .par 1, .par 2, .par 3, .par 4]⟩,
  ⟨.tensmul, [.obj .tcrs .s true, .obj (.viewTDense .vec) .s true, .obj .tdense .s false], .tensmul_crs, .s, [.one, .par 0, .par 1, .zero, .par 2]⟩,
  ⟨.tensmul, [.scal .s, .obj .tcrs .s true, .obj (.viewTDense .vec) .s true, .scal .s, .obj .tdense .s false], .tensmul_crs, .s, [.par 0, .par 1, .par 2, .par 3, .par 4]⟩,
  ⟨.tensmul, [.obj .tcrs .s true, .obj (.viewTDense .vec) .s true, .obj (.viewTDense .vec) .s false], .tensmul_crs, .s, [.one, .par 0, .par 1, .zero, .par 2]⟩,
  ⟨.tensmul, [.scal .s, .obj .tcrs .s true, .obj (.viewTDense .vec) .s true, .scal .s, .obj (.viewTDense .vec) .s false], .tensmul_crs, .s, [.par 0, .par 1, .par 2, .par 3, .par 4]⟩,
  ⟨.tensmul, [.obj .tcrs .s true, .obj (.viewTDense .vec) .s true, .obj (.viewTDense .mat) .s false], .tensmul_crs, .s, [.one, .par 0, .par 1, .zero, .par 2]⟩,
  ⟨.tensmul, [.scal .s, .obj .tcrs .s true, .obj (.viewTDense .vec) .s true, .scal .s, .obj (.viewTDense .mat) .s false], .tensmul_crs, .s, [.par 0, .par 1, .par 2, .par 3, .par 4]⟩,
  ⟨.tensmul, [.obj .tcrs .s true, .obj (.viewTDense .vec) .s true, .obj (.viewTDense .ten) .s false], .tensmul_crs, .s, [.one, .par 0, .par 1, .zero, .par 2]⟩,
  ⟨.tensmul, [.scal .s, .obj .tcrs .s true, .obj (.viewTDense .vec) .s true, .scal .s, .obj (.viewTDense .ten) .s false], .tensmul_crs, .s, [.par 0, .par 1, .par 2, .par 3, .par 4]⟩,
  ⟨.tensmul, [.obj .tcrs .s true, .obj (.viewTDense .mat) .s true, .obj .tdense .s false], .tensmul_crs, .s, [.one, .par 0, .par 1, .zero, .par 2]⟩,
  ⟨.tensmul, [.scal .s, .obj .tcrs .s true, .obj (.viewTDense .mat) .s true, .scal .s, .obj .tdense .s false], .tensmul_crs, .s, [.par 0, .par 1, .par 2, .par 3, .par 4]⟩,
  ⟨.tensmul, [.obj .tcrs .s true, .obj (.viewTDense .mat) .s true, .obj (.viewTDense .vec) .s false], .tensmul_crs, .s, [.one, .par 0, .par 1, .zero, .par 2]⟩,
  ⟨.tensmul, [.scal .s, .obj .tcrs .s true, .obj (.viewTDense .mat) .s true, .scal .s, .obj (.viewTDense .vec) .s false], .tensmul_crs, .s, [.par 0, .par 1, .par 2, .par 3, .par 4]⟩,
  ⟨.tensmul, [.obj .tcrs .s true, .obj (.viewTDense .mat) .s true, .obj (.viewTDense .mat) .s false], .tensmul_crs, .s, [.one, .par 0, .par 1, .zero, .par 2]⟩,
  ⟨.tensmul, [.scal .s, .obj .tcrs .s true, .obj (.viewTDense .mat) .s true, .scal .s, .obj (.viewTDense .mat) .s false], .tensmul_crs, .s, [.par 0, .par 1, .par 2, .par 3, .par 4]⟩,
  ⟨.tensmul, [.obj .tcrs .s true, .obj (.viewTDense .mat) .s true, .obj (.viewTDense .ten) .s false], .tensmul_crs, .s, [.one, .par 0, .par 1, .zero, .par 2]⟩,
  ⟨.tensmul, [.scal .s, .obj .tcrs .s true, .obj (.viewTDense .mat) .s true, .scal .s, .obj (.viewTDense .ten) .s false], .tensmul_crs, .s, [.par 0, .par 1, .par 2, .par 3, .par 4]⟩,
  ⟨.tensmul, [.obj .tcrs .s true, .obj (.viewTDense .ten) .s true, .obj .tdense .s false], .tensmul_crs, .s, [.one, .par 0, .par 1, .zero, .par 2]⟩,
  ⟨.tensmul, [.scal .s, .obj .tcrs .s true, .obj (.viewTDense .ten) .s true, .scal .s, .obj .tdense .s false], .tensmul_crs, .s, [.par 0, .par 1, .par 2, .par 3, .par 4]⟩,
  ⟨.tensmul, [.obj .tcrs .s true, .obj (.viewTDense .ten) .s true, .obj (.viewTDense .vec) .s false], .tensmul_crs, .s, [.one, .par 0, .par 1, .zero, .par 2]⟩,
  ⟨.tensmul, [.scal .s, .obj .tcrs .s true, .obj (.viewTDense .ten) .s true, .scal .s, .obj (.viewTDense .vec) .s false], .tensmul_crs, .s, [.par 0, .par 1, .par 2, .par 3, .par 4]⟩,
  ⟨.tensmul, [.obj .tcrs .s true, .obj (.viewTDense .ten) .s true, .obj (.viewTDense .mat) .s false], .tensmul_crs, .s, [.one, .par 0, .par 1, .zero, .par 2]⟩,
  ⟨.tensmul, [.scal .s, .obj .tcrs .s true, .obj (.viewTDense .ten) .s true, .scal .s, .obj (.viewTDense .mat) .s false], .tensmul_crs, .s, [.par 0, .par 1, .par 2, .par 3, .par 4]⟩,
  ⟨.tensmul, [.obj .tcrs .s true, .obj (.viewTDense .ten) .s true, .obj (.viewTDense .ten) .s false], .tensmul_crs, .s, [.one, .par 0, .par 1, .zero, .par 2]⟩,
  ⟨.tensmul, [.scal .s, .obj .tcrs .s true, .obj (.viewTDense .ten) .s true, .scal .s, .obj (.viewTDense .ten) .s false], .tensmul_crs, .s, [.par 0, .par 1, .par 2, .par 3, .par 4]⟩]

/-- the product overloads of src/blas/tensor/tensmul/tensmul_blas.cpp (320 of them; 0 with a LinearOperator left out) -/
def tTensmul : List (List Overload) :=
  [tTensmul_0, tTensmul_1, tTensmul_2, tTensmul_3]

/-- all product overloads -/
def products : List Overload := (tMatvec ++ tMatmul ++ tTensvec ++ tTensmat ++ tMattens ++ tTensmul).flatten

end Verif.Product
