import Verif.Model.Diag

/-!
Generated by tools/diag_gen.py from /repo: the members diag_add, diag_sub, diag_mul, diag_div and the operators of their kernels. Do not edit.
-/

namespace Verif.Diag

/-- src/blas/matrix/diag_op/dense_diag_add.cpp:8-201 -/
def tDenseAdd : List Overload := [
  ⟨.add, .dense, .d, .scal .d, .dense, .add, .scal⟩,
  ⟨.add, (.viewDense .vec), .d, .scal .d, .dense, .add, .scal⟩,
  ⟨.add, (.viewDense .mat), .d, .scal .d, .dense, .add, .scal⟩,
  ⟨.add, (.viewDense .ten), .d, .scal .d, .dense, .add, .scal⟩,
  ⟨.add, .dense, .s, .scal .s, .dense, .add, .scal⟩,
  ⟨.add, (.viewDense .vec), .s, .scal .s, .dense, .add, .scal⟩,
  ⟨.add, (.viewDense .mat), .s, .scal .s, .dense, .add, .scal⟩,
  ⟨.add, (.viewDense .ten), .s, .scal .s, .dense, .add, .scal⟩,
  ⟨.add, .dense, .d, .obj .vector .d true, .dense, .add, .vec⟩,
  ⟨.add, .dense, .d, .obj (.view1D .vec) .d true, .dense, .add, .vec⟩,
  ⟨.add, .dense, .d, .obj (.view1D .mat) .d true, .dense, .add, .vec⟩,
  ⟨.add, .dense, .d, .obj (.view1D .ten) .d true, .dense, .add, .vec⟩,
  ⟨.add, (.viewDense .vec), .d, .obj .vector .d true, .dense, .add, .vec⟩,
  ⟨.add, (.viewDense .vec), .d, .obj (.view1D .vec) .d true, .dense, .add, .vec⟩,
  ⟨.add, (.viewDense .vec), .d, .obj (.view1D .mat) .d true, .dense, .add, .vec⟩,
  ⟨.add, (.viewDense .vec), .d, .obj (.view1D .ten) .d true, .dense, .add, .vec⟩,
  ⟨.add, (.viewDense .mat), .d, .obj .vector .d true, .dense, .add, .vec⟩,
  ⟨.add, (.viewDense .mat), .d, .obj (.view1D .vec) .d true, .dense, .add, .vec⟩,
  ⟨.add, (.viewDense .mat), .d, .obj (.view1D .mat) .d true, .dense, .add, .vec⟩,
  ⟨.add, (.viewDense .mat), .d, .obj (.view1D .ten) .d true, .dense, .add, .vec⟩,
  ⟨.add, (.viewDense .ten), .d, .obj .vector .d true, .dense, .add, .vec⟩,
  ⟨.add, (.viewDense .ten), .d, .obj (.view1D .vec) .d true, .dense, .add, .vec⟩,
  ⟨.add, (.viewDense .ten), .d, .obj (.view1D .mat) .d true, .dense, .add, .vec⟩,
  ⟨.add, (.viewDense .ten), .d, .obj (.view1D .ten) .d true, .dense, .add, .vec⟩,
  ⟨.add, .dense, .s, .obj .vector .s true, .dense, .add, .vec⟩,
  ⟨.add, .dense, .s, .obj (.view1D .vec) .s true, .dense, .add, .vec⟩,
  ⟨.add, .dense, .s, .obj (.view1D .mat) .s true, .dense, .add, .vec⟩,
  ⟨.add, .dense, .s, .obj (.view1D .ten) .s true, .dense, .add, .vec⟩,
  ⟨.add, (.viewDense .vec), .s, .obj .vector .s true, .dense, .add, .vec⟩,
  ⟨.add, (.viewDense .vec), .s, .obj (.view1D .vec) .s true, .dense, .add, .vec⟩,
  ⟨.add, (.viewDense .vec), .s, .obj (.view1D .mat) .s true, .dense, .add, .vec⟩,
  ⟨.add, (.viewDense .vec), .s, .obj (.view1D .ten) .s true, .dense, .add, .vec⟩,
  ⟨.add, (.viewDense .mat), .s, .obj .vector .s true, .dense, .add, .vec⟩,
  ⟨.add, (.viewDense .mat), .s, .obj (.view1D .vec) .s true, .dense, .add, .vec⟩,
  ⟨.add, (.viewDense .mat), .s, .obj (.view1D .mat) .s true, .dense, .add, .vec⟩,
  ⟨.add, (.viewDense .mat), .s, .obj (.view1D .ten) .s true, .dense, .add, .vec⟩,
  ⟨.add, (.viewDense .ten), .s, .obj .vector .s true, .dense, .add, .vec⟩,
  ⟨.add, (.viewDense .ten), .s, .obj (.view1D .vec) .s true, .dense, .add, .vec⟩,
  ⟨.add, (.viewDense .ten), .s, .obj (.view1D .mat) .s true, .dense, .add, .vec⟩,
  ⟨.add, (.viewDense .ten), .s, .obj (.view1D .ten) .s true, .dense, .add, .vec⟩]

/-- src/blas/matrix/diag_op/dense_diag_sub.cpp:8-201 -/
def tDenseSub : List Overload := [
  ⟨.sub, .dense, .d, .scal .d, .dense, .sub, .scal⟩,
  ⟨.sub, (.viewDense .vec), .d, .scal .d, .dense, .sub, .scal⟩,
  ⟨.sub, (.viewDense .mat), .d, .scal .d, .dense, .sub, .scal⟩,
  ⟨.sub, (.viewDense .ten), .d, .scal .d, .dense, .sub, .scal⟩,
  ⟨.sub, .dense, .s, .scal .s, .dense, .sub, .scal⟩,
  ⟨.sub, (.viewDense .vec), .s, .scal .s, .dense, .sub, .scal⟩,
  ⟨.sub, (.viewDense .mat), .s, .scal .s, .dense, .sub, .scal⟩,
  ⟨.sub, (.viewDense .ten), .s, .scal .s, .dense, .sub, .scal⟩,
  ⟨.sub, .dense, .d, .obj .vector .d true, .dense, .sub, .vec⟩,
  ⟨.sub, .dense, .d, .obj (.view1D .vec) .d true, .dense, .sub, .vec⟩,
  ⟨.sub, .dense, .d, .obj (.view1D .mat) .d true, .dense, .sub, .vec⟩,
  ⟨.sub, .dense, .d, .obj (.view1D .ten) .d true, .dense, .sub, .vec⟩,
  ⟨.sub, (.viewDense .vec), .d, .obj .vector .d true, .dense, .sub, .vec⟩,
  ⟨.sub, (.viewDense .vec), .d, .obj (.view1D .vec) .d true, .dense, .sub, .vec⟩,
  ⟨.sub, (.viewDense .vec), .d, .obj (.view1D .mat) .d true, .dense, .sub, .vec⟩,
  ⟨.sub, (.viewDense .vec), .d, .obj (.view1D .ten) .d true, .dense, .sub, .vec⟩,
  ⟨.sub, (.viewDense .mat), .d, .obj .vector .d true, .dense, .sub, .vec⟩,
  ⟨.sub, (.viewDense .mat), .d, .obj (.view1D .vec) .d true, .dense, .sub, .vec⟩,
  ⟨.sub, (.viewDense .mat), .d, .obj (.view1D .mat) .d true, .dense, .sub, .vec⟩,
  ⟨.sub, (.viewDense .mat), .d, .obj (.view1D .ten) .d true, .dense, .sub, .vec⟩,
  ⟨.sub, (.viewDense .ten), .d, .obj .vector .d true, .dense, .sub, .vec⟩,
  ⟨.sub, (.viewDense .ten), .d, .obj (.view1D .vec) .d true, .dense, .sub, .vec⟩,
  ⟨.sub, (.viewDense .ten), .d, .obj (.view1D .mat) .d true, .dense, .sub, .vec⟩,
  ⟨.sub, (.viewDense .ten), .d, .obj (.view1D .ten) .d true, .dense, .sub, .vec⟩,
  ⟨.sub, .dense, .s, .obj .vector .s true, .dense, .sub, .vec⟩,
  ⟨.sub, .dense, .s, .obj (.view1D .vec) .s true, .dense, .sub, .vec⟩,
  ⟨.sub, .dense, .s, .obj (.view1D .mat) .s true, .dense, .sub, .vec⟩,
  ⟨.sub, .dense, .s, .obj (.view1D .ten) .s true, .dense, .sub, .vec⟩,
  ⟨.sub, (.viewDense .vec), .s, .obj .vector .s true, .dense, .sub, .vec⟩,
  ⟨.sub, (.viewDense .vec), .s, .obj (.view1D .vec) .s true, .dense, .sub, .vec⟩,
  ⟨.sub, (.viewDense .vec), .s, .obj (.view1D .mat) .s true, .dense, .sub, .vec⟩,
  ⟨.sub, (.viewDense .vec), .s, .obj (.view1D .ten) .s true, .dense, .sub, .vec⟩,
  ⟨.sub, (.viewDense .mat), .s, .obj .vector .s true, .dense, .sub, .vec⟩,
  ⟨.sub, (.viewDense .mat), .s, .obj (.view1D .vec) .s true, .dense, .sub, .vec⟩,
  ⟨.sub, (.viewDense .mat), .s, .obj (.view1D .mat) .s true, .dense, .sub, .vec⟩,
  ⟨.sub, (.viewDense .mat), .s, .obj (.view1D .ten) .s true, .dense, .sub, .vec⟩,
  ⟨.sub, (.viewDense .ten), .s, .obj .vector .s true, .dense, .sub, .vec⟩,
  ⟨.sub, (.viewDense .ten), .s, .obj (.view1D .vec) .s true, .dense, .sub, .vec⟩,
  ⟨.sub, (.viewDense .ten), .s, .obj (.view1D .mat) .s true, .dense, .sub, .vec⟩,
  ⟨.sub, (.viewDense .ten), .s, .obj (.view1D .ten) .s true, .dense, .sub, .vec⟩]

/-- src/blas/matrix/diag_op/dense_diag_mul.cpp:8-201 -/
def tDenseMul : List Overload := [
  ⟨.mul, .dense, .d, .scal .d, .dense, .mul, .scal⟩,
  ⟨.mul, (.viewDense .vec), .d, .scal .d, .dense, .mul, .scal⟩,
  ⟨.mul, (.viewDense .mat), .d, .scal .d, .dense, .mul, .scal⟩,
  ⟨.mul, (.viewDense .ten), .d, .scal .d, .dense, .mul, .scal⟩,
  ⟨.mul, .dense, .s, .scal .s, .dense, .mul, .scal⟩,
  ⟨.mul, (.viewDense .vec), .s, .scal .s, .dense, .mul, .scal⟩,
  ⟨.mul, (.viewDense .mat), .s, .scal .s, .dense, .mul, .scal⟩,
  ⟨.mul, (.viewDense .ten), .s, .scal .s, .dense, .mul, .scal⟩,
  ⟨.mul, .dense, .d, .obj .vector .d true, .dense, .mul, .vec⟩,
  ⟨.mul, .dense, .d, .obj (.view1D .vec) .d true, .dense, .mul, .vec⟩,
  ⟨.mul, .dense, .d, .obj (.view1D .mat) .d true, .dense, .mul, .vec⟩,
  ⟨.mul, .dense, .d, .obj (.view1D .ten) .d true, .dense, .mul, .vec⟩,
  ⟨.mul, (.viewDense .vec), .d, .obj .vector .d true, .dense, .mul, .vec⟩,
  ⟨.mul, (.viewDense .vec), .d, .obj (.view1D .vec) .d true, .dense, .mul, .vec⟩,
  ⟨.mul, (.viewDense .vec), .d, .obj (.view1D .mat) .d true, .dense, .mul, .vec⟩,
  ⟨.mul, (.viewDense .vec), .d, .obj (.view1D .ten) .d true, .dense, .mul, .vec⟩,
  ⟨.mul, (.viewDense .mat), .d, .obj .vector .d true, .dense, .mul, .vec⟩,
  ⟨.mul, (.viewDense .mat), .d, .obj (.view1D .vec) .d true, .dense, .mul, .vec⟩,
  ⟨.mul, (.viewDense .mat), .d, .obj (.view1D .mat) .d true, .dense, .mul, .vec⟩,
  ⟨.mul, (.viewDense .mat), .d, .obj (.view1D .ten) .d true, .dense, .mul, .vec⟩,
  ⟨.mul, (.viewDense .ten), .d, .obj .vector .d true, .dense, .mul, .vec⟩,
  ⟨.mul, (.viewDense .ten), .d, .obj (.view1D .vec) .d true, .dense, .mul, .vec⟩,
  ⟨.mul, (.viewDense .ten), .d, .obj (.view1D .mat) .d true, .dense, .mul, .vec⟩,
  ⟨.mul, (.viewDense .ten), .d, .obj (.view1D .ten) .d true, .dense, .mul, .vec⟩,
  ⟨.mul, .dense, .s, .obj .vector .s true, .dense, .mul, .vec⟩,
  ⟨.mul, .dense, .s, .obj (.view1D .vec) .s true, .dense, .mul, .vec⟩,
  ⟨.mul, .dense, .s, .obj (.view1D .mat) .s true, .dense, .mul, .vec⟩,
  ⟨.mul, .dense, .s, .obj (.view1D .ten) .s true, .dense, .mul, .vec⟩,
  ⟨.mul, (.viewDense .vec), .s, .obj .vector .s true, .dense, .mul, .vec⟩,
  ⟨.mul, (.viewDense .vec), .s, .obj (.view1D .vec) .s true, .dense, .mul, .vec⟩,
  ⟨.mul, (.viewDense .vec), .s, .obj (.view1D .mat) .s true, .dense, .mul, .vec⟩,
  ⟨.mul, (.viewDense .vec), .s, .obj (.view1D .ten) .s true, .dense, .mul, .vec⟩,
  ⟨.mul, (.viewDense .mat), .s, .obj .vector .s true, .dense, .mul, .vec⟩,
  ⟨.mul, (.viewDense .mat), .s, .obj (.view1D .vec) .s true, .dense, .mul, .vec⟩,
  ⟨.mul, (.viewDense .mat), .s, .obj (.view1D .mat) .s true, .dense, .mul, .vec⟩,
  ⟨.mul, (.viewDense .mat), .s, .obj (.view1D .ten) .s true, .dense, .mul, .vec⟩,
  ⟨.mul, (.viewDense .ten), .s, .obj .vector .s true, .dense, .mul, .vec⟩,
  ⟨.mul, (.viewDense .ten), .s, .obj (.view1D .vec) .s true, .dense, .mul, .vec⟩,
  ⟨.mul, (.viewDense .ten), .s, .obj (.view1D .mat) .s true, .dense, .mul, .vec⟩,
  ⟨.mul, (.viewDense .ten), .s, .obj (.view1D .ten) .s true, .dense, .mul, .vec⟩]

/-- src/blas/matrix/diag_op/dense_diag_div.cpp:8-201 -/
def tDenseDiv : List Overload := [
  ⟨.div, .dense, .d, .scal .d, .dense, .div, .scal⟩,
  ⟨.div, (.viewDense .vec), .d, .scal .d, .dense, .div, .scal⟩,
  ⟨.div, (.viewDense .mat), .d, .scal .d, .dense, .div, .scal⟩,
  ⟨.div, (.viewDense .ten), .d, .scal .d, .dense, .div, .scal⟩,
  ⟨.div, .dense, .s, .scal .s, .dense, .div, .scal⟩,
  ⟨.div, (.viewDense .vec), .s, .scal .s, .dense, .div, .scal⟩,
  ⟨.div, (.viewDense .mat), .s, .scal .s, .dense, .div, .scal⟩,
  ⟨.div, (.viewDense .ten), .s, .scal .s, .dense, .div, .scal⟩,
  ⟨.div, .dense, .d, .obj .vector .d true, .dense, .div, .vec⟩,
  ⟨.div, .dense, .d, .obj (.view1D .vec) .d true, .dense, .div, .vec⟩,
  ⟨.div, .dense, .d, .obj (.view1D .mat) .d true, .dense, .div, .vec⟩,
  ⟨.div, .dense, .d, .obj (.view1D .ten) .d true, .dense, .div, .vec⟩,
  ⟨.div, (.viewDense .vec), .d, .obj .vector .d true, .dense, .div, .vec⟩,
  ⟨.div, (.viewDense .vec), .d, .obj (.view1D .vec) .d true, .dense, .div, .vec⟩,
  ⟨.div, (.viewDense .vec), .d, .obj (.view1D .mat) .d true, .dense, .div, .vec⟩,
  ⟨.div, (.viewDense .vec), .d, .obj (.view1D .ten) .d true, .dense, .div, .vec⟩,
  ⟨.div, (.viewDense .mat), .d, .obj .vector .d true, .dense, .div, .vec⟩,
  ⟨.div, (.viewDense .mat), .d, .obj (.view1D .vec) .d true, .dense, .div, .vec⟩,
  ⟨.div, (.viewDense .mat), .d, .obj (.view1D .mat) .d true, .dense, .div, .vec⟩,
  ⟨.div, (.viewDense .mat), .d, .obj (.view1D .ten) .d true, .dense, .div, .vec⟩,
  ⟨.div, (.viewDense .ten), .d, .obj .vector .d true, .dense, .div, .vec⟩,
  ⟨.div, (.viewDense .ten), .d, .obj (.view1D .vec) .d true, .dense, .div, .vec⟩,
  ⟨.div, (.viewDense .ten), .d, .obj (.view1D .mat) .d true, .dense, .div, .vec⟩,
  ⟨.div, (.viewDense .ten), .d, .obj (.view1D .ten) .d true, .dense, .div, .vec⟩,
  ⟨.div, .dense, .s, .obj .vector .s true, .dense, .div, .vec⟩,
  ⟨.div, .dense, .s, .obj (.view1D .vec) .s true, .dense, .div, .vec⟩,
  ⟨.div, .dense, .s, .obj (.view1D .mat) .s true, .dense, .div, .vec⟩,
  ⟨.div, .dense, .s, .obj (.view1D .ten) .s true, .dense, .div, .vec⟩,
  ⟨.div, (.viewDense .vec), .s, .obj .vector .s true, .dense, .div, .vec⟩,
  ⟨.div, (.viewDense .vec), .s, .obj (.view1D .vec) .s true, .dense, .div, .vec⟩,
  ⟨.div, (.viewDense .vec), .s, .obj (.view1D .mat) .s true, .dense, .div, .vec⟩,
  ⟨.div, (.viewDense .vec), .s, .obj (.view1D .ten) .s true, .dense, .div, .vec⟩,
  ⟨.div, (.viewDense .mat), .s, .obj .vector .s true, .dense, .div, .vec⟩,
  ⟨.div, (.viewDense .mat), .s, .obj (.view1D .vec) .s true, .dense, .div, .vec⟩,
  ⟨.div, (.viewDense .mat), .s, .obj (.view1D .mat) .s true, .dense, .div, .vec⟩,
  ⟨.div, (.viewDense .mat), .s, .obj (.view1D .ten) .s true, .dense, .div, .vec⟩,
  ⟨.div, (.viewDense .ten), .s, .obj .vector .s true, .dense, .div, .vec⟩,
  ⟨.div, (.viewDense .ten), .s, .obj (.view1D .vec) .s true, .dense, .div, .vec⟩,
  ⟨.div, (.viewDense .ten), .s, .obj (.view1D .mat) .s true, .dense, .div, .vec⟩,
  ⟨.div, (.viewDense .ten), .s, .obj (.view1D .ten) .s true, .dense, .div, .vec⟩]

/-- src/blas/matrix/diag_op/crs_diag_add.cpp:9-58 -/
def tCrsAdd : List Overload := [
  ⟨.add, .crs, .d, .scal .d, .crs, .add, .scal⟩,
  ⟨.add, .crs, .s, .scal .s, .crs, .add, .scal⟩,
  ⟨.add, .crs, .d, .obj .vector .d true, .crs, .add, .vec⟩,
  ⟨.add, .crs, .s, .obj .vector .s true, .crs, .add, .vec⟩,
  ⟨.add, .crs, .d, .obj (.view1D .vec) .d true, .crs, .add, .vec⟩,
  ⟨.add, .crs, .s, .obj (.view1D .vec) .s true, .crs, .add, .vec⟩,
  ⟨.add, .crs, .d, .obj (.view1D .mat) .d true, .crs, .add, .vec⟩,
  ⟨.add, .crs, .s, .obj (.view1D .mat) .s true, .crs, .add, .vec⟩,
  ⟨.add, .crs, .d, .obj (.view1D .ten) .d true, .crs, .add, .vec⟩,
  ⟨.add, .crs, .s, .obj (.view1D .ten) .s true, .crs, .add, .vec⟩]

/-- src/blas/matrix/diag_op/crs_diag_sub.cpp:9-58 -/
def tCrsSub : List Overload := [
  ⟨.sub, .crs, .d, .scal .d, .crs, .sub, .scal⟩,
  ⟨.sub, .crs, .s, .scal .s, .crs, .sub, .scal⟩,
  ⟨.sub, .crs, .d, .obj .vector .d true, .crs, .sub, .vec⟩,
  ⟨.sub, .crs, .s, .obj .vector .s true, .crs, .sub, .vec⟩,
  ⟨.sub, .crs, .d, .obj (.view1D .vec) .d true, .crs, .sub, .vec⟩,
  ⟨.sub, .crs, .s, .obj (.view1D .vec) .s true, .crs, .sub, .vec⟩,
  ⟨.sub, .crs, .d, .obj (.view1D .mat) .d true, .crs, .sub, .vec⟩,
  ⟨.sub, .crs, .s, .obj (.view1D .mat) .s true, .crs, .sub, .vec⟩,
  ⟨.sub, .crs, .d, .obj (.view1D .ten) .d true, .crs, .sub, .vec⟩,
  ⟨.sub, .crs, .s, .obj (.view1D .ten) .s true, .crs, .sub, .vec⟩]

/-- src/blas/matrix/diag_op/crs_diag_mul.cpp:9-58 -/
def tCrsMul : List Overload := [
  ⟨.mul, .crs, .d, .scal .d, .crs, .mul, .scal⟩,
  ⟨.mul, .crs, .s, .scal .s, .crs, .mul, .scal⟩,
  ⟨.mul, .crs, .d, .obj .vector .d true, .crs, .mul, .vec⟩,
  ⟨.mul, .crs, .s, .obj .vector .s true, .crs, .mul, .vec⟩,
  ⟨.mul, .crs, .d, .obj (.view1D .vec) .d true, .crs, .mul, .vec⟩,
  ⟨.mul, .crs, .s, .obj (.view1D .vec) .s true, .crs, .mul, .vec⟩,
  ⟨.mul, .crs, .d, .obj (.view1D .mat) .d true, .crs, .mul, .vec⟩,
  ⟨.mul, .crs, .s, .obj (.view1D .mat) .s true, .crs, .mul, .vec⟩,
  ⟨.mul, .crs, .d, .obj (.view1D .ten) .d true, .crs, .mul, .vec⟩,
  ⟨.mul, .crs, .s, .obj (.view1D .ten) .s true, .crs, .mul, .vec⟩]

/-- src/blas/matrix/diag_op/crs_diag_div.cpp:9-58 -/
def tCrsDiv : List Overload := [
  ⟨.div, .crs, .d, .scal .d, .crs, .div, .scal⟩,
  ⟨.div, .crs, .s, .scal .s, .crs, .div, .scal⟩,
  ⟨.div, .crs, .d, .obj .vector .d true, .crs, .div, .vec⟩,
  ⟨.div, .crs, .s, .obj .vector .s true, .crs, .div, .vec⟩,
  ⟨.div, .crs, .d, .obj (.view1D .vec) .d true, .crs, .div, .vec⟩,
  ⟨.div, .crs, .s, .obj (.view1D .vec) .s true, .crs, .div, .vec⟩,
  ⟨.div, .crs, .d, .obj (.view1D .mat) .d true, .crs, .div, .vec⟩,
  ⟨.div, .crs, .s, .obj (.view1D .mat) .s true, .crs, .div, .vec⟩,
  ⟨.div, .crs, .d, .obj (.view1D .ten) .d true, .crs, .div, .vec⟩,
  ⟨.div, .crs, .s, .obj (.view1D .ten) .s true, .crs, .div, .vec⟩]

/-- src/blas/tensor/diag_op/tensor_dense_diag_add.cpp:8-205 -/
def tTenAdd : List Overload := [
  ⟨.add, .tdense, .d, .scal .d, .tdense, .add, .scal⟩,
  ⟨.add, (.viewTDense .vec), .d, .scal .d, .tdense, .add, .scal⟩,
  ⟨.add, (.viewTDense .mat), .d, .scal .d, .tdense, .add, .scal⟩,
  ⟨.add, (.viewTDense .ten), .d, .scal .d, .tdense, .add, .scal⟩,
  ⟨.add, .tdense, .s, .scal .s, .tdense, .add, .scal⟩,
  ⟨.add, (.viewTDense .vec), .s, .scal .s, .tdense, .add, .scal⟩,
  ⟨.add, (.viewTDense .mat), .s, .scal .s, .tdense, .add, .scal⟩,
  ⟨.add, (.viewTDense .ten), .s, .scal .s, .tdense, .add, .scal⟩,
  ⟨.add, .tdense, .d, .obj .vector .d true, .tdense, .add, .vec⟩,
  ⟨.add, .tdense, .d, .obj (.view1D .vec) .d true, .tdense, .add, .vec⟩,
  ⟨.add, .tdense, .d, .obj (.view1D .mat) .d true, .tdense, .add, .vec⟩,
  ⟨.add, .tdense, .d, .obj (.view1D .ten) .d true, .tdense, .add, .vec⟩,
  ⟨.add, (.viewTDense .vec), .d, .obj .vector .d true, .tdense, .add, .vec⟩,
  ⟨.add, (.viewTDense .vec), .d, .obj (.view1D .vec) .d true, .tdense, .add, .vec⟩,
  ⟨.add, (.viewTDense .vec), .d, .obj (.view1D .mat) .d true, .tdense, .add, .vec⟩,
  ⟨.add, (.viewTDense .vec), .d, .obj (.view1D .ten) .d true, .tdense, .add, .vec⟩,
  ⟨.add, (.viewTDense .mat), .d, .obj .vector .d true, .tdense, .add, .vec⟩,
  ⟨.add, (.viewTDense .mat), .d, .obj (.view1D .vec) .d true, .tdense, .add, .vec⟩,
  ⟨.add, (.viewTDense .mat), .d, .obj (.view1D .mat) .d true, .tdense, .add, .vec⟩,
  ⟨.add, (.viewTDense .mat), .d, .obj (.view1D .ten) .d true, .tdense, .add, .vec⟩,
  ⟨.add, (.viewTDense .ten), .d, .obj .vector .d true, .tdense, .add, .vec⟩,
  ⟨.add, (.viewTDense .ten), .d, .obj (.view1D .vec) .d true, .tdense, .add, .vec⟩,
  ⟨.add, (.viewTDense .ten), .d, .obj (.view1D .mat) .d true, .tdense, .add, .vec⟩,
  ⟨.add, (.viewTDense .ten), .d, .obj (.view1D .ten) .d true, .tdense, .add, .vec⟩,
  ⟨.add, .tdense, .s, .obj .vector .s true, .tdense, .add, .vec⟩,
  ⟨.add, .tdense, .s, .obj (.view1D .vec) .s true, .tdense, .add, .vec⟩,
  ⟨.add, .tdense, .s, .obj (.view1D .mat) .s true, .tdense, .add, .vec⟩,
  ⟨.add, .tdense, .s, .obj (.view1D .ten) .s true, .tdense, .add, .vec⟩,
  ⟨.add, (.viewTDense .vec), .s, .obj .vector .s true, .tdense, .add, .vec⟩,
  ⟨.add, (.viewTDense .vec), .s, .obj (.view1D .vec) .s true, .tdense, .add, .vec⟩,
  ⟨.add, (.viewTDense .vec), .s, .obj (.view1D .mat) .s true, .tdense, .add, .vec⟩,
  ⟨.add, (.viewTDense .vec), .s, .obj (.view1D .ten) .s true, .tdense, .add, .vec⟩,
  ⟨.add, (.viewTDense .mat), .s, .obj .vector .s true, .tdense, .add, .vec⟩,
  ⟨.add, (.viewTDense .mat), .s, .obj (.view1D .vec) .s true, .tdense, .add, .vec⟩,
  ⟨.add, (.viewTDense .mat), .s, .obj (.view1D .mat) .s true, .tdense, .add, .vec⟩,
  ⟨.add, (.viewTDense .mat), .s, .obj (.view1D .ten) .s true, .tdense, .add, .vec⟩,
  ⟨.add, (.viewTDense .ten), .s, .obj .vector .s true, .tdense, .add, .vec⟩,
  ⟨.add, (.viewTDense .ten), .s, .obj (.view1D .vec) .s true, .tdense, .add, .vec⟩,
  ⟨.add, (.viewTDense .ten), .s, .obj (.view1D .mat) .s true, .tdense, .add, .vec⟩,
  ⟨.add, (.viewTDense .ten), .s, .obj (.view1D .ten) .s true, .tdense, .add, .vec⟩]

/-- src/blas/tensor/diag_op/tensor_dense_diag_sub.cpp:8-205 -/
def tTenSub : List Overload := [
  ⟨.sub, .tdense, .d, .scal .d, .tdense, .sub, .scal⟩,
  ⟨.sub, (.viewTDense .vec), .d, .scal .d, .tdense, .sub, .scal⟩,
  ⟨.sub, (.viewTDense .mat), .d, .scal .d, .tdense, .sub, .scal⟩,
  ⟨.sub, (.viewTDense .ten), .d, .scal .d, .tdense, .sub, .scal⟩,
  ⟨.sub, .tdense, .s, .scal .s, .tdense, .sub, .scal⟩,
  ⟨.sub, (.viewTDense .vec), .s, .scal .s, .tdense, .sub, .scal⟩,
  ⟨.sub, (.viewTDense .mat), .s, .scal .s, .tdense, .sub, .scal⟩,
  ⟨.sub, (.viewTDense .ten), .s, .scal .s, .tdense, .sub, .scal⟩,
  ⟨.sub, .tdense, .d, .obj .vector .d true, .tdense, .sub, .vec⟩,
  ⟨.sub, .tdense, .d, .obj (.view1D .vec) .d true, .tdense, .sub, .vec⟩,
  ⟨.sub, .tdense, .d, .obj (.view1D .mat) .d true, .tdense, .sub, .vec⟩,
  ⟨.sub, .tdense, .d, .obj (.view1D .ten) .d true, .tdense, .sub, .vec⟩,
  ⟨.sub, (.viewTDense .vec), .d, .obj .vector .d true, .tdense, .sub, .vec⟩,
  ⟨.sub, (.viewTDense .vec), .d, .obj (.view1D .vec) .d true, .tdense, .sub, .vec⟩,
  ⟨.sub, (.viewTDense .vec), .d, .obj (.view1D .mat) .d true, .tdense, .sub, .vec⟩,
  ⟨.sub, (.viewTDense .vec), .d, .obj (.view1D .ten) .d true, .tdense, .sub, .vec⟩,
  ⟨.sub, (.viewTDense .mat), .d, .obj .vector .d true, .tdense, .sub, .vec⟩,
  ⟨.sub, (.viewTDense .mat), .d, .obj (.view1D .vec) .d true, .tdense, .sub, .vec⟩,
  ⟨.sub, (.viewTDense .mat), .d, .obj (.view1D .mat) .d true, .tdense, .sub, .vec⟩,
  ⟨.sub, (.viewTDense .mat), .d, .obj (.view1D .ten) .d true, .tdense, .sub, .vec⟩,
  ⟨.sub, (.viewTDense .ten), .d, .obj .vector .d true, .tdense, .sub, .vec⟩,
  ⟨.sub, (.viewTDense .ten), .d, .obj (.view1D .vec) .d true, .tdense, .sub, .vec⟩,
  ⟨.sub, (.viewTDense .ten), .d, .obj (.view1D .mat) .d true, .tdense, .sub, .vec⟩,
  ⟨.sub, (.viewTDense .ten), .d, .obj (.view1D .ten) .d true, .tdense, .sub, .vec⟩,
  ⟨.sub, .tdense, .s, .obj .vector .s true, .tdense, .sub, .vec⟩,
  ⟨.sub, .tdense, .s, .obj (.view1D .vec) .s true, .tdense, .sub, .vec⟩,
  ⟨.sub, .tdense, .s, .obj (.view1D .mat) .s true, .tdense, .sub, .vec⟩,
  ⟨.sub, .tdense, .s, .obj (.view1D .ten) .s true, .tdense, .sub, .vec⟩,
  ⟨.sub, (.viewTDense .vec), .s, .obj .vector .s true, .tdense, .sub, .vec⟩,
  ⟨.sub, (.viewTDense .vec), .s, .obj (.view1D .vec) .s true, .tdense, .sub, .vec⟩,
  ⟨.sub, (.viewTDense .vec), .s, .obj (.view1D .mat) .s true, .tdense, .sub, .vec⟩,
  ⟨.sub, (.viewTDense .vec), .s, .obj (.view1D .ten) .s true, .tdense, .sub, .vec⟩,
  ⟨.sub, (.viewTDense .mat), .s, .obj .vector .s true, .tdense, .sub, .vec⟩,
  ⟨.sub, (.viewTDense .mat), .s, .obj (.view1D .vec) .s true, .tdense, .sub, .vec⟩,
  ⟨.sub, (.viewTDense .mat), .s, .obj (.view1D .mat) .s true, .tdense, .sub, .vec⟩,
  ⟨.sub, (.viewTDense .mat), .s, .obj (.view1D .ten) .s true, .tdense, .sub, .vec⟩,
  ⟨.sub, (.viewTDense .ten), .s, .obj .vector .s true, .tdense, .sub, .vec⟩,
  ⟨.sub, (.viewTDense .ten), .s, .obj (.view1D .vec) .s true, .tdense, .sub, .vec⟩,
  ⟨.sub, (.viewTDense .ten), .s, .obj (.view1D .mat) .s true, .tdense, .sub, .vec⟩,
  ⟨.sub, (.viewTDense .ten), .s, .obj (.view1D .ten) .s true, .tdense, .sub, .vec⟩]

/-- src/blas/tensor/diag_op/tensor_dense_diag_mul.cpp:8-205 -/
def tTenMul : List Overload := [
  ⟨.mul, .tdense, .d, .scal .d, .tdense, .mul, .scal⟩,
  ⟨.mul, (.viewTDense .vec), .d, .scal .d, .tdense, .mul, .scal⟩,
  ⟨.mul, (.viewTDense .mat), .d, .scal .d, .tdense, .mul, .scal⟩,
  ⟨.mul, (.viewTDense .ten), .d, .scal .d, .tdense, .mul, .scal⟩,
  ⟨.mul, .tdense, .s, .scal .s, .tdense, .mul, .scal⟩,
  ⟨.mul, (.viewTDense .vec), .s, .scal .s, .tdense, .mul, .scal⟩,
  ⟨.mul, (.viewTDense .mat), .s, .scal .s, .tdense, .mul, .scal⟩,
  ⟨.mul, (.viewTDense .ten), .s, .scal .s, .tdense, .mul, .scal⟩,
  ⟨.mul, .tdense, .d, .obj .vector .d true, .tdense, .mul, .vec⟩,
  ⟨.mul, .tdense, .d, .obj (.view1D .vec) .d true, .tdense, .mul, .vec⟩,
  ⟨.mul, .tdense, .d, .obj (.view1D .mat) .d true, .tdense, .mul, .vec⟩,
  ⟨.mul, .tdense, .d, .obj (.view1D .ten) .d true, .tdense, .mul, .vec⟩,
  ⟨.mul, (.viewTDense .vec), .d, .obj .vector .d true, .tdense, .mul, .vec⟩,
  ⟨.mul, (.viewTDense .vec), .d, .obj (.view1D .vec) .d true, .tdense, .mul, .vec⟩,
  ⟨.mul, (.viewTDense .vec), .d, .obj (.view1D .mat) .d true, .tdense, .mul, .vec⟩,
  ⟨.mul, (.viewTDense .vec), .d, .obj (.view1D .ten) .d true, .tdense, .mul, .vec⟩,
  ⟨.mul, (.viewTDense .mat), .d, .obj .vector .d true, .tdense, .mul, .vec⟩,
  ⟨.mul, (.viewTDense .mat), .d, .obj (.view1D .vec) .d true, .tdense, .mul, .vec⟩,
  ⟨.mul, (.viewTDense .mat), .d, .obj (.view1D .mat) .d true, .tdense, .mul, .vec⟩,
  ⟨.mul, (.viewTDense .mat), .d, .obj (.view1D .ten) .d true, .tdense, .mul, .vec⟩,
  ⟨.mul, (.viewTDense .ten), .d, .obj .vector .d true, .tdense, .mul, .vec⟩,
  ⟨.mul, (.viewTDense .ten), .d, .obj (.view1D .vec) .d true, .tdense, .mul, .vec⟩,
  ⟨.mul, (.viewTDense .ten), .d, .obj (.view1D .mat) .d true, .tdense, .mul, .vec⟩,
  ⟨.mul, (.viewTDense .ten), .d, .obj (.view1D .ten) .d true, .tdense, .mul, .vec⟩,
  ⟨.mul, .tdense, .s, .obj .vector .s true, .tdense, .mul, .vec⟩,
  ⟨.mul, .tdense, .s, .obj (.view1D .vec) .s true, .tdense, .mul, .vec⟩,
  ⟨.mul, .tdense, .s, .obj (.view1D .mat) .s true, .tdense, .mul, .vec⟩,
  ⟨.mul, .tdense, .s, .obj (.view1D .ten) .s true, .tdense, .mul, .vec⟩,
  ⟨.mul, (.viewTDense .vec), .s, .obj .vector .s true, .tdense, .mul, .vec⟩,
  ⟨.mul, (.viewTDense .vec), .s, .obj (.view1D .vec) .s true, .tdense, .mul, .vec⟩,
  ⟨.mul, (.viewTDense .vec), .s, .obj (.view1D .mat) .s true, .tdense, .mul, .vec⟩,
  ⟨.mul, (.viewTDense .vec), .s, .obj (.view1D .ten) .s true, .tdense, .mul, .vec⟩,
  ⟨.mul, (.viewTDense .mat), .s, .obj .vector .s true, .tdense, .mul, .vec⟩,
  ⟨.mul, (.viewTDense .mat), .s, .obj (.view1D .vec) .s true, .tdense, .mul, .vec⟩,
  ⟨.mul, (.viewTDense .mat), .s, .obj (.view1D .mat) .s true, .tdense, .mul, .vec⟩,
  ⟨.mul, (.viewTDense .mat), .s, .obj (.view1D .ten) .s true, .tdense, .mul, .vec⟩,
  ⟨.mul, (.viewTDense .ten), .s, .obj .vector .s true, .tdense, .mul, .vec⟩,
  ⟨.mul, (.viewTDense .ten), .s, .obj (.view1D .vec) .s true, .tdense, .mul, .vec⟩,
  ⟨.mul, (.viewTDense .ten), .s, .obj (.view1D .mat) .s true, .tdense, .mul, .vec⟩,
  ⟨.mul, (.viewTDense .ten), .s, .obj (.view1D .ten) .s true, .tdense, .mul, .vec⟩]

/-- src/blas/tensor/diag_op/tensor_dense_diag_div.cpp:8-205 -/
def tTenDiv : List Overload := [
  ⟨.div, .tdense, .d, .scal .d, .tdense, .div, .scal⟩,
  ⟨.div, (.viewTDense .vec), .d, .scal .d, .tdense, .div, .scal⟩,
  ⟨.div, (.viewTDense .mat), .d, .scal .d, .tdense, .div, .scal⟩,
  ⟨.div, (.viewTDense .ten), .d, .scal .d, .tdense, .div, .scal⟩,
  ⟨.div, .tdense, .s, .scal .s, .tdense, .div, .scal⟩,
  ⟨.div, (.viewTDense .vec), .s, .scal .s, .tdense, .div, .scal⟩,
  ⟨.div, (.viewTDense .mat), .s, .scal .s, .tdense, .div, .scal⟩,
  ⟨.div, (.viewTDense .ten), .s, .scal .s, .tdense, .div, .scal⟩,
  ⟨.div, .tdense, .d, .obj .vector .d true, .tdense, .div, .vec⟩,
  ⟨.div, .tdense, .d, .obj (.view1D .vec) .d true, .tdense, .div, .vec⟩,
  ⟨.div, .tdense, .d, .obj (.view1D .mat) .d true, .tdense, .div, .vec⟩,
  ⟨.div, .tdense, .d, .obj (.view1D .ten) .d true, .tdense, .div, .vec⟩,
  ⟨.div, (.viewTDense .vec), .d, .obj .vector .d true, .tdense, .div, .vec⟩,
  ⟨.div, (.viewTDense .vec), .d, .obj (.view1D .vec) .d true, .tdense, .div, .vec⟩,
  ⟨.div, (.viewTDense .vec), .d, .obj (.view1D .mat) .d true, .tdense, .div, .vec⟩,
  ⟨.div, (.viewTDense .vec), .d, .obj (.view1D .ten) .d true, .tdense, .div, .vec⟩,
  ⟨.div, (.viewTDense .mat), .d, .obj .vector .d true, .tdense, .div, .vec⟩,
  ⟨.div, (.viewTDense .mat), .d, .obj (.view1D .vec) .d true, .tdense, .div, .vec⟩,
  ⟨.div, (.viewTDense .mat), .d, .obj (.view1D .mat) .d true, .tdense, .div, .vec⟩,
  ⟨.div, (.viewTDense .mat), .d, .obj (.view1D .ten) .d true, .tdense, .div, .vec⟩,
  ⟨.div, (.viewTDense .ten), .d, .obj .vector .d true, .tdense, .div, .vec⟩,
  ⟨.div, (.viewTDense .ten), .d, .obj (.view1D .vec) .d true, .tdense, .div, .vec⟩,
  ⟨.div, (.viewTDense .ten), .d, .obj (.view1D .mat) .d true, .tdense, .div, .vec⟩,
  ⟨.div, (.viewTDense .ten), .d, .obj (.view1D .ten) .d true, .tdense, .div, .vec⟩,
  ⟨.div, .tdense, .s, .obj .vector .s true, .tdense, .div, .vec⟩,
  ⟨.div, .tdense, .s, .obj (.view1D .vec) .s true, .tdense, .div, .vec⟩,
  ⟨.div, .tdense, .s, .obj (.view1D .mat) .s true, .tdense, .div, .vec⟩,
  ⟨.div, .tdense, .s, .obj (.view1D .ten) .s true, .tdense, .div, .vec⟩,
  ⟨.div, (.viewTDense .vec), .s, .obj .vector .s true, .tdense, .div, .vec⟩,
  ⟨.div, (.viewTDense .vec), .s, .obj (.view1D .vec) .s true, .tdense, .div, .vec⟩,
  ⟨.div, (.viewTDense .vec), .s, .obj (.view1D .mat) .s true, .tdense, .div, .vec⟩,
  ⟨.div, (.viewTDense .vec), .s, .obj (.view1D .ten) .s true, .tdense, .div, .vec⟩,
  ⟨.div, (.viewTDense .mat), .s, .obj .vector .s true, .tdense, .div, .vec⟩,
  ⟨.div, (.viewTDense .mat), .s, .obj (.view1D .vec) .s true, .tdense, .div, .vec⟩,
  ⟨.div, (.viewTDense .mat), .s, .obj (.view1D .mat) .s true, .tdense, .div, .vec⟩,
  ⟨.div, (.viewTDense .mat), .s, .obj (.view1D .ten) .s true, .tdense, .div, .vec⟩,
  ⟨.div, (.viewTDense .ten), .s, .obj .vector .s true, .tdense, .div, .vec⟩,
  ⟨.div, (.viewTDense .ten), .s, .obj (.view1D .vec) .s true, .tdense, .div, .vec⟩,
  ⟨.div, (.viewTDense .ten), .s, .obj (.view1D .mat) .s true, .tdense, .div, .vec⟩,
  ⟨.div, (.viewTDense .ten), .s, .obj (.view1D .ten) .s true, .tdense, .div, .vec⟩]

/-- all members (360) -/
def members : List Overload :=
  (tDenseAdd ++ tDenseSub ++ tDenseMul ++ tDenseDiv ++ tCrsAdd ++ tCrsSub ++ tCrsMul ++ tCrsDiv ++ tTenAdd ++ tTenSub ++ tTenMul ++ tTenDiv)

/-- the operator of the loop (`+=`, `-=`, `*=`, `/=`) in each kernel:
src/blas/matrix/diag_op/dense_diag_op.hpp:9-35,
src/blas/matrix/diag_op/dense_diag_op.hpp:39-67,
src/blas/matrix/diag_op/dense_diag_op.hpp:71-97,
src/blas/matrix/diag_op/dense_diag_op.hpp:101-129,
src/blas/matrix/diag_op/dense_diag_op.hpp:133-159,
src/blas/matrix/diag_op/dense_diag_op.hpp:163-191,
src/blas/matrix/diag_op/dense_diag_op.hpp:195-221,
src/blas/matrix/diag_op/dense_diag_op.hpp:225-253,
src/blas/matrix/diag_op/crs_diag_op.hpp:9-43,
src/blas/matrix/diag_op/crs_diag_op.hpp:47-84,
src/blas/matrix/diag_op/crs_diag_op.hpp:88-122,
src/blas/matrix/diag_op/crs_diag_op.hpp:126-163,
src/blas/matrix/diag_op/crs_diag_op.hpp:167-201,
src/blas/matrix/diag_op/crs_diag_op.hpp:205-242,
src/blas/matrix/diag_op/crs_diag_op.hpp:246-280,
src/blas/matrix/diag_op/crs_diag_op.hpp:284-321,
src/blas/tensor/diag_op/tensor_dense_diag_op.hpp:9-41,
src/blas/tensor/diag_op/tensor_dense_diag_op.hpp:45-79,
src/blas/tensor/diag_op/tensor_dense_diag_op.hpp:83-115,
src/blas/tensor/diag_op/tensor_dense_diag_op.hpp:119-153,
src/blas/tensor/diag_op/tensor_dense_diag_op.hpp:157-189,
src/blas/tensor/diag_op/tensor_dense_diag_op.hpp:193-227,
src/blas/tensor/diag_op/tensor_dense_diag_op.hpp:231-263,
src/blas/tensor/diag_op/tensor_dense_diag_op.hpp:267-301 -/
def kernels : List (Core × Op × Form × Op) := [
  (.dense, .add, .scal, .add),
  (.dense, .add, .vec, .add),
  (.dense, .sub, .scal, .sub),
  (.dense, .sub, .vec, .sub),
  (.dense, .mul, .scal, .mul),
  (.dense, .mul, .vec, .mul),
  (.dense, .div, .scal, .div),
  (.dense, .div, .vec, .div),
  (.crs, .add, .scal, .add),
  (.crs, .add, .vec, .add),
  (.crs, .sub, .scal, .sub),
  (.crs, .sub, .vec, .sub),
  (.crs, .mul, .scal, .mul),
  (.crs, .mul, .vec, .mul),
  (.crs, .div, .scal, .div),
  (.crs, .div, .vec, .div),
  (.tdense, .add, .scal, .add),
  (.tdense, .add, .vec, .add),
  (.tdense, .sub, .scal, .sub),
  (.tdense, .sub, .vec, .sub),
  (.tdense, .mul, .scal, .mul),
  (.tdense, .mul, .vec, .mul),
  (.tdense, .div, .scal, .div),
  (.tdense, .div, .vec, .div)]

end Verif.Diag
