import Verif.Model.LoggerCode

/-!
# The logged functions of the library

All functions under `/repo/src` that call the logger, reduced to skeletons.  This file is generated from the
source text by a script: comments are dropped, conditional compilation is resolved with every feature macro
off (the CPU build without MPI), and every statement that is not a logger call, a branch, a loop, a jump, a
`return` or a `throw` becomes `op`; lambda expressions are part of the statement that contains them; a
`switch` is a sequence of branches.  Each entry gives the file and the lines of the function.  Functions with
the same skeleton share a definition.
-/

namespace Verif
namespace Log

/-- Skeleton of, among others, `src/blas/matrix/adds/dense_adds.hpp:9-21`. -/
def sk0 : Code :=
  (seqs [(.enter .func), .op, (.leave .func)])

/-- Skeleton of, among others, `src/blas/matrix/adds/dense_adds.hpp:24-62`. -/
def sk1 : Code :=
  (seqs [(.enter .func), .op, (.ite .thr .op), (.leave .func)])

/-- Skeleton of, among others, `src/blas/matrix/copy/crs_copy.hpp:7-20`. -/
def sk2 : Code :=
  (seqs [(.enter .util), .op, (.leave .util)])

/-- Skeleton of, among others, `src/blas/matrix/matmul/linearoperator-dense_matmul.hpp:7-25`. -/
def sk3 : Code :=
  (seqs [(.enter .func), .op, (.ite .op .thr), (.leave .func)])

/-- Skeleton of, among others, `src/blas/tensor/times/tensor_crs_times.hpp:25-72`. -/
def sk4 : Code :=
  (seqs [(.enter .func), .op, (.loop (seqs [.op, (.ite .thr .op), .op])), (.leave .func)])

/-- Skeleton of, among others, `src/blas/vector/asum.hpp:5-35`. -/
def sk5 : Code :=
  (seqs [(.enter .func), .op, (.ite .thr .op), (.leave .func), .ret])

/-- Skeleton of, among others, `src/blas/vector/nrm2.hpp:6-36`. -/
def sk6 : Code :=
  (seqs [(.enter .func), .op, (.ite .thr .op), (.leave .func), .op, .ret])

/-- Skeleton of, among others, `src/eigen/DC.cpp:8-26`. -/
def sk7 : Code :=
  (seqs [.op, (.enter .solver), .op, (.leave .solver), .ret])

/-- Skeleton of, among others, `src/eigen/DC.cpp:33-45`. -/
def sk8 : Code :=
  (seqs [(.enter .solver), .op, (.leave .solver), .ret])

/-- Skeleton of, among others, `src/eigen/lobpcg_generalized.cpp:9-361`. -/
def sk9 : Code :=
  (seqs [.op, (.enter .solver), .op, (.ite .thr .skip), .op, (.ite .thr .skip), .op, (.ite .thr
  .skip), .op, (.loop (seqs [.op, (.ite (seqs [.op, .brk]) (seqs [.op, (.ite (seqs [.op, .thr])
  .skip)])), .op, (.loop (seqs [.op, (.ite (seqs [.op, (.leave .solver), .ret]) .skip), .op])), .op,
  (.ite (seqs [.op, (.leave .solver), .ret]) .skip), .op])), .op, (.leave .solver), .ret])

/-- Skeleton of, among others, `src/eigen/lobpcg_standard.cpp:10-314`. -/
def sk10 : Code :=
  (seqs [(.enter .solver), .op, (.ite .thr .skip), .op, (.ite .thr .skip), .op, (.loop (seqs [.op,
  (.ite (seqs [.op, .brk]) (seqs [.op, (.ite (seqs [.op, .thr]) .skip)])), .op, (.loop (seqs [.op,
  (.ite (seqs [.op, (.leave .solver), .ret]) .skip), .op])), .op, (.ite (seqs [.op, (.leave
  .solver), .ret]) .skip), .op])), .op, (.leave .solver), .ret])

/-- Skeleton of, among others, `src/equation/bicgstab.cpp:12-135`. -/
def sk11 : Code :=
  (seqs [(.enter .solver), .op, (.ite .thr .skip), .op, (.ite .thr .skip), .op, (.loop (seqs [.op,
  (.ite (seqs [.op, (.leave .solver), .ret]) .skip), .op, (.ite (seqs [.op, (.leave .solver), .ret])
  .skip), .op, (.ite (seqs [.op, (.leave .solver), .ret]) .skip), .op, (.ite (seqs [.op, (.leave
  .solver), .ret]) .skip), .op])), .op, (.leave .solver), .ret])

/-- Skeleton of, among others, `src/equation/cg.cpp:12-86`. -/
def sk12 : Code :=
  (seqs [(.enter .solver), .op, (.ite .thr .skip), .op, (.ite .thr .skip), .op, (.loop (seqs [.op,
  (.ite (seqs [.op, (.leave .solver), .ret]) .skip), .op, (.ite (seqs [.op, (.leave .solver), .ret])
  .skip)])), .op, (.leave .solver), .ret])

/-- Skeleton of, among others, `src/equation/cholesky/cholesky.cpp:8-32`. -/
def sk13 : Code :=
  (seqs [(.enter .func), .op, .thr, (.leave .func), .ret])

/-- Skeleton of, among others, `src/equation/cholesky/cholesky.cpp:39-74`. -/
def sk14 : Code :=
  (seqs [(.enter .func), .op, (.ite .thr .skip), .op, (.ite .op (seqs [(.leave .func), .thr])),
  (.leave .func), .ret])

/-- Skeleton of, among others, `src/equation/cholesky/cholesky.cpp:75-106`. -/
def sk15 : Code :=
  (seqs [(.enter .func), .op, (.ite .op (seqs [(.leave .func), .thr])), (.leave .func), .ret])

/-- Skeleton of, among others, `src/equation/cholesky/cholesky_cusolver_gpu.cpp:56-99`. -/
def sk16 : Code :=
  (seqs [(.enter .func), .op, (.leave .func), .ret])

/-- Skeleton of, among others, `src/equation/ic.cpp:12-84`. -/
def sk17 : Code :=
  (seqs [(.enter .solver), .op, (.ite .thr .skip), .op, (.ite .thr .skip), .thr, (.leave .solver)])

/-- Skeleton of, among others, `src/equation/ic.cpp:105-139`. -/
def sk18 : Code :=
  (seqs [(.enter .solver), .thr, (.leave .solver)])

/-- Skeleton of, among others, `src/equation/ic.cpp:162-236`. -/
def sk19 : Code :=
  (seqs [(.enter .solver), .op, (.ite .thr .skip), .op, (.ite .thr .skip), .op, (.ite .thr .skip),
  .thr, (.leave .solver), .ret])

/-- Skeleton of, among others, `src/equation/jacobi.cpp:11-31`. -/
def sk20 : Code :=
  (seqs [(.enter .solver), .op, (.ite .thr .skip), .op, (.leave .solver)])

/-- Skeleton of, among others, `src/equation/jacobi.cpp:52-61`. -/
def sk21 : Code :=
  (seqs [(.enter .solver), .op, (.leave .solver)])

/-- Skeleton of, among others, `src/equation/kernel/sor_kernel.hpp:5-23`. -/
def sk22 : Code :=
  (seqs [(.enter .func), (.loop (seqs [.op, (.loop (seqs [.op, (.ite .op .brk)])), .op])), (.leave
  .func)])

/-- Skeleton of, among others, `src/equation/lu/lu.cpp:8-20`. -/
def sk23 : Code :=
  (seqs [(.enter .func), .op, (.leave .func), .thr])

/-- Skeleton of, among others, `src/equation/lu/lu_cucolver_gpu.cpp:11-26`. -/
def sk24 : Code :=
  (seqs [(.enter .func), .op, (.ite .thr .skip), (.leave .func), .ret])

/-- Skeleton of, among others, `src/equation/none.cpp:10-19`. -/
def sk25 : Code :=
  (seqs [.op, (.enter .solver), (.leave .solver)])

/-- Skeleton of, among others, `src/internal/lapack/getrf/dense_double_getrf.cpp:12-69`. -/
def sk26 : Code :=
  (seqs [(.enter .func), .op, (.ite (seqs [(.leave .func), .op]) .skip), .op, (.ite .thr .op),
  (.leave .func), .ret])

/-- Skeleton of, among others, `src/mpi/Bcast.hpp:7-16`. -/
def sk27 : Code :=
  (seqs [(.enter .util), (.leave .util)])

/-- Skeleton of, among others, `src/mpi/allreduce.hpp:6-16`. -/
def sk28 : Code :=
  (seqs [(.enter .util), (.leave .util), .ret])

/-- Skeleton of, among others, `src/mpi/monolish_mpi.cpp:67-78`. -/
def sk29 : Code :=
  (seqs [(.enter .util), .op, (.leave .util), .ret])

/-- Skeleton of, among others, `src/utils/IO/IO_crs.cpp:17-47`. -/
def sk30 : Code :=
  (seqs [(.enter .util), .op, (.ite .thr .op), (.leave .util)])

/-- Skeleton of, among others, `src/utils/IO/IO_vector.cpp:45-56`. -/
def sk31 : Code :=
  (seqs [(.enter .util), .op, (.ite .thr .skip), .op, (.leave .util)])

/-- Skeleton of, among others, `src/utils/compare/compare_coo.cpp:9-65`. -/
def sk32 : Code :=
  (seqs [(.enter .util), .op, (.ite .thr .skip), .op, (.ite (seqs [(.leave .util), .ret]) .skip),
  .op, (.ite (seqs [(.leave .util), .ret]) .skip), .op, (.ite (seqs [(.leave .util), .ret]) .skip),
  .op, (.ite (seqs [.op, (.ite (seqs [(.leave .util), .ret]) .skip), .op, (.ite (seqs [(.leave
  .util), .ret]) .skip), .op, (.ite (seqs [(.leave .util), .ret]) .skip)]) .skip), .op, (.ite (seqs
  [(.leave .util), .ret]) .skip), .op, (.ite (seqs [(.leave .util), .ret]) .skip), .op, (.ite (seqs
  [(.leave .util), .ret]) .skip), (.leave .util), .ret])

/-- Skeleton of, among others, `src/utils/compare/compare_coo.cpp:83-91`. -/
def sk33 : Code :=
  (seqs [(.enter .util), .op, (.leave .util), .op, .ret])

/-- Skeleton of, among others, `src/utils/compare/compare_coo.cpp:101-126`. -/
def sk34 : Code :=
  (seqs [(.enter .util), .op, (.ite (seqs [(.leave .util), .op]) .skip), .op, (.ite (seqs [(.leave
  .util), .ret]) .skip), .op, (.ite (seqs [(.leave .util), .ret]) .skip), (.leave .util), .ret])

/-- Skeleton of, among others, `src/utils/compare/compare_coo.cpp:133-147`. -/
def sk35 : Code :=
  (seqs [(.enter .util), .op, (.ite (seqs [(.leave .util), .op]) .skip), (.leave .util), .ret])

/-- Skeleton of, among others, `src/utils/compare/compare_crs.cpp:7-60`. -/
def sk36 : Code :=
  (seqs [(.enter .util), .op, (.ite (seqs [(.leave .util), .ret]) .skip), .op, (.ite (seqs [(.leave
  .util), .ret]) .skip), .op, (.ite (seqs [(.leave .util), .ret]) .skip), .op, (.ite (seqs [.op,
  (.ite (seqs [(.leave .util), .ret]) .skip), .op, (.ite (seqs [(.leave .util), .ret]) .skip), .op,
  (.ite (seqs [(.leave .util), .ret]) .skip)]) (seqs [.op, (.ite (seqs [.op, (.ite (seqs [(.leave
  .util), .ret]) .skip), .op, (.ite (seqs [(.leave .util), .ret]) .skip), .op, (.ite (seqs [(.leave
  .util), .ret]) .skip)]) .skip)])), (.leave .util), .ret])

/-- Skeleton of, among others, `src/utils/compare/compare_crs.cpp:96-115`. -/
def sk37 : Code :=
  (seqs [(.enter .util), .op, (.ite (seqs [(.leave .util), .op]) .skip), .op, (.ite (seqs [(.leave
  .util), .ret]) .skip), (.leave .util), .ret])

/-- Skeleton of, among others, `src/utils/compare/compare_dense.cpp:9-41`. -/
def sk38 : Code :=
  (seqs [(.enter .util), .op, (.ite .ret .skip), .op, (.ite .ret .skip), .op, (.ite .ret .skip),
  .op, (.ite .ret .skip), .op, (.ite (seqs [.op, (.ite .ret .skip)]) (seqs [.op, (.ite (seqs [.op,
  (.ite .ret .skip)]) .skip)])), (.leave .util), .ret])

/-- Skeleton of, among others, `src/utils/compare/compare_tensor_coo.cpp:9-55`. -/
def sk39 : Code :=
  (seqs [(.enter .util), .op, (.ite (seqs [(.leave .util), .ret]) .skip), (.loop (seqs [.op, (.ite
  (seqs [(.leave .util), .ret]) .skip)])), .op, (.ite (seqs [(.leave .util), .ret]) .skip), .op,
  (.ite (seqs [.op, (.ite (seqs [(.leave .util), .ret]) .skip)]) .skip), .op, (.ite (seqs [(.leave
  .util), .ret]) .skip), (.loop (seqs [.op, (.ite (seqs [(.leave .util), .ret]) .skip), .op, (.ite
  (seqs [(.leave .util), .ret]) .skip)])), (.leave .util), .ret])

/-- Skeleton of, among others, `src/utils/compare/compare_tensor_coo.cpp:98-120`. -/
def sk40 : Code :=
  (seqs [(.enter .util), .op, (.ite (seqs [(.leave .util), .op]) .skip), (.loop (seqs [.op, (.ite
  (seqs [(.leave .util), .ret]) .skip)])), (.leave .util), .ret])

/-- Skeleton of, among others, `src/utils/compare/compare_tensor_crs.cpp:9-73`. -/
def sk41 : Code :=
  (seqs [(.enter .util), .op, (.ite (seqs [(.leave .util), .ret]) .skip), (.loop (seqs [.op, (.ite
  (seqs [(.leave .util), .ret]) .skip)])), .op, (.ite (seqs [(.leave .util), .ret]) .skip), .op,
  (.ite (seqs [.op, (.ite (seqs [(.leave .util), .ret]) .skip), (.loop (seqs [.op, (.ite (seqs
  [(.leave .util), .ret]) .skip)])), (.loop (seqs [.op, (.ite (seqs [(.leave .util), .ret])
  .skip)]))]) (seqs [.op, (.ite (seqs [.op, (.ite (seqs [(.leave .util), .ret]) .skip), (.loop (seqs
  [.op, (.ite (seqs [(.leave .util), .ret]) .skip)])), (.loop (seqs [.op, (.ite (seqs [(.leave
  .util), .ret]) .skip)]))]) .skip)])), (.leave .util), .ret])

/-- Skeleton of, among others, `src/utils/compare/compare_tensor_crs.cpp:115-141`. -/
def sk42 : Code :=
  (seqs [(.enter .util), .op, (.ite (seqs [(.leave .util), .ret]) .skip), (.loop (seqs [.op, (.ite
  (seqs [(.leave .util), .ret]) .skip)])), .op, (.ite (seqs [(.leave .util), .ret]) .skip), (.leave
  .util), .ret])

/-- Skeleton of, among others, `src/utils/compare/compare_tensor_crs.cpp:148-169`. -/
def sk43 : Code :=
  (seqs [(.enter .util), .op, (.ite (seqs [(.leave .util), .ret]) .skip), (.loop (seqs [.op, (.ite
  (seqs [(.leave .util), .ret]) .skip)])), (.leave .util), .ret])

/-- Skeleton of, among others, `src/utils/compare/compare_tensor_dense.cpp:9-40`. -/
def sk44 : Code :=
  (seqs [(.enter .util), .op, (.ite .ret .skip), (.loop (seqs [.op, (.ite .ret .skip)])), .op, (.ite
  .ret .skip), .op, (.ite (seqs [.op, (.ite .ret .skip)]) (seqs [.op, (.ite (seqs [.op, (.ite .ret
  .skip)]) .skip)])), (.leave .util), .ret])

/-- Skeleton of, among others, `src/utils/compare/compare_vector.cpp:10-37`. -/
def sk45 : Code :=
  (seqs [(.enter .util), .op, (.ite .ret .skip), .op, (.ite .ret .skip), .op, (.ite (seqs [.op,
  (.ite .ret .skip)]) (seqs [.op, (.ite (seqs [.op, (.ite .ret .skip)]) .skip)])), (.leave .util),
  .ret])

/-- Skeleton of, among others, `src/utils/create_matrix/band_matrix.cpp:6-35`. -/
def sk46 : Code :=
  (seqs [(.enter .util), .op, (.ite .thr .skip), .op, (.leave .util), .ret])

/-- Skeleton of, among others, `src/utils/dense_constructor.cpp:59-86`. -/
def sk47 : Code :=
  (seqs [(.enter .util), .op, (.ite .thr .skip), (.leave .util)])

/-- Skeleton of, among others, `src/utils/linearoperator_constructor.cpp:117-129`. -/
def sk48 : Code :=
  (seqs [(.enter .util), .op])

/-- Skeleton of, among others, `src/utils/move/move_dense.cpp:126-159`. -/
def sk49 : Code :=
  (seqs [(.enter .util), .op, (.ite .thr .skip), .op, (.ite .thr .skip), .op, (.leave .util)])

/-- Skeleton of, among others, `src/utils/reshape/reshape_tensor_dense.cpp:8-45`. -/
def sk50 : Code :=
  (seqs [(.enter .util), .op, (.ite .thr .skip), .op, (.ite .thr .skip), (.leave .util)])

/-- Skeleton of, among others, `src/utils/transpose/transpose_coo.cpp:21-42`. -/
def sk51 : Code :=
  (seqs [(.enter .util), .op, (.ite (seqs [.op, (.ite .thr .skip)]) .op), .op, (.leave .util)])

/-- Skeleton of, among others, `src/vml/matrix/math_1_3op/matmax.hpp:37-49`. -/
def sk52 : Code :=
  (seqs [(.enter .func), .op, (.leave .func), .op, (.ite .ret (seqs [.op, .ret]))])

/-- Logged functions, part 0 (file and lines in each entry). -/
def fns0 : List Fn := [
  ⟨"src/blas/matrix/adds/dense_adds.hpp", 9, 21, "adds_core", sk0⟩,
  ⟨"src/blas/matrix/adds/dense_adds.hpp", 24, 62, "adds_row_core", sk1⟩,
  ⟨"src/blas/matrix/adds/dense_adds.hpp", 65, 103, "adds_col_core", sk1⟩,
  ⟨"src/blas/matrix/adds/dense_line_adds.hpp", 9, 43, "adds_row_core", sk1⟩,
  ⟨"src/blas/matrix/adds/dense_line_adds.hpp", 46, 81, "adds_col_core", sk1⟩,
  ⟨"src/blas/matrix/copy/crs_copy.hpp", 7, 20, "copy_core", sk2⟩,
  ⟨"src/blas/matrix/copy/dense_copy.hpp", 7, 18, "copy_core", sk2⟩,
  ⟨"src/blas/matrix/copy/linearOperator_copy.hpp", 7, 25, "copy_core", sk2⟩,
  ⟨"src/blas/matrix/diag_op/crs_diag_op.hpp", 8, 43, "CRS_diag_add_core", sk1⟩,
  ⟨"src/blas/matrix/diag_op/crs_diag_op.hpp", 46, 84, "CRS_diag_add_core", sk1⟩,
  ⟨"src/blas/matrix/diag_op/crs_diag_op.hpp", 87, 122, "CRS_diag_sub_core", sk1⟩,
  ⟨"src/blas/matrix/diag_op/crs_diag_op.hpp", 125, 163, "CRS_diag_sub_core", sk1⟩,
  ⟨"src/blas/matrix/diag_op/crs_diag_op.hpp", 166, 201, "CRS_diag_mul_core", sk1⟩,
  ⟨"src/blas/matrix/diag_op/crs_diag_op.hpp", 204, 242, "CRS_diag_mul_core", sk1⟩,
  ⟨"src/blas/matrix/diag_op/crs_diag_op.hpp", 245, 280, "CRS_diag_div_core", sk1⟩,
  ⟨"src/blas/matrix/diag_op/crs_diag_op.hpp", 283, 321, "CRS_diag_div_core", sk1⟩,
  ⟨"src/blas/matrix/diag_op/dense_diag_op.hpp", 8, 35, "Dense_diag_add_core", sk1⟩,
  ⟨"src/blas/matrix/diag_op/dense_diag_op.hpp", 38, 67, "Dense_diag_add_core", sk1⟩,
  ⟨"src/blas/matrix/diag_op/dense_diag_op.hpp", 70, 97, "Dense_diag_sub_core", sk1⟩,
  ⟨"src/blas/matrix/diag_op/dense_diag_op.hpp", 100, 129, "Dense_diag_sub_core", sk1⟩,
  ⟨"src/blas/matrix/diag_op/dense_diag_op.hpp", 132, 159, "Dense_diag_mul_core", sk1⟩,
  ⟨"src/blas/matrix/diag_op/dense_diag_op.hpp", 162, 191, "Dense_diag_mul_core", sk1⟩,
  ⟨"src/blas/matrix/diag_op/dense_diag_op.hpp", 194, 221, "Dense_diag_div_core", sk1⟩,
  ⟨"src/blas/matrix/diag_op/dense_diag_op.hpp", 224, 253, "Dense_diag_div_core", sk1⟩,
  ⟨"src/blas/matrix/mataddsub/crs_mataddsub.hpp", 8, 23, "matadd_core", sk0⟩,
  ⟨"src/blas/matrix/mataddsub/crs_mataddsub.hpp", 25, 40, "matsub_core", sk0⟩,
  ⟨"src/blas/matrix/mataddsub/dense_mataddsub.hpp", 8, 21, "matadd_core", sk0⟩,
  ⟨"src/blas/matrix/mataddsub/dense_mataddsub.hpp", 23, 36, "matsub_core", sk0⟩,
  ⟨"src/blas/matrix/mataddsub/linearoperator_mataddsub.hpp", 8, 55, "matadd_core", sk0⟩,
  ⟨"src/blas/matrix/mataddsub/linearoperator_mataddsub.hpp", 57, 104, "matsub_core", sk0⟩,
  ⟨"src/blas/matrix/matmul/crs-dense_matmul.hpp", 8, 149, "CRS_Dense_Dmatmul_core", sk1⟩,
  ⟨"src/blas/matrix/matmul/crs-dense_matmul.hpp", 152, 323, "CRS_Dense_Smatmul_core", sk1⟩,
  ⟨"src/blas/matrix/matmul/crs-dense_matmul_copy.hpp", 137, 361, "CRS_Dense_Dmatmul_core", sk1⟩,
  ⟨"src/blas/matrix/matmul/crs-dense_matmul_copy.hpp", 364, 611, "CRS_Dense_Smatmul_core", sk1⟩,
  ⟨"src/blas/matrix/matmul/dense-dense_matmul.hpp", 24, 67, "Dense_Dense_Dmatmul_core", sk1⟩,
  ⟨"src/blas/matrix/matmul/dense-dense_matmul.hpp", 70, 114, "Dense_Dense_Smatmul_core", sk1⟩,
  ⟨"src/blas/matrix/matmul/linearoperator-dense_matmul.hpp", 7, 25, "blas::matmul", sk3⟩,
  ⟨"src/blas/matrix/matmul/linearoperator-dense_matmul.hpp", 28, 46, "blas::matmul", sk3⟩,
  ⟨"src/blas/matrix/matmul/linearoperator-dense_matmul.hpp", 49, 67, "blas::rmatmul", sk3⟩,
  ⟨"src/blas/matrix/matmul/linearoperator-dense_matmul.hpp", 70, 88, "blas::rmatmul", sk3⟩,
  ⟨"src/blas/matrix/matmul/linearoperator-linearoperator_matmul.hpp", 7, 52, "blas::matmul", sk0⟩,
  ⟨"src/blas/matrix/matmul/linearoperator-linearoperator_matmul.hpp", 55, 100, "blas::matmul", sk0⟩,
  ⟨"src/blas/matrix/matvec/crs_matvec.hpp", 7, 114, "Dmatvec_core", sk1⟩,
  ⟨"src/blas/matrix/matvec/crs_matvec.hpp", 117, 223, "Smatvec_core", sk1⟩,
  ⟨"src/blas/matrix/matvec/dense_matvec.hpp", 13, 56, "Dmatvec_core", sk1⟩,
  ⟨"src/blas/matrix/matvec/dense_matvec.hpp", 59, 102, "Smatvec_core", sk1⟩,
  ⟨"src/blas/matrix/matvec/linearoperator_matvec.hpp", 6, 34, "matvec_core", sk3⟩,
  ⟨"src/blas/matrix/matvec/linearoperator_matvec.hpp", 36, 64, "rmatvec_core", sk3⟩,
  ⟨"src/blas/matrix/scal/crs_scal.hpp", 7, 15, "mscal_core", sk0⟩,
  ⟨"src/blas/matrix/scal/dense_scal.hpp", 8, 16, "mscal_core", sk0⟩,
  ⟨"src/blas/matrix/times/crs_line_times.hpp", 9, 45, "times_row_core", sk1⟩,
  ⟨"src/blas/matrix/times/crs_line_times.hpp", 48, 93, "times_col_core", sk1⟩,
  ⟨"src/blas/matrix/times/crs_times.hpp", 9, 22, "times_core", sk0⟩,
  ⟨"src/blas/matrix/times/crs_times.hpp", 25, 64, "times_row_core", sk1⟩,
  ⟨"src/blas/matrix/times/crs_times.hpp", 67, 105, "times_col_core", sk1⟩,
  ⟨"src/blas/matrix/times/dense_line_times.hpp", 9, 43, "times_row_core", sk1⟩,
  ⟨"src/blas/matrix/times/dense_line_times.hpp", 46, 81, "times_col_core", sk1⟩,
  ⟨"src/blas/matrix/times/dense_times.hpp", 9, 21, "times_core", sk0⟩,
  ⟨"src/blas/matrix/times/dense_times.hpp", 24, 62, "times_row_core", sk1⟩,
  ⟨"src/blas/matrix/times/dense_times.hpp", 65, 103, "times_col_core", sk1⟩,
  ⟨"src/blas/tensor/adds/tensor_dense_adds.hpp", 9, 21, "adds_core", sk0⟩,
  ⟨"src/blas/tensor/adds/tensor_dense_adds.hpp", 24, 40, "adds_row_core", sk0⟩,
  ⟨"src/blas/tensor/adds/tensor_dense_adds.hpp", 43, 59, "adds_col_core", sk0⟩,
  ⟨"src/blas/tensor/adds/tensor_dense_line_adds.hpp", 9, 26, "adds_row_core", sk0⟩,
  ⟨"src/blas/tensor/adds/tensor_dense_line_adds.hpp", 29, 46, "adds_col_core", sk0⟩,
  ⟨"src/blas/tensor/copy/tensor_crs_copy.hpp", 7, 20, "copy_core", sk2⟩,
  ⟨"src/blas/tensor/copy/tensor_dense_copy.hpp", 7, 19, "copy_core", sk2⟩,
  ⟨"src/blas/tensor/diag_op/tensor_dense_diag_op.hpp", 8, 41, "tensor_Dense_diag_add_core", sk1⟩,
  ⟨"src/blas/tensor/diag_op/tensor_dense_diag_op.hpp", 44, 79, "tensor_Dense_diag_add_core", sk1⟩,
  ⟨"src/blas/tensor/diag_op/tensor_dense_diag_op.hpp", 82, 115, "tensor_Dense_diag_sub_core", sk1⟩,
  ⟨"src/blas/tensor/diag_op/tensor_dense_diag_op.hpp", 118, 153, "tensor_Dense_diag_sub_core", sk1⟩,
  ⟨"src/blas/tensor/diag_op/tensor_dense_diag_op.hpp", 156, 189, "tensor_Dense_diag_mul_core", sk1⟩,
  ⟨"src/blas/tensor/diag_op/tensor_dense_diag_op.hpp", 192, 227, "tensor_Dense_diag_mul_core", sk1⟩,
  ⟨"src/blas/tensor/diag_op/tensor_dense_diag_op.hpp", 230, 263, "tensor_Dense_diag_div_core", sk1⟩,
  ⟨"src/blas/tensor/diag_op/tensor_dense_diag_op.hpp", 266, 301, "tensor_Dense_diag_div_core", sk1⟩,
  ⟨"src/blas/tensor/mattens/crs-tensor_dense_mattens.hpp", 10, 25, "CRS_tensor_Dense_Dmattens_core", sk0⟩,
  ⟨"src/blas/tensor/mattens/crs-tensor_dense_mattens.hpp", 28, 42, "CRS_tensor_Dense_Smattens_core", sk0⟩,
  ⟨"src/blas/tensor/mattens/dense-tensor_dense_mattens.hpp", 8, 27, "Dense_tensor_Dense_Dmattens_core", sk0⟩,
  ⟨"src/blas/tensor/mattens/dense-tensor_dense_mattens.hpp", 30, 49, "Dense_tensor_Dense_Smattens_core", sk0⟩,
  ⟨"src/blas/tensor/scal/tensor_crs_scal.hpp", 7, 15, "tscal_core", sk0⟩,
  ⟨"src/blas/tensor/scal/tensor_dense_scal.hpp", 8, 16, "tscal_core", sk0⟩,
  ⟨"src/blas/tensor/tensaddsub/tensor_crs_tensaddsub.hpp", 8, 23, "tensadd_core", sk0⟩,
  ⟨"src/blas/tensor/tensaddsub/tensor_crs_tensaddsub.hpp", 25, 40, "tenssub_core", sk0⟩,
  ⟨"src/blas/tensor/tensaddsub/tensor_dense_tensaddsub.hpp", 8, 21, "tensadd_core", sk0⟩,
  ⟨"src/blas/tensor/tensaddsub/tensor_dense_tensaddsub.hpp", 23, 36, "tenssub_core", sk0⟩,
  ⟨"src/blas/tensor/tensmat/tensor_crs-dense_tensmat.hpp", 9, 54, "tensor_CRS_Dense_Dtensmat_core", sk0⟩,
  ⟨"src/blas/tensor/tensmat/tensor_crs-dense_tensmat.hpp", 57, 102, "tensor_CRS_Dense_Stensmat_core", sk0⟩,
  ⟨"src/blas/tensor/tensmat/tensor_dense-dense_tensmat.hpp", 8, 27, "tensor_Dense_Dense_Dtensmat_core", sk0⟩,
  ⟨"src/blas/tensor/tensmat/tensor_dense-dense_tensmat.hpp", 30, 49, "tensor_Dense_Dense_Stensmat_core", sk0⟩,
  ⟨"src/blas/tensor/tensmul/tensor_crs-tensor_dense_tensmul.hpp", 9, 66, "tensor_CRS_tensor_Dense_Dtensmul_core", sk0⟩,
  ⟨"src/blas/tensor/tensmul/tensor_crs-tensor_dense_tensmul.hpp", 69, 126, "tensor_CRS_tensor_Dense_Stensmul_core", sk0⟩,
  ⟨"src/blas/tensor/tensmul/tensor_dense-tensor_dense_tensmul.hpp", 8, 26, "tensor_Dense_tensor_Dense_Dtensmul_core", sk0⟩,
  ⟨"src/blas/tensor/tensmul/tensor_dense-tensor_dense_tensmul.hpp", 29, 47, "tensor_Dense_tensor_Dense_Stensmul_core", sk0⟩,
  ⟨"src/blas/tensor/tensvec/tensor_crs_tensvec.hpp", 9, 50, "Dtensvec_core", sk0⟩,
  ⟨"src/blas/tensor/tensvec/tensor_crs_tensvec.hpp", 53, 94, "Stensvec_core", sk0⟩,
  ⟨"src/blas/tensor/tensvec/tensor_dense_tensvec.hpp", 7, 25, "Dtensvec_core", sk0⟩,
  ⟨"src/blas/tensor/tensvec/tensor_dense_tensvec.hpp", 28, 46, "Stensvec_core", sk0⟩,
  ⟨"src/blas/tensor/times/tensor_crs_times.hpp", 9, 22, "times_core", sk0⟩,
  ⟨"src/blas/tensor/times/tensor_crs_times.hpp", 25, 72, "times_row_core", sk4⟩,
  ⟨"src/blas/tensor/times/tensor_dense_line_times.hpp", 9, 26, "times_row_core", sk0⟩
]

/-- Logged functions, part 1 (file and lines in each entry). -/
def fns1 : List Fn := [
  ⟨"src/blas/tensor/times/tensor_dense_line_times.hpp", 29, 46, "times_col_core", sk0⟩,
  ⟨"src/blas/tensor/times/tensor_dense_times.hpp", 9, 21, "times_core", sk0⟩,
  ⟨"src/blas/tensor/times/tensor_dense_times.hpp", 24, 40, "times_row_core", sk0⟩,
  ⟨"src/blas/tensor/times/tensor_dense_times.hpp", 43, 59, "times_col_core", sk0⟩,
  ⟨"src/blas/vector/asum.hpp", 5, 35, "Dasum_core", sk5⟩,
  ⟨"src/blas/vector/asum.hpp", 37, 67, "Sasum_core", sk5⟩,
  ⟨"src/blas/vector/axpy.hpp", 6, 34, "Daxpy_core", sk1⟩,
  ⟨"src/blas/vector/axpy.hpp", 36, 64, "Saxpy_core", sk1⟩,
  ⟨"src/blas/vector/axpyz.hpp", 6, 37, "Daxpyz_core", sk1⟩,
  ⟨"src/blas/vector/axpyz.hpp", 39, 70, "Saxpyz_core", sk1⟩,
  ⟨"src/blas/vector/copy.hpp", 5, 16, "copy_core", sk2⟩,
  ⟨"src/blas/vector/dot.hpp", 6, 41, "Ddot_core", sk5⟩,
  ⟨"src/blas/vector/dot.hpp", 43, 78, "Sdot_core", sk5⟩,
  ⟨"src/blas/vector/nrm1.hpp", 6, 38, "Dnrm1_core", sk5⟩,
  ⟨"src/blas/vector/nrm1.hpp", 40, 72, "Snrm1_core", sk5⟩,
  ⟨"src/blas/vector/nrm2.hpp", 6, 36, "Dnrm2_core", sk6⟩,
  ⟨"src/blas/vector/nrm2.hpp", 38, 68, "Snrm2_core", sk6⟩,
  ⟨"src/blas/vector/scal.hpp", 6, 28, "Dscal_core", sk1⟩,
  ⟨"src/blas/vector/scal.hpp", 30, 52, "Sscal_core", sk1⟩,
  ⟨"src/blas/vector/sum.hpp", 6, 38, "Dsum_core", sk5⟩,
  ⟨"src/blas/vector/sum.hpp", 40, 72, "Ssum_core", sk5⟩,
  ⟨"src/blas/vector/times.hpp", 6, 19, "times_scalar_core", sk0⟩,
  ⟨"src/blas/vector/times.hpp", 21, 34, "times_vector_core", sk0⟩,
  ⟨"src/blas/vector/vecadd.hpp", 5, 18, "vecadd_core", sk0⟩,
  ⟨"src/blas/vector/vecsub.hpp", 5, 18, "vecsub_core", sk0⟩,
  ⟨"src/blas/vector/xpay.hpp", 6, 36, "Dxpay_core", sk1⟩,
  ⟨"src/blas/vector/xpay.hpp", 38, 68, "Sxpay_core", sk1⟩,
  ⟨"src/eigen/DC.cpp", 8, 26, "DC::LAPACK_DC", sk7⟩,
  ⟨"src/eigen/DC.cpp", 33, 45, "DC::solve", sk8⟩,
  ⟨"src/eigen/DC.cpp", 53, 72, "DC::LAPACK_DC", sk7⟩,
  ⟨"src/eigen/DC.cpp", 81, 94, "DC::solve", sk8⟩,
  ⟨"src/eigen/lobpcg_generalized.cpp", 9, 361, "LOBPCG::monolish_LOBPCG", sk9⟩,
  ⟨"src/eigen/lobpcg_generalized.cpp", 388, 403, "LOBPCG::solve", sk8⟩,
  ⟨"src/eigen/lobpcg_standard.cpp", 10, 314, "LOBPCG::monolish_LOBPCG", sk10⟩,
  ⟨"src/eigen/lobpcg_standard.cpp", 336, 349, "LOBPCG::solve", sk8⟩,
  ⟨"src/equation/bicgstab.cpp", 12, 135, "BiCGSTAB::monolish_BiCGSTAB", sk11⟩,
  ⟨"src/equation/bicgstab.cpp", 154, 167, "BiCGSTAB::solve", sk8⟩,
  ⟨"src/equation/cg.cpp", 12, 86, "CG::monolish_CG", sk12⟩,
  ⟨"src/equation/cg.cpp", 104, 116, "CG::solve", sk8⟩,
  ⟨"src/equation/cholesky/cholesky.cpp", 8, 32, "Cholesky::solve", sk13⟩,
  ⟨"src/equation/cholesky/cholesky.cpp", 39, 74, "Dense::solve", sk14⟩,
  ⟨"src/equation/cholesky/cholesky.cpp", 75, 106, "Dense::solve", sk15⟩,
  ⟨"src/equation/cholesky/cholesky.cpp", 108, 140, "Dense::solve", sk15⟩,
  ⟨"src/equation/cholesky/cholesky.cpp", 142, 174, "Dense::solve", sk15⟩,
  ⟨"src/equation/cholesky/cholesky_cusolver_gpu.cpp", 11, 54, "CRS::cusolver_Cholesky", sk13⟩,
  ⟨"src/equation/cholesky/cholesky_cusolver_gpu.cpp", 56, 99, "CRS::cusolver_Cholesky", sk16⟩,
  ⟨"src/equation/ic.cpp", 12, 84, "IC::create_precond", sk17⟩,
  ⟨"src/equation/ic.cpp", 105, 139, "IC::apply_precond", sk18⟩,
  ⟨"src/equation/ic.cpp", 162, 236, "IC::cusparse_IC", sk19⟩,
  ⟨"src/equation/ic.cpp", 257, 269, "IC::solve", sk8⟩,
  ⟨"src/equation/ilu.cpp", 12, 88, "ILU::create_precond", sk17⟩,
  ⟨"src/equation/ilu.cpp", 109, 143, "ILU::apply_precond", sk18⟩,
  ⟨"src/equation/ilu.cpp", 166, 245, "ILU::cusparse_ILU", sk19⟩,
  ⟨"src/equation/ilu.cpp", 266, 278, "ILU::solve", sk8⟩,
  ⟨"src/equation/jacobi.cpp", 11, 31, "Jacobi::create_precond", sk20⟩,
  ⟨"src/equation/jacobi.cpp", 52, 61, "Jacobi::apply_precond", sk21⟩,
  ⟨"src/equation/jacobi.cpp", 83, 150, "Jacobi::monolish_Jacobi", sk12⟩,
  ⟨"src/equation/jacobi.cpp", 171, 183, "Jacobi::solve", sk8⟩,
  ⟨"src/equation/kernel/sor_kernel.hpp", 5, 23, "sor_kernel_lower", sk22⟩,
  ⟨"src/equation/kernel/sor_kernel.hpp", 25, 39, "sor_kernel_lower", sk0⟩,
  ⟨"src/equation/kernel/sor_kernel.hpp", 41, 72, "sor_kernel_precond", sk0⟩,
  ⟨"src/equation/kernel/sor_kernel.hpp", 74, 102, "sor_kernel_precond", sk0⟩,
  ⟨"src/equation/lu/lu.cpp", 8, 20, "CRS::solve", sk23⟩,
  ⟨"src/equation/lu/lu.cpp", 22, 34, "CRS::solve", sk23⟩,
  ⟨"src/equation/lu/lu.cpp", 36, 62, "Dense::solve", sk15⟩,
  ⟨"src/equation/lu/lu.cpp", 63, 88, "Dense::solve", sk15⟩,
  ⟨"src/equation/lu/lu.cpp", 90, 118, "Dense::solve", sk15⟩,
  ⟨"src/equation/lu/lu.cpp", 120, 147, "Dense::solve", sk15⟩,
  ⟨"src/equation/lu/lu_cucolver_gpu.cpp", 11, 26, "CRS::cusolver_LU", sk24⟩,
  ⟨"src/equation/lu/lu_mumps_cpu.cpp", 15, 100, "CRS::mumps_LU", sk24⟩,
  ⟨"src/equation/none.cpp", 10, 19, "none::create_precond", sk25⟩,
  ⟨"src/equation/none.cpp", 39, 46, "none::apply_precond", sk21⟩,
  ⟨"src/equation/none.cpp", 67, 77, "none::solve", sk8⟩,
  ⟨"src/equation/precond.cpp", 9, 17, "solver::set_create_precond", sk2⟩,
  ⟨"src/equation/precond.cpp", 114, 123, "solver::set_apply_precond", sk2⟩,
  ⟨"src/equation/qr/qr.cpp", 5, 29, "QR::solve", sk13⟩,
  ⟨"src/equation/qr/qr_cusolver_gpu.cpp", 11, 54, "CRS::cusolver_QR", sk13⟩,
  ⟨"src/equation/qr/qr_cusolver_gpu.cpp", 56, 100, "CRS::cusolver_QR", sk13⟩,
  ⟨"src/equation/sor.cpp", 12, 39, "SOR::create_precond", sk20⟩,
  ⟨"src/equation/sor.cpp", 60, 68, "SOR::apply_precond", sk21⟩,
  ⟨"src/equation/sor.cpp", 91, 163, "SOR::monolish_SOR", sk12⟩,
  ⟨"src/equation/sor.cpp", 184, 196, "SOR::solve", sk8⟩,
  ⟨"src/internal/arithmetic/double_arithmetic.cpp", 9, 31, "vadd", sk1⟩,
  ⟨"src/internal/arithmetic/double_arithmetic.cpp", 34, 56, "vsub", sk1⟩,
  ⟨"src/internal/arithmetic/double_arithmetic.cpp", 59, 81, "vmul", sk1⟩,
  ⟨"src/internal/arithmetic/double_arithmetic.cpp", 84, 106, "vdiv", sk1⟩,
  ⟨"src/internal/arithmetic/double_arithmetic.cpp", 112, 138, "vadd", sk1⟩,
  ⟨"src/internal/arithmetic/double_arithmetic.cpp", 141, 167, "vsub", sk1⟩,
  ⟨"src/internal/arithmetic/double_arithmetic.cpp", 170, 196, "vmul", sk1⟩,
  ⟨"src/internal/arithmetic/double_arithmetic.cpp", 199, 225, "vdiv", sk1⟩,
  ⟨"src/internal/arithmetic/double_arithmetic.cpp", 232, 251, "vcopy", sk1⟩,
  ⟨"src/internal/arithmetic/double_arithmetic.cpp", 254, 274, "vbroadcast", sk1⟩,
  ⟨"src/internal/arithmetic/double_arithmetic.cpp", 277, 305, "vequal", sk5⟩,
  ⟨"src/internal/arithmetic/double_arithmetic.cpp", 308, 329, "vreciprocal", sk1⟩,
  ⟨"src/internal/arithmetic/float_arithmetic.cpp", 9, 31, "vadd", sk1⟩,
  ⟨"src/internal/arithmetic/float_arithmetic.cpp", 34, 56, "vsub", sk1⟩,
  ⟨"src/internal/arithmetic/float_arithmetic.cpp", 59, 81, "vmul", sk1⟩,
  ⟨"src/internal/arithmetic/float_arithmetic.cpp", 84, 106, "vdiv", sk1⟩,
  ⟨"src/internal/arithmetic/float_arithmetic.cpp", 112, 138, "vadd", sk1⟩,
  ⟨"src/internal/arithmetic/float_arithmetic.cpp", 141, 167, "vsub", sk1⟩
]

/-- Logged functions, part 2 (file and lines in each entry). -/
def fns2 : List Fn := [
  ⟨"src/internal/arithmetic/float_arithmetic.cpp", 170, 196, "vmul", sk1⟩,
  ⟨"src/internal/arithmetic/float_arithmetic.cpp", 199, 225, "vdiv", sk1⟩,
  ⟨"src/internal/arithmetic/float_arithmetic.cpp", 232, 251, "vcopy", sk1⟩,
  ⟨"src/internal/arithmetic/float_arithmetic.cpp", 254, 274, "vbroadcast", sk1⟩,
  ⟨"src/internal/arithmetic/float_arithmetic.cpp", 277, 305, "vequal", sk5⟩,
  ⟨"src/internal/arithmetic/float_arithmetic.cpp", 308, 329, "vreciprocal", sk1⟩,
  ⟨"src/internal/arithmetic/integer_arithmetic.cpp", 11, 33, "vcopy", sk1⟩,
  ⟨"src/internal/arithmetic/integer_arithmetic.cpp", 36, 58, "vcopy", sk1⟩,
  ⟨"src/internal/arithmetic/integer_arithmetic.cpp", 61, 83, "vbroadcast", sk1⟩,
  ⟨"src/internal/arithmetic/integer_arithmetic.cpp", 86, 108, "vbroadcast", sk1⟩,
  ⟨"src/internal/arithmetic/integer_arithmetic.cpp", 111, 139, "vequal", sk5⟩,
  ⟨"src/internal/arithmetic/integer_arithmetic.cpp", 142, 170, "vequal", sk5⟩,
  ⟨"src/internal/lapack/syev/dense_double_syev.cpp", 12, 83, "lapack::syevd", sk16⟩,
  ⟨"src/internal/lapack/syev/dense_float_syev.cpp", 12, 83, "lapack::syevd", sk16⟩,
  ⟨"src/internal/lapack/sygv/dense_double_sygv.cpp", 12, 101, "lapack::sygvd", sk16⟩,
  ⟨"src/internal/lapack/sygv/dense_float_sygv.cpp", 12, 101, "lapack::sygvd", sk16⟩,
  ⟨"src/internal/lapack/sytrs/dense_double_sytrs.cpp", 12, 82, "lapack::sytrs", sk16⟩,
  ⟨"src/internal/lapack/sytrs/dense_float_sytrs.cpp", 12, 82, "lapack::sytrs", sk16⟩,
  ⟨"src/internal/math/double_math.cpp", 10, 35, "vsqrt", sk1⟩,
  ⟨"src/internal/math/double_math.cpp", 40, 66, "vpow", sk1⟩,
  ⟨"src/internal/math/double_math.cpp", 68, 94, "vpow", sk1⟩,
  ⟨"src/internal/math/double_math.cpp", 99, 124, "vsin", sk1⟩,
  ⟨"src/internal/math/double_math.cpp", 126, 151, "vsinh", sk1⟩,
  ⟨"src/internal/math/double_math.cpp", 153, 178, "vasin", sk1⟩,
  ⟨"src/internal/math/double_math.cpp", 179, 204, "vasinh", sk1⟩,
  ⟨"src/internal/math/double_math.cpp", 209, 234, "vtan", sk1⟩,
  ⟨"src/internal/math/double_math.cpp", 236, 261, "vtanh", sk1⟩,
  ⟨"src/internal/math/double_math.cpp", 263, 288, "vatan", sk1⟩,
  ⟨"src/internal/math/double_math.cpp", 289, 314, "vatanh", sk1⟩,
  ⟨"src/internal/math/double_math.cpp", 319, 344, "vceil", sk1⟩,
  ⟨"src/internal/math/double_math.cpp", 346, 371, "vfloor", sk1⟩,
  ⟨"src/internal/math/double_math.cpp", 376, 397, "vsign", sk1⟩,
  ⟨"src/internal/math/double_math.cpp", 402, 427, "vexp", sk1⟩,
  ⟨"src/internal/math/double_math.cpp", 432, 460, "vmax", sk5⟩,
  ⟨"src/internal/math/double_math.cpp", 462, 484, "vmax", sk1⟩,
  ⟨"src/internal/math/double_math.cpp", 486, 508, "vmax", sk1⟩,
  ⟨"src/internal/math/double_math.cpp", 513, 541, "vmin", sk5⟩,
  ⟨"src/internal/math/double_math.cpp", 543, 565, "vmin", sk1⟩,
  ⟨"src/internal/math/double_math.cpp", 567, 589, "vmin", sk1⟩,
  ⟨"src/internal/math/double_math.cpp", 594, 618, "valo", sk1⟩,
  ⟨"src/internal/math/float_math.cpp", 10, 35, "vsqrt", sk1⟩,
  ⟨"src/internal/math/float_math.cpp", 40, 66, "vpow", sk1⟩,
  ⟨"src/internal/math/float_math.cpp", 68, 94, "vpow", sk1⟩,
  ⟨"src/internal/math/float_math.cpp", 99, 124, "vsin", sk1⟩,
  ⟨"src/internal/math/float_math.cpp", 126, 151, "vsinh", sk1⟩,
  ⟨"src/internal/math/float_math.cpp", 153, 178, "vasin", sk1⟩,
  ⟨"src/internal/math/float_math.cpp", 179, 204, "vasinh", sk1⟩,
  ⟨"src/internal/math/float_math.cpp", 209, 234, "vtan", sk1⟩,
  ⟨"src/internal/math/float_math.cpp", 236, 261, "vtanh", sk1⟩,
  ⟨"src/internal/math/float_math.cpp", 263, 288, "vatan", sk1⟩,
  ⟨"src/internal/math/float_math.cpp", 289, 314, "vatanh", sk1⟩,
  ⟨"src/internal/math/float_math.cpp", 319, 344, "vceil", sk1⟩,
  ⟨"src/internal/math/float_math.cpp", 346, 371, "vfloor", sk1⟩,
  ⟨"src/internal/math/float_math.cpp", 376, 397, "vsign", sk1⟩,
  ⟨"src/internal/math/float_math.cpp", 402, 427, "vexp", sk1⟩,
  ⟨"src/internal/math/float_math.cpp", 432, 460, "vmax", sk5⟩,
  ⟨"src/internal/math/float_math.cpp", 462, 484, "vmax", sk1⟩,
  ⟨"src/internal/math/float_math.cpp", 486, 508, "vmax", sk1⟩,
  ⟨"src/internal/math/float_math.cpp", 513, 541, "vmin", sk5⟩,
  ⟨"src/internal/math/float_math.cpp", 543, 565, "vmin", sk1⟩,
  ⟨"src/internal/math/float_math.cpp", 567, 589, "vmin", sk1⟩,
  ⟨"src/internal/math/float_math.cpp", 594, 618, "valo", sk1⟩,
  ⟨"src/internal/math/integer_math.cpp", 12, 39, "vhash", sk5⟩,
  ⟨"src/internal/math/integer_math.cpp", 41, 68, "vhash", sk5⟩,
  ⟨"src/mpi/Bcast.hpp", 7, 16, "Bcast_core", sk27⟩,
  ⟨"src/mpi/Bcast.hpp", 19, 30, "Bcast_core", sk27⟩,
  ⟨"src/mpi/Bcast.hpp", 33, 44, "Bcast_core", sk27⟩,
  ⟨"src/mpi/Gather.hpp", 7, 21, "Gather_core", sk27⟩,
  ⟨"src/mpi/Gather.hpp", 24, 38, "Gather_core", sk27⟩,
  ⟨"src/mpi/Scatter.hpp", 7, 21, "Scatter_core", sk27⟩,
  ⟨"src/mpi/Scatter.hpp", 24, 38, "Scatter_core", sk27⟩,
  ⟨"src/mpi/allreduce.hpp", 6, 16, "Allreduce_core", sk28⟩,
  ⟨"src/mpi/isend_irecv.hpp", 12, 25, "Isend_core", sk27⟩,
  ⟨"src/mpi/isend_irecv.hpp", 28, 42, "Isend_core", sk27⟩,
  ⟨"src/mpi/isend_irecv.hpp", 45, 57, "Isend_core", sk27⟩,
  ⟨"src/mpi/isend_irecv.hpp", 64, 77, "Irecv_core", sk27⟩,
  ⟨"src/mpi/isend_irecv.hpp", 80, 94, "Irecv_core", sk27⟩,
  ⟨"src/mpi/isend_irecv.hpp", 97, 111, "Irecv_core", sk27⟩,
  ⟨"src/mpi/isend_irecv.hpp", 113, 124, "Waitall_core", sk27⟩,
  ⟨"src/mpi/monolish_mpi.cpp", 12, 17, "comm::set_comm", sk2⟩,
  ⟨"src/mpi/monolish_mpi.cpp", 19, 29, "comm::Init", sk27⟩,
  ⟨"src/mpi/monolish_mpi.cpp", 31, 41, "comm::Init", sk27⟩,
  ⟨"src/mpi/monolish_mpi.cpp", 43, 54, "comm::Initialized", sk28⟩,
  ⟨"src/mpi/monolish_mpi.cpp", 56, 63, "comm::Finalize", sk27⟩,
  ⟨"src/mpi/monolish_mpi.cpp", 67, 78, "comm::get_rank", sk29⟩,
  ⟨"src/mpi/monolish_mpi.cpp", 80, 91, "comm::get_size", sk29⟩,
  ⟨"src/mpi/monolish_mpi.cpp", 95, 103, "comm::Barrier", sk27⟩,
  ⟨"src/mpi/send_recv.hpp", 12, 21, "Send_core", sk27⟩,
  ⟨"src/mpi/send_recv.hpp", 24, 35, "Send_core", sk27⟩,
  ⟨"src/mpi/send_recv.hpp", 38, 49, "Send_core", sk27⟩,
  ⟨"src/mpi/send_recv.hpp", 56, 70, "Recv_core", sk29⟩,
  ⟨"src/mpi/send_recv.hpp", 73, 89, "Recv_core", sk29⟩,
  ⟨"src/mpi/send_recv.hpp", 92, 108, "Recv_core", sk29⟩,
  ⟨"src/utils/IO/IO_coo.cpp", 17, 29, "COO::print_all", sk2⟩,
  ⟨"src/utils/IO/IO_coo.cpp", 33, 45, "COO::print_all", sk2⟩,
  ⟨"src/utils/IO/IO_coo.cpp", 49, 65, "COO::output_mm", sk2⟩,
  ⟨"src/utils/IO/IO_coo.cpp", 69, 153, "COO::input_mm", sk2⟩,
  ⟨"src/utils/IO/IO_crs.cpp", 17, 47, "CRS::print_all", sk30⟩,
  ⟨"src/utils/IO/IO_dense.cpp", 17, 44, "Dense::print_all", sk30⟩,
  ⟨"src/utils/IO/IO_tensor_coo.cpp", 18, 32, "tensor_COO::print_all", sk2⟩
]

/-- Logged functions, part 3 (file and lines in each entry). -/
def fns3 : List Fn := [
  ⟨"src/utils/IO/IO_tensor_coo.cpp", 36, 51, "tensor_COO::print_all", sk2⟩,
  ⟨"src/utils/IO/IO_tensor_crs.cpp", 18, 74, "tensor_CRS::print_all", sk30⟩,
  ⟨"src/utils/IO/IO_tensor_dense.cpp", 18, 57, "tensor_Dense::print_all", sk30⟩,
  ⟨"src/utils/IO/IO_vector.cpp", 17, 41, "vector::print_all", sk30⟩,
  ⟨"src/utils/IO/IO_vector.cpp", 45, 56, "vector::print_all", sk31⟩,
  ⟨"src/utils/IO/IO_view1D.cpp", 14, 36, "vector::print_all", sk30⟩,
  ⟨"src/utils/IO/IO_view1D.cpp", 38, 61, "Dense::print_all", sk30⟩,
  ⟨"src/utils/IO/IO_view1D.cpp", 63, 86, "tensor_Dense::print_all", sk30⟩,
  ⟨"src/utils/IO/IO_view1D.cpp", 88, 110, "vector::print_all", sk30⟩,
  ⟨"src/utils/IO/IO_view1D.cpp", 112, 135, "Dense::print_all", sk30⟩,
  ⟨"src/utils/IO/IO_view1D.cpp", 137, 160, "tensor_Dense::print_all", sk30⟩,
  ⟨"src/utils/IO/IO_view_dense.cpp", 14, 42, "view_Dense::print_all", sk30⟩,
  ⟨"src/utils/IO/IO_view_tensor_dense.cpp", 14, 54, "view_tensor_Dense::print_all", sk30⟩,
  ⟨"src/utils/at_insert_sort/at_insert_sort_coo.cpp", 119, 144, "COO::sort", sk2⟩,
  ⟨"src/utils/at_insert_sort/at_insert_sort_tensor_coo.cpp", 107, 131, "tensor_COO::sort", sk2⟩,
  ⟨"src/utils/compare/compare_coo.cpp", 9, 65, "COO::equal", sk32⟩,
  ⟨"src/utils/compare/compare_coo.cpp", 71, 79, "operator==", sk29⟩,
  ⟨"src/utils/compare/compare_coo.cpp", 83, 91, "operator!=", sk33⟩,
  ⟨"src/utils/compare/compare_crs.cpp", 7, 60, "CRS::equal", sk36⟩,
  ⟨"src/utils/compare/compare_crs.cpp", 66, 74, "operator==", sk29⟩,
  ⟨"src/utils/compare/compare_crs.cpp", 78, 86, "operator!=", sk33⟩,
  ⟨"src/utils/compare/compare_dense.cpp", 47, 55, "operator==", sk29⟩,
  ⟨"src/utils/compare/compare_dense.cpp", 59, 67, "operator!=", sk33⟩,
  ⟨"src/utils/compare/compare_tensor_coo.cpp", 9, 55, "tensor_COO::equal", sk39⟩,
  ⟨"src/utils/compare/compare_tensor_coo.cpp", 62, 71, "operator==", sk29⟩,
  ⟨"src/utils/compare/compare_tensor_coo.cpp", 77, 86, "operator!=", sk33⟩,
  ⟨"src/utils/compare/compare_tensor_crs.cpp", 9, 73, "tensor_CRS::equal", sk41⟩,
  ⟨"src/utils/compare/compare_tensor_crs.cpp", 79, 88, "operator==", sk29⟩,
  ⟨"src/utils/compare/compare_tensor_crs.cpp", 94, 103, "operator!=", sk33⟩,
  ⟨"src/utils/compare/compare_tensor_crs.cpp", 115, 141, "is_same_structure", sk42⟩,
  ⟨"src/utils/compare/compare_tensor_crs.cpp", 148, 169, "is_same_size", sk43⟩,
  ⟨"src/utils/compare/compare_tensor_dense.cpp", 46, 55, "operator==", sk29⟩,
  ⟨"src/utils/compare/compare_tensor_dense.cpp", 61, 70, "operator!=", sk33⟩,
  ⟨"src/utils/convert/convert_coo.cpp", 9, 30, "COO::convert", sk2⟩,
  ⟨"src/utils/convert/convert_coo.cpp", 34, 59, "COO::convert", sk2⟩,
  ⟨"src/utils/convert/convert_coo.cpp", 63, 73, "COO::convert", sk2⟩,
  ⟨"src/utils/convert/convert_crs.cpp", 9, 43, "CRS::convert", sk2⟩,
  ⟨"src/utils/convert/convert_crs.cpp", 47, 72, "CRS::convert", sk30⟩,
  ⟨"src/utils/convert/convert_dense.cpp", 9, 27, "Dense::convert", sk2⟩,
  ⟨"src/utils/convert/convert_dense.cpp", 31, 50, "Dense::convert", sk2⟩,
  ⟨"src/utils/convert/convert_linearoperator.cpp", 16, 43, "LinearOperator::convert", sk2⟩,
  ⟨"src/utils/convert/convert_linearoperator.cpp", 48, 79, "LinearOperator::convert", sk2⟩,
  ⟨"src/utils/convert/convert_linearoperator.cpp", 84, 115, "LinearOperator::convert", sk2⟩,
  ⟨"src/utils/convert/convert_tensor_coo.cpp", 10, 43, "tensor_COO::convert", sk2⟩,
  ⟨"src/utils/convert/convert_tensor_coo.cpp", 49, 76, "tensor_COO::convert", sk2⟩,
  ⟨"src/utils/convert/convert_tensor_crs.cpp", 10, 65, "tensor_CRS::convert", sk2⟩,
  ⟨"src/utils/convert/convert_tensor_crs.cpp", 70, 101, "tensor_CRS::convert", sk30⟩,
  ⟨"src/utils/convert/convert_tensor_crs.cpp", 107, 133, "tensor_CRS::convert", sk30⟩,
  ⟨"src/utils/convert/convert_tensor_dense.cpp", 10, 28, "tensor_Dense::convert", sk2⟩,
  ⟨"src/utils/convert/convert_tensor_dense.cpp", 34, 53, "tensor_Dense::convert", sk2⟩,
  ⟨"src/utils/convert/convert_tensor_dense.cpp", 59, 79, "tensor_Dense::convert", sk2⟩,
  ⟨"src/utils/convert/convert_tensor_dense.cpp", 83, 101, "tensor_Dense::convert", sk2⟩,
  ⟨"src/utils/coo_constructor.cpp", 13, 31, "COO::COO", sk2⟩,
  ⟨"src/utils/coo_constructor.cpp", 37, 61, "COO::COO", sk2⟩,
  ⟨"src/utils/coo_constructor.cpp", 70, 86, "COO::COO", sk2⟩,
  ⟨"src/utils/coo_constructor.cpp", 91, 111, "COO::COO", sk2⟩,
  ⟨"src/utils/copy/copy_coo.cpp", 10, 23, "operator=", sk2⟩,
  ⟨"src/utils/copy/copy_coo.cpp", 27, 42, "COO::set_ptr", sk2⟩,
  ⟨"src/utils/copy/copy_coo.cpp", 52, 67, "COO::set_ptr", sk2⟩,
  ⟨"src/utils/copy/copy_crs.cpp", 10, 24, "operator=", sk2⟩,
  ⟨"src/utils/copy/copy_crs.cpp", 28, 47, "CRS::set_ptr", sk2⟩,
  ⟨"src/utils/copy/copy_crs.cpp", 57, 76, "CRS::set_ptr", sk2⟩,
  ⟨"src/utils/copy/copy_dense.cpp", 10, 23, "operator=", sk2⟩,
  ⟨"src/utils/copy/copy_dense.cpp", 28, 42, "operator=", sk2⟩,
  ⟨"src/utils/copy/copy_dense.cpp", 49, 63, "operator=", sk2⟩,
  ⟨"src/utils/copy/copy_dense.cpp", 70, 84, "operator=", sk2⟩,
  ⟨"src/utils/copy/copy_dense.cpp", 91, 103, "Dense::set_ptr", sk2⟩,
  ⟨"src/utils/copy/copy_dense.cpp", 109, 121, "Dense::set_ptr", sk2⟩,
  ⟨"src/utils/copy/copy_linearoperator.cpp", 8, 24, "operator=", sk2⟩,
  ⟨"src/utils/copy/copy_tensor_coo.cpp", 11, 25, "operator=", sk2⟩,
  ⟨"src/utils/copy/copy_tensor_coo.cpp", 27, 41, "tensor_COO::set_ptr", sk2⟩,
  ⟨"src/utils/copy/copy_tensor_coo.cpp", 51, 65, "tensor_COO::set_ptr", sk2⟩,
  ⟨"src/utils/copy/copy_tensor_crs.cpp", 11, 25, "operator=", sk2⟩,
  ⟨"src/utils/copy/copy_tensor_crs.cpp", 29, 47, "tensor_CRS::set_ptr", sk2⟩,
  ⟨"src/utils/copy/copy_tensor_crs.cpp", 59, 77, "tensor_CRS::set_ptr", sk2⟩,
  ⟨"src/utils/copy/copy_tensor_dense.cpp", 11, 25, "operator=", sk2⟩,
  ⟨"src/utils/copy/copy_tensor_dense.cpp", 30, 41, "tensor_Dense::set_ptr", sk2⟩,
  ⟨"src/utils/copy/copy_tensor_dense.cpp", 47, 57, "tensor_Dense::set_ptr", sk2⟩,
  ⟨"src/utils/copy/copy_vector.cpp", 10, 19, "operator=", sk2⟩,
  ⟨"src/utils/copy/copy_vector.cpp", 24, 37, "operator=", sk2⟩,
  ⟨"src/utils/copy/copy_vector.cpp", 42, 56, "operator=", sk2⟩,
  ⟨"src/utils/copy/copy_vector.cpp", 61, 75, "operator=", sk2⟩,
  ⟨"src/utils/copy/copy_vector.cpp", 81, 95, "operator=", sk2⟩,
  ⟨"src/utils/copy/copy_view1D.cpp", 10, 19, "operator=", sk2⟩,
  ⟨"src/utils/copy/copy_view1D.cpp", 34, 53, "operator=", sk2⟩,
  ⟨"src/utils/copy/copy_view1D.cpp", 67, 86, "operator=", sk2⟩,
  ⟨"src/utils/copy/copy_view1D.cpp", 100, 119, "operator=", sk2⟩,
  ⟨"src/utils/copy/copy_view1D.cpp", 133, 152, "operator=", sk2⟩,
  ⟨"src/utils/copy/copy_view_dense.cpp", 9, 26, "operator=", sk2⟩,
  ⟨"src/utils/copy/copy_view_dense.cpp", 41, 58, "operator=", sk2⟩,
  ⟨"src/utils/copy/copy_view_dense.cpp", 73, 90, "operator=", sk2⟩,
  ⟨"src/utils/copy/copy_view_dense.cpp", 105, 123, "operator=", sk2⟩,
  ⟨"src/utils/copy/copy_view_tensor_dense.cpp", 10, 27, "operator=", sk2⟩,
  ⟨"src/utils/copy/copy_view_tensor_dense.cpp", 43, 61, "operator=", sk2⟩,
  ⟨"src/utils/copy/copy_view_tensor_dense.cpp", 77, 95, "operator=", sk2⟩,
  ⟨"src/utils/copy/copy_view_tensor_dense.cpp", 111, 129, "operator=", sk2⟩,
  ⟨"src/utils/create_matrix/band_matrix.cpp", 6, 35, "util::band_matrix", sk46⟩,
  ⟨"src/utils/create_matrix/band_matrix.cpp", 44, 76, "util::asym_band_matrix", sk46⟩,
  ⟨"src/utils/create_matrix/eye.cpp", 6, 19, "util::eye", sk29⟩,
  ⟨"src/utils/create_matrix/frank.cpp", 6, 21, "util::frank_matrix", sk29⟩
]

/-- Logged functions, part 4 (file and lines in each entry). -/
def fns4 : List Fn := [
  ⟨"src/utils/create_matrix/laplacian_2D5p.cpp", 6, 50, "util::laplacian_matrix_2D_5p", sk29⟩,
  ⟨"src/utils/create_matrix/random_structure.cpp", 7, 37, "util::random_structure_matrix", sk46⟩,
  ⟨"src/utils/create_matrix/toeplitz_plus_hankel.cpp", 6, 37, "util::toeplitz_plus_hankel_matrix", sk29⟩,
  ⟨"src/utils/create_matrix/tridiagonal_toeplitz.cpp", 6, 24, "util::tridiagonal_toeplitz_matrix", sk29⟩,
  ⟨"src/utils/create_tensor/random_tensor.cpp", 7, 38, "util::random_structure_tensor", sk46⟩,
  ⟨"src/utils/create_tensor/random_tensor.cpp", 46, 79, "util::random_structure_tensor", sk46⟩,
  ⟨"src/utils/create_tensor/random_tensor.cpp", 87, 123, "util::random_structure_tensor", sk46⟩,
  ⟨"src/utils/crs_constructor.cpp", 10, 22, "CRS::CRS", sk2⟩,
  ⟨"src/utils/crs_constructor.cpp", 26, 43, "CRS::CRS", sk2⟩,
  ⟨"src/utils/crs_constructor.cpp", 51, 74, "CRS::CRS", sk2⟩,
  ⟨"src/utils/crs_constructor.cpp", 82, 99, "CRS::CRS", sk2⟩,
  ⟨"src/utils/crs_constructor.cpp", 109, 142, "CRS::CRS", sk31⟩,
  ⟨"src/utils/crs_constructor.cpp", 154, 185, "CRS::CRS", sk2⟩,
  ⟨"src/utils/crs_constructor.cpp", 190, 221, "CRS::CRS", sk2⟩,
  ⟨"src/utils/dense_constructor.cpp", 12, 21, "Dense::Dense", sk2⟩,
  ⟨"src/utils/dense_constructor.cpp", 25, 36, "Dense::Dense", sk2⟩,
  ⟨"src/utils/dense_constructor.cpp", 42, 53, "Dense::Dense", sk2⟩,
  ⟨"src/utils/dense_constructor.cpp", 59, 86, "Dense::Dense", sk47⟩,
  ⟨"src/utils/dense_constructor.cpp", 92, 104, "Dense::Dense", sk2⟩,
  ⟨"src/utils/dense_constructor.cpp", 110, 129, "Dense::Dense", sk2⟩,
  ⟨"src/utils/dense_constructor.cpp", 135, 154, "Dense::Dense", sk2⟩,
  ⟨"src/utils/dense_constructor.cpp", 160, 176, "Dense::Dense", sk2⟩,
  ⟨"src/utils/dense_constructor.cpp", 182, 202, "Dense::Dense", sk2⟩,
  ⟨"src/utils/dense_constructor.cpp", 207, 227, "Dense::Dense", sk2⟩,
  ⟨"src/utils/dense_constructor.cpp", 232, 252, "Dense::Dense", sk2⟩,
  ⟨"src/utils/dense_constructor.cpp", 256, 277, "Dense::Dense", sk2⟩,
  ⟨"src/utils/dense_constructor.cpp", 283, 304, "Dense::Dense", sk2⟩,
  ⟨"src/utils/equation_utils.cpp", 32, 43, "get_residual_l2_core", sk33⟩,
  ⟨"src/utils/equation_utils.cpp", 45, 56, "get_residual_l2_core", sk33⟩,
  ⟨"src/utils/equation_utils.cpp", 58, 70, "get_residual_l2_core", sk33⟩,
  ⟨"src/utils/fill/fill_coo.cpp", 9, 17, "COO::fill", sk2⟩,
  ⟨"src/utils/fill/fill_crs.cpp", 9, 30, "CRS::fill", sk30⟩,
  ⟨"src/utils/fill/fill_dense.cpp", 9, 30, "Dense::fill", sk30⟩,
  ⟨"src/utils/fill/fill_tensor_coo.cpp", 10, 18, "tensor_COO::fill", sk2⟩,
  ⟨"src/utils/fill/fill_tensor_crs.cpp", 9, 30, "tensor_CRS::fill", sk30⟩,
  ⟨"src/utils/fill/fill_tensor_dense.cpp", 10, 31, "tensor_Dense::fill", sk30⟩,
  ⟨"src/utils/fill/fill_vector.cpp", 9, 31, "vector::fill", sk30⟩,
  ⟨"src/utils/fill/fill_view1D.cpp", 9, 30, "view1D::fill", sk30⟩,
  ⟨"src/utils/fill/fill_view_dense.cpp", 9, 30, "view_Dense::fill", sk30⟩,
  ⟨"src/utils/fill/fill_view_tensor_dense.cpp", 9, 30, "view_tensor_Dense::fill", sk30⟩,
  ⟨"src/utils/getvec/coo_getvec.cpp", 8, 26, "COO::diag", sk0⟩,
  ⟨"src/utils/getvec/coo_getvec.cpp", 30, 47, "COO::diag", sk0⟩,
  ⟨"src/utils/getvec/coo_getvec.cpp", 53, 72, "COO::diag", sk0⟩,
  ⟨"src/utils/getvec/coo_getvec.cpp", 78, 97, "COO::diag", sk0⟩,
  ⟨"src/utils/getvec/coo_getvec.cpp", 104, 120, "COO::row", sk0⟩,
  ⟨"src/utils/getvec/coo_getvec.cpp", 126, 143, "COO::row", sk0⟩,
  ⟨"src/utils/getvec/coo_getvec.cpp", 151, 168, "COO::row", sk0⟩,
  ⟨"src/utils/getvec/coo_getvec.cpp", 174, 192, "COO::row", sk0⟩,
  ⟨"src/utils/getvec/coo_getvec.cpp", 199, 215, "COO::col", sk0⟩,
  ⟨"src/utils/getvec/coo_getvec.cpp", 221, 238, "COO::col", sk0⟩,
  ⟨"src/utils/getvec/coo_getvec.cpp", 246, 263, "COO::col", sk0⟩,
  ⟨"src/utils/getvec/coo_getvec.cpp", 269, 287, "COO::col", sk0⟩,
  ⟨"src/utils/getvec/crs_getvec.cpp", 8, 55, "CRS::diag", sk1⟩,
  ⟨"src/utils/getvec/crs_getvec.cpp", 59, 106, "CRS::diag", sk1⟩,
  ⟨"src/utils/getvec/crs_getvec.cpp", 112, 160, "CRS::diag", sk1⟩,
  ⟨"src/utils/getvec/crs_getvec.cpp", 166, 214, "CRS::diag", sk1⟩,
  ⟨"src/utils/getvec/crs_getvec.cpp", 221, 261, "CRS::row", sk1⟩,
  ⟨"src/utils/getvec/crs_getvec.cpp", 267, 308, "CRS::row", sk1⟩,
  ⟨"src/utils/getvec/crs_getvec.cpp", 316, 357, "CRS::row", sk1⟩,
  ⟨"src/utils/getvec/crs_getvec.cpp", 363, 405, "CRS::row", sk1⟩,
  ⟨"src/utils/getvec/crs_getvec.cpp", 412, 459, "CRS::col", sk1⟩,
  ⟨"src/utils/getvec/crs_getvec.cpp", 465, 513, "CRS::col", sk1⟩,
  ⟨"src/utils/getvec/crs_getvec.cpp", 521, 569, "CRS::col", sk1⟩,
  ⟨"src/utils/getvec/crs_getvec.cpp", 575, 624, "CRS::col", sk1⟩,
  ⟨"src/utils/getvec/dense_getvec.cpp", 8, 39, "Dense::diag", sk1⟩,
  ⟨"src/utils/getvec/dense_getvec.cpp", 43, 74, "Dense::diag", sk1⟩,
  ⟨"src/utils/getvec/dense_getvec.cpp", 80, 112, "Dense::diag", sk1⟩,
  ⟨"src/utils/getvec/dense_getvec.cpp", 118, 150, "Dense::diag", sk1⟩,
  ⟨"src/utils/getvec/dense_getvec.cpp", 157, 187, "Dense::row", sk1⟩,
  ⟨"src/utils/getvec/dense_getvec.cpp", 193, 224, "Dense::row", sk1⟩,
  ⟨"src/utils/getvec/dense_getvec.cpp", 232, 263, "Dense::row", sk1⟩,
  ⟨"src/utils/getvec/dense_getvec.cpp", 269, 301, "Dense::row", sk1⟩,
  ⟨"src/utils/getvec/dense_getvec.cpp", 308, 339, "Dense::col", sk1⟩,
  ⟨"src/utils/getvec/dense_getvec.cpp", 345, 377, "Dense::col", sk1⟩,
  ⟨"src/utils/getvec/dense_getvec.cpp", 385, 417, "Dense::col", sk1⟩,
  ⟨"src/utils/getvec/dense_getvec.cpp", 423, 456, "Dense::col", sk1⟩,
  ⟨"src/utils/getvec/linearoperator_getvec.cpp", 8, 55, "LinearOperator::diag", sk1⟩,
  ⟨"src/utils/getvec/linearoperator_getvec.cpp", 62, 107, "LinearOperator::diag", sk1⟩,
  ⟨"src/utils/getvec/linearoperator_getvec.cpp", 114, 159, "LinearOperator::diag", sk1⟩,
  ⟨"src/utils/getvec/linearoperator_getvec.cpp", 166, 211, "LinearOperator::diag", sk1⟩,
  ⟨"src/utils/getvec/tensor_coo_getvec.cpp", 8, 33, "tensor_COO::diag", sk0⟩,
  ⟨"src/utils/getvec/tensor_coo_getvec.cpp", 39, 64, "tensor_COO::diag", sk0⟩,
  ⟨"src/utils/getvec/tensor_coo_getvec.cpp", 70, 96, "tensor_COO::diag", sk0⟩,
  ⟨"src/utils/getvec/tensor_coo_getvec.cpp", 102, 128, "tensor_COO::diag", sk0⟩,
  ⟨"src/utils/hash.cpp", 10, 20, "CRS::compute_hash", sk2⟩,
  ⟨"src/utils/hash.cpp", 28, 43, "tensor_CRS::compute_hash", sk2⟩,
  ⟨"src/utils/linearoperator_constructor.cpp", 16, 24, "LinearOperator::LinearOperator", sk2⟩,
  ⟨"src/utils/linearoperator_constructor.cpp", 28, 39, "LinearOperator::LinearOperator", sk2⟩,
  ⟨"src/utils/linearoperator_constructor.cpp", 48, 61, "LinearOperator::LinearOperator", sk2⟩,
  ⟨"src/utils/linearoperator_constructor.cpp", 72, 83, "LinearOperator::LinearOperator", sk2⟩,
  ⟨"src/utils/linearoperator_constructor.cpp", 92, 105, "LinearOperator::LinearOperator", sk2⟩,
  ⟨"src/utils/minus/vector_minus.cpp", 8, 21, "operator-", sk16⟩,
  ⟨"src/utils/move/move_dense.cpp", 10, 31, "Dense::move", sk31⟩,
  ⟨"src/utils/move/move_dense.cpp", 38, 59, "Dense::move", sk31⟩,
  ⟨"src/utils/move/move_dense.cpp", 66, 88, "Dense::move", sk31⟩,
  ⟨"src/utils/move/move_dense.cpp", 95, 117, "Dense::move", sk31⟩,
  ⟨"src/utils/move/move_dense.cpp", 126, 159, "Dense::move", sk49⟩,
  ⟨"src/utils/move/move_dense.cpp", 168, 201, "Dense::move", sk49⟩,
  ⟨"src/utils/move/move_dense.cpp", 210, 243, "Dense::move", sk49⟩,
  ⟨"src/utils/move/move_dense.cpp", 252, 286, "Dense::move", sk49⟩
]

/-- Logged functions, part 5 (file and lines in each entry). -/
def fns5 : List Fn := [
  ⟨"src/utils/move/move_tensor_dense.cpp", 11, 29, "tensor_Dense::move", sk2⟩,
  ⟨"src/utils/move/move_tensor_dense.cpp", 34, 50, "tensor_Dense::move", sk2⟩,
  ⟨"src/utils/move/move_vector.cpp", 9, 28, "vector::move", sk31⟩,
  ⟨"src/utils/move/move_vector.cpp", 35, 54, "vector::move", sk31⟩,
  ⟨"src/utils/move/move_vector.cpp", 61, 81, "vector::move", sk31⟩,
  ⟨"src/utils/move/move_vector.cpp", 88, 108, "vector::move", sk31⟩,
  ⟨"src/utils/move/move_vector.cpp", 116, 138, "vector::move", sk31⟩,
  ⟨"src/utils/move/move_vector.cpp", 145, 168, "vector::move", sk31⟩,
  ⟨"src/utils/move/move_vector.cpp", 176, 199, "vector::move", sk31⟩,
  ⟨"src/utils/move/move_vector.cpp", 208, 232, "vector::move", sk31⟩,
  ⟨"src/utils/move/move_view_dense.cpp", 9, 29, "view_Dense::move", sk31⟩,
  ⟨"src/utils/move/move_view_dense.cpp", 46, 77, "view_Dense::move", sk49⟩,
  ⟨"src/utils/reshape/reshape_dense.cpp", 9, 26, "Dense::reshape", sk31⟩,
  ⟨"src/utils/reshape/reshape_tensor_dense.cpp", 8, 45, "tensor_Dense::reshape", sk50⟩,
  ⟨"src/utils/system/gpu_comm.cpp", 8, 24, "vector::send", sk27⟩,
  ⟨"src/utils/system/gpu_comm.cpp", 27, 42, "vector::recv", sk27⟩,
  ⟨"src/utils/system/gpu_comm.cpp", 45, 57, "vector::nonfree_recv", sk27⟩,
  ⟨"src/utils/system/gpu_comm.cpp", 60, 73, "vector::device_free", sk27⟩,
  ⟨"src/utils/system/gpu_comm.cpp", 89, 110, "CRS::send", sk27⟩,
  ⟨"src/utils/system/gpu_comm.cpp", 113, 131, "CRS::recv", sk27⟩,
  ⟨"src/utils/system/gpu_comm.cpp", 134, 150, "CRS::nonfree_recv", sk27⟩,
  ⟨"src/utils/system/gpu_comm.cpp", 153, 172, "CRS::device_free", sk27⟩,
  ⟨"src/utils/system/gpu_comm.cpp", 186, 202, "Dense::send", sk27⟩,
  ⟨"src/utils/system/gpu_comm.cpp", 205, 219, "Dense::recv", sk27⟩,
  ⟨"src/utils/system/gpu_comm.cpp", 222, 235, "Dense::nonfree_recv", sk27⟩,
  ⟨"src/utils/system/gpu_comm.cpp", 238, 253, "Dense::device_free", sk27⟩,
  ⟨"src/utils/system/gpu_comm.cpp", 268, 284, "tensor_Dense::send", sk27⟩,
  ⟨"src/utils/system/gpu_comm.cpp", 287, 301, "tensor_Dense::recv", sk27⟩,
  ⟨"src/utils/system/gpu_comm.cpp", 304, 317, "tensor_Dense::nonfree_recv", sk27⟩,
  ⟨"src/utils/system/gpu_comm.cpp", 320, 335, "tensor_Dense::device_free", sk27⟩,
  ⟨"src/utils/system/gpu_comm.cpp", 350, 383, "tensor_CRS::send", sk27⟩,
  ⟨"src/utils/system/gpu_comm.cpp", 386, 409, "tensor_CRS::recv", sk27⟩,
  ⟨"src/utils/system/gpu_comm.cpp", 412, 433, "tensor_CRS::nonfree_recv", sk27⟩,
  ⟨"src/utils/system/gpu_comm.cpp", 436, 459, "tensor_CRS::device_free", sk27⟩,
  ⟨"src/utils/tensor_coo_constructor.cpp", 11, 24, "tensor_COO::tensor_COO", sk2⟩,
  ⟨"src/utils/tensor_coo_constructor.cpp", 33, 44, "tensor_COO::tensor_COO", sk2⟩,
  ⟨"src/utils/tensor_coo_constructor.cpp", 49, 61, "tensor_COO::tensor_COO", sk2⟩,
  ⟨"src/utils/tensor_crs_constructor.cpp", 12, 31, "tensor_CRS::tensor_CRS", sk2⟩,
  ⟨"src/utils/tensor_crs_constructor.cpp", 42, 55, "tensor_CRS::tensor_CRS", sk2⟩,
  ⟨"src/utils/tensor_dense_constructor.cpp", 11, 20, "tensor_Dense::tensor_Dense", sk2⟩,
  ⟨"src/utils/tensor_dense_constructor.cpp", 24, 33, "tensor_Dense::tensor_Dense", sk2⟩,
  ⟨"src/utils/tensor_dense_constructor.cpp", 39, 50, "tensor_Dense::tensor_Dense", sk2⟩,
  ⟨"src/utils/tensor_dense_constructor.cpp", 57, 68, "tensor_Dense::tensor_Dense", sk2⟩,
  ⟨"src/utils/tensor_dense_constructor.cpp", 75, 94, "tensor_Dense::tensor_Dense", sk2⟩,
  ⟨"src/utils/tensor_dense_constructor.cpp", 100, 118, "tensor_Dense::tensor_Dense", sk2⟩,
  ⟨"src/utils/tensor_dense_constructor.cpp", 126, 144, "tensor_Dense::tensor_Dense", sk2⟩,
  ⟨"src/utils/tensor_dense_constructor.cpp", 148, 166, "tensor_Dense::tensor_Dense", sk2⟩,
  ⟨"src/utils/tensor_dense_constructor.cpp", 173, 191, "tensor_Dense::tensor_Dense", sk2⟩,
  ⟨"src/utils/tensor_dense_constructor.cpp", 197, 216, "tensor_Dense::tensor_Dense", sk2⟩,
  ⟨"src/utils/tensor_dense_constructor.cpp", 222, 241, "tensor_Dense::tensor_Dense", sk2⟩,
  ⟨"src/utils/transpose/transpose_coo.cpp", 9, 17, "COO::transpose", sk2⟩,
  ⟨"src/utils/transpose/transpose_coo.cpp", 21, 42, "COO::transpose", sk51⟩,
  ⟨"src/utils/transpose/transpose_crs.cpp", 9, 53, "CRS::transpose", sk2⟩,
  ⟨"src/utils/transpose/transpose_crs.cpp", 57, 107, "CRS::transpose", sk31⟩,
  ⟨"src/utils/transpose/transpose_dense.cpp", 9, 36, "Dense::transpose", sk2⟩,
  ⟨"src/utils/transpose/transpose_dense.cpp", 40, 62, "Dense::transpose", sk51⟩,
  ⟨"src/utils/vector_constructor.cpp", 8, 14, "vector::vector", sk2⟩,
  ⟨"src/utils/vector_constructor.cpp", 18, 30, "vector::vector", sk2⟩,
  ⟨"src/utils/vector_constructor.cpp", 35, 49, "util::random_vector", sk2⟩,
  ⟨"src/utils/vector_constructor.cpp", 55, 71, "vector::vector", sk2⟩,
  ⟨"src/utils/vector_constructor.cpp", 78, 92, "util::random_vector", sk2⟩,
  ⟨"src/utils/vector_constructor.cpp", 98, 114, "vector::vector", sk2⟩,
  ⟨"src/utils/vector_constructor.cpp", 121, 129, "vector::vector", sk2⟩,
  ⟨"src/utils/vector_constructor.cpp", 134, 141, "vector::vector", sk2⟩,
  ⟨"src/utils/vector_constructor.cpp", 147, 154, "vector::vector", sk2⟩,
  ⟨"src/utils/vector_constructor.cpp", 159, 176, "vector::vector", sk2⟩,
  ⟨"src/utils/vector_constructor.cpp", 181, 199, "vector::vector", sk2⟩,
  ⟨"src/utils/vector_constructor.cpp", 204, 222, "vector::vector", sk2⟩,
  ⟨"src/utils/vector_constructor.cpp", 228, 247, "vector::vector", sk2⟩,
  ⟨"src/vml/linearoperator/double_linearoperator_linearoperator.cpp", 11, 57, "vml::add", sk0⟩,
  ⟨"src/vml/linearoperator/double_linearoperator_linearoperator.cpp", 59, 102, "vml::sub", sk0⟩,
  ⟨"src/vml/linearoperator/double_scalar_linearoperator.cpp", 11, 50, "vml::add", sk0⟩,
  ⟨"src/vml/linearoperator/double_scalar_linearoperator.cpp", 52, 91, "vml::sub", sk0⟩,
  ⟨"src/vml/linearoperator/double_scalar_linearoperator.cpp", 93, 132, "vml::mul", sk0⟩,
  ⟨"src/vml/linearoperator/double_scalar_linearoperator.cpp", 134, 173, "vml::div", sk0⟩,
  ⟨"src/vml/linearoperator/float_linearoperator_linearoperator.cpp", 11, 57, "vml::add", sk0⟩,
  ⟨"src/vml/linearoperator/float_linearoperator_linearoperator.cpp", 59, 102, "vml::sub", sk0⟩,
  ⟨"src/vml/linearoperator/float_scalar_linearoperator.cpp", 11, 50, "vml::add", sk0⟩,
  ⟨"src/vml/linearoperator/float_scalar_linearoperator.cpp", 52, 91, "vml::sub", sk0⟩,
  ⟨"src/vml/linearoperator/float_scalar_linearoperator.cpp", 93, 132, "vml::mul", sk0⟩,
  ⟨"src/vml/linearoperator/float_scalar_linearoperator.cpp", 134, 173, "vml::div", sk0⟩,
  ⟨"src/vml/matrix/arithmetic/matadd.hpp", 6, 19, "smadd_core", sk0⟩,
  ⟨"src/vml/matrix/arithmetic/matadd.hpp", 21, 35, "mmadd_core", sk0⟩,
  ⟨"src/vml/matrix/arithmetic/matdiv.hpp", 6, 19, "smdiv_core", sk0⟩,
  ⟨"src/vml/matrix/arithmetic/matdiv.hpp", 21, 35, "mmdiv_core", sk0⟩,
  ⟨"src/vml/matrix/arithmetic/matmul.hpp", 6, 19, "smmul_core", sk0⟩,
  ⟨"src/vml/matrix/arithmetic/matmul.hpp", 21, 35, "mmmul_core", sk0⟩,
  ⟨"src/vml/matrix/arithmetic/matsub.hpp", 6, 19, "smsub_core", sk0⟩,
  ⟨"src/vml/matrix/arithmetic/matsub.hpp", 21, 35, "mmsub_core", sk0⟩,
  ⟨"src/vml/matrix/math_1_3op/matmax.hpp", 5, 19, "mmmax_core", sk0⟩,
  ⟨"src/vml/matrix/math_1_3op/matmax.hpp", 21, 35, "smmax_core", sk0⟩,
  ⟨"src/vml/matrix/math_1_3op/matmax.hpp", 37, 49, "mmax_core", sk52⟩,
  ⟨"src/vml/matrix/math_1_3op/matmin.hpp", 5, 19, "mmmin_core", sk0⟩,
  ⟨"src/vml/matrix/math_1_3op/matmin.hpp", 21, 35, "smmin_core", sk0⟩,
  ⟨"src/vml/matrix/math_1_3op/matmin.hpp", 37, 49, "mmin_core", sk52⟩,
  ⟨"src/vml/matrix/math_1_3op/matpow.hpp", 5, 19, "mmpow_core", sk0⟩,
  ⟨"src/vml/matrix/math_1_3op/matpow.hpp", 21, 35, "smpow_core", sk0⟩,
  ⟨"src/vml/matrix/math_2op/matalo.hpp", 5, 19, "malo_core", sk0⟩,
  ⟨"src/vml/matrix/math_2op/matasin.hpp", 5, 17, "masin_core", sk0⟩,
  ⟨"src/vml/matrix/math_2op/matasinh.hpp", 5, 17, "masinh_core", sk0⟩
]

/-- Logged functions, part 6 (file and lines in each entry). -/
def fns6 : List Fn := [
  ⟨"src/vml/matrix/math_2op/matatan.hpp", 5, 17, "matan_core", sk0⟩,
  ⟨"src/vml/matrix/math_2op/matatanh.hpp", 5, 17, "matanh_core", sk0⟩,
  ⟨"src/vml/matrix/math_2op/matceil.hpp", 5, 17, "mceil_core", sk0⟩,
  ⟨"src/vml/matrix/math_2op/matexp.hpp", 5, 17, "mexp_core", sk0⟩,
  ⟨"src/vml/matrix/math_2op/matfloor.hpp", 5, 17, "mfloor_core", sk0⟩,
  ⟨"src/vml/matrix/math_2op/matreciprocal.hpp", 5, 18, "mreciprocal_core", sk0⟩,
  ⟨"src/vml/matrix/math_2op/matsign.hpp", 5, 17, "msign_core", sk0⟩,
  ⟨"src/vml/matrix/math_2op/matsin.hpp", 5, 17, "msin_core", sk0⟩,
  ⟨"src/vml/matrix/math_2op/matsinh.hpp", 5, 17, "msinh_core", sk0⟩,
  ⟨"src/vml/matrix/math_2op/matsqrt.hpp", 5, 17, "msqrt_core", sk0⟩,
  ⟨"src/vml/matrix/math_2op/mattan.hpp", 5, 17, "mtan_core", sk0⟩,
  ⟨"src/vml/matrix/math_2op/mattanh.hpp", 5, 17, "mtanh_core", sk0⟩,
  ⟨"src/vml/tensor/arithmetic/tensadd.hpp", 6, 19, "stadd_core", sk0⟩,
  ⟨"src/vml/tensor/arithmetic/tensadd.hpp", 21, 35, "ttadd_core", sk0⟩,
  ⟨"src/vml/tensor/arithmetic/tensdiv.hpp", 6, 19, "stdiv_core", sk0⟩,
  ⟨"src/vml/tensor/arithmetic/tensdiv.hpp", 21, 35, "ttdiv_core", sk0⟩,
  ⟨"src/vml/tensor/arithmetic/tensmul.hpp", 6, 19, "stmul_core", sk0⟩,
  ⟨"src/vml/tensor/arithmetic/tensmul.hpp", 21, 35, "ttmul_core", sk0⟩,
  ⟨"src/vml/tensor/arithmetic/tenssub.hpp", 6, 19, "stsub_core", sk0⟩,
  ⟨"src/vml/tensor/arithmetic/tenssub.hpp", 21, 35, "ttsub_core", sk0⟩,
  ⟨"src/vml/tensor/math_1_3op/tensmax.hpp", 5, 19, "ttmax_core", sk0⟩,
  ⟨"src/vml/tensor/math_1_3op/tensmax.hpp", 21, 35, "stmax_core", sk0⟩,
  ⟨"src/vml/tensor/math_1_3op/tensmax.hpp", 37, 49, "tmax_core", sk52⟩,
  ⟨"src/vml/tensor/math_1_3op/tensmin.hpp", 5, 19, "ttmin_core", sk0⟩,
  ⟨"src/vml/tensor/math_1_3op/tensmin.hpp", 21, 35, "stmin_core", sk0⟩,
  ⟨"src/vml/tensor/math_1_3op/tensmin.hpp", 37, 49, "tmin_core", sk52⟩,
  ⟨"src/vml/tensor/math_1_3op/tenspow.hpp", 5, 19, "ttpow_core", sk0⟩,
  ⟨"src/vml/tensor/math_1_3op/tenspow.hpp", 21, 35, "stpow_core", sk0⟩,
  ⟨"src/vml/tensor/math_2op/tensalo.hpp", 5, 19, "talo_core", sk0⟩,
  ⟨"src/vml/tensor/math_2op/tensasin.hpp", 5, 17, "tasin_core", sk0⟩,
  ⟨"src/vml/tensor/math_2op/tensasinh.hpp", 5, 17, "tasinh_core", sk0⟩,
  ⟨"src/vml/tensor/math_2op/tensatan.hpp", 5, 17, "tatan_core", sk0⟩,
  ⟨"src/vml/tensor/math_2op/tensatanh.hpp", 5, 17, "tatanh_core", sk0⟩,
  ⟨"src/vml/tensor/math_2op/tensceil.hpp", 5, 17, "tceil_core", sk0⟩,
  ⟨"src/vml/tensor/math_2op/tensexp.hpp", 5, 17, "texp_core", sk0⟩,
  ⟨"src/vml/tensor/math_2op/tensfloor.hpp", 5, 17, "tfloor_core", sk0⟩,
  ⟨"src/vml/tensor/math_2op/tensreciprocal.hpp", 5, 18, "treciprocal_core", sk0⟩,
  ⟨"src/vml/tensor/math_2op/tenssign.hpp", 5, 17, "tsign_core", sk0⟩,
  ⟨"src/vml/tensor/math_2op/tenssin.hpp", 5, 17, "tsin_core", sk0⟩,
  ⟨"src/vml/tensor/math_2op/tenssinh.hpp", 5, 17, "tsinh_core", sk0⟩,
  ⟨"src/vml/tensor/math_2op/tenssqrt.hpp", 5, 17, "tsqrt_core", sk0⟩,
  ⟨"src/vml/tensor/math_2op/tenstan.hpp", 5, 17, "ttan_core", sk0⟩,
  ⟨"src/vml/tensor/math_2op/tenstanh.hpp", 5, 17, "ttanh_core", sk0⟩,
  ⟨"src/vml/vector/arithmetic/vecadd.hpp", 6, 19, "svadd_core", sk0⟩,
  ⟨"src/vml/vector/arithmetic/vecadd.hpp", 21, 34, "vvadd_core", sk0⟩,
  ⟨"src/vml/vector/arithmetic/vecdiv.hpp", 6, 19, "svdiv_core", sk0⟩,
  ⟨"src/vml/vector/arithmetic/vecdiv.hpp", 21, 34, "vvdiv_core", sk0⟩,
  ⟨"src/vml/vector/arithmetic/vecmul.hpp", 6, 19, "svmul_core", sk0⟩,
  ⟨"src/vml/vector/arithmetic/vecmul.hpp", 21, 34, "vvmul_core", sk0⟩,
  ⟨"src/vml/vector/arithmetic/vecsub.hpp", 6, 19, "svsub_core", sk0⟩,
  ⟨"src/vml/vector/arithmetic/vecsub.hpp", 21, 34, "vvsub_core", sk0⟩,
  ⟨"src/vml/vector/math_1_3op/vecmax.hpp", 5, 18, "vvmax_core", sk0⟩,
  ⟨"src/vml/vector/math_1_3op/vecmax.hpp", 20, 33, "svmax_core", sk0⟩,
  ⟨"src/vml/vector/math_1_3op/vecmax.hpp", 35, 43, "vmax_core", sk16⟩,
  ⟨"src/vml/vector/math_1_3op/vecmin.hpp", 5, 18, "vvmin_core", sk0⟩,
  ⟨"src/vml/vector/math_1_3op/vecmin.hpp", 20, 33, "svmin_core", sk0⟩,
  ⟨"src/vml/vector/math_1_3op/vecmin.hpp", 35, 43, "vmin_core", sk16⟩,
  ⟨"src/vml/vector/math_1_3op/vecpow.hpp", 5, 18, "vvpow_core", sk0⟩,
  ⟨"src/vml/vector/math_1_3op/vecpow.hpp", 20, 33, "svpow_core", sk0⟩,
  ⟨"src/vml/vector/math_2op/vecalo.hpp", 5, 18, "vecalo_core", sk0⟩,
  ⟨"src/vml/vector/math_2op/vecasin.hpp", 5, 16, "vasin_core", sk0⟩,
  ⟨"src/vml/vector/math_2op/vecasinh.hpp", 5, 16, "vasinh_core", sk0⟩,
  ⟨"src/vml/vector/math_2op/vecatan.hpp", 5, 16, "vatan_core", sk0⟩,
  ⟨"src/vml/vector/math_2op/vecatanh.hpp", 5, 16, "vatanh_core", sk0⟩,
  ⟨"src/vml/vector/math_2op/vecceil.hpp", 5, 16, "vceil_core", sk0⟩,
  ⟨"src/vml/vector/math_2op/vecexp.hpp", 5, 16, "vexp_core", sk0⟩,
  ⟨"src/vml/vector/math_2op/vecfloor.hpp", 5, 16, "vfloor_core", sk0⟩,
  ⟨"src/vml/vector/math_2op/vecreciprocal.hpp", 5, 17, "vreciprocal_core", sk0⟩,
  ⟨"src/vml/vector/math_2op/vecsign.hpp", 5, 16, "vsign_core", sk0⟩,
  ⟨"src/vml/vector/math_2op/vecsin.hpp", 5, 16, "vsin_core", sk0⟩,
  ⟨"src/vml/vector/math_2op/vecsinh.hpp", 5, 16, "vsinh_core", sk0⟩,
  ⟨"src/vml/vector/math_2op/vecsqrt.hpp", 5, 16, "vsqrt_core", sk0⟩,
  ⟨"src/vml/vector/math_2op/vectan.hpp", 5, 16, "vtan_core", sk0⟩,
  ⟨"src/vml/vector/math_2op/vectanh.hpp", 5, 16, "vtanh_core", sk0⟩
]

/-- The logged functions of `/repo/src` (file and lines in each entry), except those in `exceptions`. -/
def functions : List Fn :=
  fns0 ++ fns1 ++ fns2 ++ fns3 ++ fns4 ++ fns5 ++ fns6

/-- The logged functions of `/repo/src` (file and lines in each entry) in which a path to a `return` is not balanced. -/
def exceptions : List Fn := [
  ⟨"src/internal/lapack/getrf/dense_double_getrf.cpp", 12, 69, "lapack::getrf", sk26⟩,
  ⟨"src/internal/lapack/getrf/dense_float_getrf.cpp", 12, 69, "lapack::getrf", sk26⟩,
  ⟨"src/internal/lapack/getrs/dense_double_getrs.cpp", 12, 70, "lapack::getrs", sk26⟩,
  ⟨"src/internal/lapack/getrs/dense_float_getrs.cpp", 12, 70, "lapack::getrs", sk26⟩,
  ⟨"src/internal/lapack/sytrf/dense_double_sytrf.cpp", 12, 70, "lapack::sytrf", sk26⟩,
  ⟨"src/internal/lapack/sytrf/dense_float_sytrf.cpp", 12, 70, "lapack::sytrf", sk26⟩,
  ⟨"src/utils/compare/compare_coo.cpp", 101, 126, "is_same_structure", sk34⟩,
  ⟨"src/utils/compare/compare_coo.cpp", 133, 147, "is_same_size", sk35⟩,
  ⟨"src/utils/compare/compare_crs.cpp", 96, 115, "is_same_structure", sk37⟩,
  ⟨"src/utils/compare/compare_crs.cpp", 122, 136, "is_same_size", sk35⟩,
  ⟨"src/utils/compare/compare_dense.cpp", 9, 41, "Dense::equal", sk38⟩,
  ⟨"src/utils/compare/compare_dense.cpp", 77, 91, "is_same_structure", sk35⟩,
  ⟨"src/utils/compare/compare_dense.cpp", 98, 112, "is_same_structure", sk35⟩,
  ⟨"src/utils/compare/compare_dense.cpp", 131, 145, "is_same_structure", sk35⟩,
  ⟨"src/utils/compare/compare_dense.cpp", 164, 178, "is_same_structure", sk35⟩,
  ⟨"src/utils/compare/compare_dense.cpp", 233, 247, "is_same_size", sk35⟩,
  ⟨"src/utils/compare/compare_dense.cpp", 254, 268, "is_same_size", sk35⟩,
  ⟨"src/utils/compare/compare_dense.cpp", 285, 299, "is_same_size", sk35⟩,
  ⟨"src/utils/compare/compare_dense.cpp", 316, 330, "is_same_size", sk35⟩,
  ⟨"src/utils/compare/compare_linearoperator.cpp", 9, 24, "is_same_structure", sk35⟩,
  ⟨"src/utils/compare/compare_linearoperator.cpp", 31, 46, "is_same_size", sk35⟩,
  ⟨"src/utils/compare/compare_tensor_coo.cpp", 98, 120, "is_same_structure", sk40⟩,
  ⟨"src/utils/compare/compare_tensor_coo.cpp", 127, 142, "is_same_size", sk35⟩,
  ⟨"src/utils/compare/compare_tensor_dense.cpp", 9, 40, "tensor_Dense::equal", sk44⟩,
  ⟨"src/utils/compare/compare_tensor_dense.cpp", 82, 97, "is_same_structure", sk35⟩,
  ⟨"src/utils/compare/compare_tensor_dense.cpp", 104, 119, "is_same_structure", sk35⟩,
  ⟨"src/utils/compare/compare_tensor_dense.cpp", 140, 155, "is_same_structure", sk35⟩,
  ⟨"src/utils/compare/compare_tensor_dense.cpp", 176, 191, "is_same_structure", sk35⟩,
  ⟨"src/utils/compare/compare_tensor_dense.cpp", 248, 263, "is_same_size", sk35⟩,
  ⟨"src/utils/compare/compare_tensor_dense.cpp", 270, 285, "is_same_size", sk35⟩,
  ⟨"src/utils/compare/compare_tensor_dense.cpp", 304, 319, "is_same_size", sk35⟩,
  ⟨"src/utils/compare/compare_tensor_dense.cpp", 338, 353, "is_same_size", sk35⟩,
  ⟨"src/utils/compare/compare_vector.cpp", 10, 37, "equal_core", sk45⟩,
  ⟨"src/utils/linearoperator_constructor.cpp", 117, 129, "LinearOperator::LinearOperator", sk48⟩
]

end Log
end Verif
