{"id": "C01", "title": "COO insert/at behaves like a last-write-wins map", "statement": "For a freshly constructed M x N matrix::COO, after any sequence of insert(i,j,v) calls with in-range positions, get_nnz() equals the number of inserts, no call touches memory outside the buffers (whatever the capacity growth did), and at(i,j) returns the value of the last insert at (i,j), or 0 if there was none.", "quantifier": "all sizes, all finite insertion histories (including repeated positions and any number of reallocations), all query positions, any value type", "why_tests_cant": "tests insert a handful of entries; reallocation boundaries and repeated positions form an unbounded family of histories", "anchors": ["src/utils/at_insert_sort/at_insert_sort_coo.cpp: COO::at, COO::insert", "include/monolish/common/monolish_coo.hpp: COO::resize"]}
{"id": "C02", "title": "COO sort(false) yields a sorted permutation and terminates", "statement": "sort(false) on any COO matrix terminates without out-of-bounds access, leaves the multiset of (row,col,value) triples unchanged and the triples in non-decreasing (row,col) order; hence at(i,j) is unchanged for every (i,j) stored at most once.", "quantifier": "all COO matrices, all orders and multiplicities of the stored triples", "why_tests_cant": "the hand-written in-place partition has boundary cases (equal keys, pivot at either end, one element) for every length; a sample cannot exclude a lost or duplicated element or a non-terminating partition", "anchors": ["src/utils/at_insert_sort/at_insert_sort_coo.cpp: COO::_q_sort, COO::sort"]}
{"id": "C03", "title": "COO sort(true) merges without losing a position", "statement": "sort(true) on a non-empty COO leaves strictly increasing (row,col) positions, exactly the positions that were stored before, and at every position a value that had been inserted there; if no position was repeated, at(i,j) is unchanged everywhere.", "quantifier": "all non-empty COO matrices", "why_tests_cant": "depends on the arrangement of duplicates after an unstable sort; infinitely many", "anchors": ["src/utils/at_insert_sort/at_insert_sort_coo.cpp: COO::sort"]}
{"id": "C04", "title": "Merging repeated COO positions keeps the represented value", "statement": "After sort(true) the value at a repeated position is the one the class documents: the value at(i,j) returned before the call (last insert wins), or, as insert's documentation says, the sum of the inserted values. (The code guarantees neither: the negation is proved with a witness; what holds is C03.)", "quantifier": "all COO matrices with repeated positions", "why_tests_cant": "a test with one duplicate pair can pass by luck of the pivot order", "anchors": ["src/utils/at_insert_sort/at_insert_sort_coo.cpp: COO::sort", "include/monolish/common/monolish_coo.hpp: COO::insert doc (lines 853-868)"]}
{"id": "C05", "title": "Sorting an empty COO matrix is a no-op", "statement": "sort(true) and sort(false) on a COO matrix with no stored element leave it with no stored element and at(i,j)=0 everywhere. (sort(true) violates this: it reports one stored element backed by no memory.)", "quantifier": "all sizes M,N", "why_tests_cant": "boundary case of a universally quantified claim (stated separately because the code breaks it)", "anchors": ["src/utils/at_insert_sort/at_insert_sort_coo.cpp: COO::sort"]}
{"id": "C06", "title": "COO to CRS conversion keeps every row's entries", "statement": "CRS::convert(COO) of a row-sorted COO into a freshly constructed CRS never writes out of bounds, and for each row i the half-open range row_ptr[i]..row_ptr[i+1] enumerates exactly the entries of row i in stored order; moreover the row pointer is monotone from 0 to nnz and the converted matrix does not depend on what the target held before. (The last two clauses fail: trailing empty rows and re-used targets; negations are proved, the row-range claim is proved in full.)", "quantifier": "all row-sorted COO matrices, any pattern of empty rows; all prior contents of the target for the re-use clause", "why_tests_cant": "empty leading/middle/trailing rows and stale targets combine in unboundedly many ways", "anchors": ["src/utils/convert/convert_crs.cpp: CRS::convert(const COO&)"]}
{"id": "C07", "title": "CRS to COO conversion and the round trip", "statement": "COO::convert(CRS) of a well-formed CRS lists exactly the stored entries row by row; COO -> CRS -> COO returns the same (row,col,value) sequence for every row-sorted COO.", "quantifier": "all well-formed CRS matrices; all row-sorted COO matrices", "why_tests_cant": "round trip over all structures", "anchors": ["src/utils/convert/convert_coo.cpp: COO::convert(const CRS&)", "src/utils/convert/convert_crs.cpp"]}
{"id": "C08", "title": "COO/Dense conversions preserve the matrix", "statement": "Dense::convert(COO) gives at(i,j) equal to COO::at(i,j) for every in-range position, whatever the target held before; COO::convert(Dense) stores exactly the non-zero elements, once each, in row-major order; Dense -> COO -> Dense is the identity on contents.", "quantifier": "all matrices of all sizes, any insertion order and duplicates in the COO", "why_tests_cant": "round trip over all contents and sizes", "anchors": ["src/utils/convert/convert_dense.cpp: Dense::convert(const COO&)", "src/utils/convert/convert_coo.cpp: COO::convert(const Dense&)"]}
{"id": "C09", "title": "Copying a CRS matrix is memory safe and exact", "statement": "Constructing CRS(A), CRS(A,value) or calling convert(A) yields a matrix with A's structure (and values) without writing outside the new buffers, for every CRS the library itself can produce. (CRS(A,value) and convert(A) overflow when A was converted from a COO built by insert; negation proved, partial theorem for unpadded sources.)", "quantifier": "all CRS matrices reachable through the API", "why_tests_cant": "only padded column arrays trigger the overflow, and heap overflow need not crash a test", "anchors": ["src/utils/crs_constructor.cpp", "src/utils/convert/convert_crs.cpp: CRS::convert(const CRS&)"]}
{"id": "C10", "title": "COO transpose", "statement": "COO::transpose() and transpose(B) give at'(j,i)=at(i,j) for all i,j with the dimensions exchanged; transposing twice restores the matrix.", "quantifier": "all COO matrices, all positions", "why_tests_cant": "universally quantified over sizes and positions", "anchors": ["src/utils/transpose/transpose_coo.cpp"]}
{"id": "C11", "title": "Dense transpose", "statement": "Dense::transpose() (square and rectangular branch) and transpose(B) give at'(j,i)=at(i,j) for all i,j with the dimensions exchanged, with every access in bounds; transposing twice is the identity. (Holds for matrices whose storage offset is 0, which excludes only aliases obtained with move from offset views.)", "quantifier": "all M x N dense matrices including M=N, 0 x N, M x 0", "why_tests_cant": "index arithmetic n/row, n%row over all rectangular shapes", "anchors": ["src/utils/transpose/transpose_dense.cpp"]}
{"id": "C12", "title": "CRS transpose", "statement": "CRS::transpose() of a well-formed CRS terminates in bounds and yields a well-formed CRS with exchanged dimensions holding exactly the transposed entries, with columns sorted within each row; the number of stored entries is unchanged.", "quantifier": "all well-formed CRS matrices, any row lengths, any column order, duplicates allowed", "why_tests_cant": "counting-sort offsets over all structures", "anchors": ["src/utils/transpose/transpose_crs.cpp"]}
{"id": "C13", "title": "Equality operators decide equality", "statement": "operator== on COO, CRS, Dense and vector returns true iff both objects have the same dimensions and the same stored content, and never reads outside either object. (COO and CRS violate it: nnz is not compared, CRS compares nnz instead of row+1 row pointers; negations proved with witnesses, soundness under equal nnz proved as partial.)", "quantifier": "all pairs of objects", "why_tests_cant": "quantifies over pairs of structures of different lengths", "anchors": ["src/utils/compare/compare_coo.cpp", "src/utils/compare/compare_crs.cpp", "src/utils/compare/compare_dense.cpp", "src/utils/compare/compare_vector.cpp"]}
{"id": "C14", "title": "Structure hash separates structures and is reproducible", "statement": "get_hash() is a function of the structure arrays: equal structures give equal hashes for any number of threads, and the hash depends on the contents of row_ptr/col_ind. (Both fail: the hash ignores the array contents and depends on the OpenMP iteration split; proved as theorems about all arrays of equal length and as witnesses.)", "quantifier": "all structure arrays, all OpenMP static partitions", "why_tests_cant": "collision and schedule claims range over all arrays and all schedules", "anchors": ["src/internal/math/integer_math.cpp: vhash", "src/utils/hash.cpp"]}
{"id": "C15", "title": "matadd/matsub on CRS", "statement": "If A, B, C have the same structure, matadd(A,B,C) makes C represent A+B (matsub: A-B) at every position; matrices of different structure are rejected by the structure check. (The rejection fails because of C14; negation proved.)", "quantifier": "all CRS triples", "why_tests_cant": "the guard must hold for all pairs of different structures", "anchors": ["src/blas/matrix/mataddsub/crs_mataddsub.hpp", "src/utils/compare/compare_crs.cpp: is_same_structure"]}
{"id": "C16", "title": "CRS matvec computes the product", "statement": "matvec(A,x,y) overwrites y with A*x: for each row i, y[i]=sum_j A(i,j)*x[j] where A(i,j) is the sum of stored entries at (i,j); matvec_T gives A^T*x. All accesses are in bounds for well-formed A, and the value of each y[i] is the same left-to-right sum for any number of threads (no law of addition needed).", "quantifier": "all well-formed CRS matrices, all x; all prior contents of y; all thread partitions", "why_tests_cant": "all sparsity structures and schedules", "anchors": ["src/blas/matrix/matvec/crs_matvec.hpp"]}
{"id": "C17", "title": "Scaled matvec honours alpha and beta", "statement": "matvec(a,A,x,b,y) computes y := a*A*x + b*y for CRS matrices on CPU. (Violated: the OSS CPU kernel ignores a and b; negation proved, partial for a=1,b=0.)", "quantifier": "all scalars a,b, all A,x,y", "why_tests_cant": "coefficients other than the tested 1/0 pair are unbounded", "anchors": ["src/blas/matrix/matvec/crs_matvec.hpp", "src/blas/matrix/matvec/matvec_blas.cpp"]}
{"id": "C18", "title": "CRS x Dense matmul computes the product", "statement": "matmul(a,A,B,b,C) with CRS A and Dense B sets C := a*A*B + b*C, in bounds, for every shape; the vectorised blocking (32/8/remainder columns) computes the same entries as the scalar loop.", "quantifier": "all well-formed A, all B, C, all column counts (all residues modulo 8 and 32)", "why_tests_cant": "block-boundary arithmetic over all column counts", "anchors": ["src/blas/matrix/matmul/crs-dense_matmul.hpp"]}
{"id": "C19", "title": "Row, column and diagonal extraction", "statement": "diag(v), row(r,v), col(c,v) on COO, CRS and Dense write exactly the requested elements (0 where nothing is stored) into v. (CRS row/col use the wrong dimension for rectangular matrices, and CRS/Dense overloads for views ignore the view's offset: negations proved; square/offset-0 cases proved.)", "quantifier": "all matrices, all r, c, all prior contents of v", "why_tests_cant": "rectangular shapes and offsets outside the tested set", "anchors": ["src/utils/getvec/crs_getvec.cpp", "src/utils/getvec/dense_getvec.cpp", "src/utils/getvec/coo_getvec.cpp"]}
{"id": "C20", "title": "diag_add/sub/mul/div touch exactly the diagonal", "statement": "For Dense and CRS, diag_op with a scalar or a vector changes element (i,i) by the operation for i < min(rows, cols) (CRS: where stored) and leaves every other element unchanged, in bounds.", "quantifier": "all matrices of all shapes, all scalars/vectors", "why_tests_cant": "frame condition over all positions", "anchors": ["src/blas/matrix/diag_op/crs_diag_op.hpp", "src/blas/matrix/diag_op/dense_diag_op.hpp"]}
{"id": "C21", "title": "Tensor diagonal operations touch exactly the diagonal", "statement": "tensor_Dense::diag_add etc. change exactly the elements with all indices equal. (Violated for shapes whose extents differ: the stride is computed for the reversed shape; negation proved; the operation is proved right for shapes with all extents equal and in bounds for every shape.)", "quantifier": "all shapes of all ranks, all contents", "why_tests_cant": "tests use cubic shapes", "anchors": ["src/blas/tensor/diag_op/tensor_dense_diag_op.hpp"]}
{"id": "C22", "title": "vector push_back/resize keep the contents", "statement": "Any sequence of push_back and resize on a monolish::vector behaves like the same sequence on a mathematical list (resize truncates or pads with the given value); size() is its length; all accesses are in bounds.", "quantifier": "all finite operation histories", "why_tests_cant": "histories interact with capacity; unbounded", "anchors": ["include/monolish/common/monolish_vector.hpp: push_back, resize"]}
{"id": "C23", "title": "Views are windows onto their target", "statement": "A view1D/view_Dense at offset s reads and writes exactly the target elements s+i (nested views add their offsets), leaving the others unchanged, and iterating from begin() to end() visits exactly the window. (end() violates this for offset > 0: negation proved; element access proved in full.)", "quantifier": "all targets, offsets, lengths, nesting depths", "why_tests_cant": "all offsets and nestings", "anchors": ["include/monolish/common/monolish_view1D.hpp", "include/monolish/common/monolish_view_dense.hpp"]}
{"id": "C24", "title": "Element-wise kernels are schedule independent and alias safe", "statement": "Every element-wise kernel (vadd, vsub, vmul, vdiv with vector or scalar, copy, broadcast, axpy, axpyz, xpay, scal, times, max/min) computes y[i]=f(a[i],b[i]) for every i<N and nothing else, for every order in which the iterations execute, also when the output aliases an input.", "quantifier": "all lengths, all inputs, all permutations of the iteration space, any f", "why_tests_cant": "all schedules", "anchors": ["src/internal/arithmetic/double_arithmetic.cpp", "src/blas/vector/axpy.hpp", "src/vml/vector"]}
{"id": "C25", "title": "Reductions are partition independent in exact arithmetic", "statement": "sum, asum, dot, max and min computed by splitting the index range over any number of threads and combining the partial results in any order equal the sequential result (sum/dot: in any commutative monoid; max/min: any linear order, non-empty input).", "quantifier": "all inputs, all partitions and combination orders", "why_tests_cant": "all partitions", "anchors": ["src/blas/vector/sum.hpp", "src/blas/vector/dot.hpp", "src/internal/math/double_math.cpp: vmax, vmin"]}
{"id": "C26", "title": "Matrix generators produce the documented matrices", "statement": "eye, frank_matrix, tridiagonal_toeplitz_matrix (M >= 2), laplacian_matrix_1D (M >= 2), laplacian_matrix_2D_5p, toeplitz_plus_hankel_matrix (M >= 4), band_matrix (diag_val != 0 or val = 0) and asym_band_matrix store exactly the documented positions, in row-major order without duplicates, and at(i,j) is the documented function of i and j, for every size. Outside these bounds: smaller M aborts, a band as wide as the matrix throws, and band_matrix with diag_val = 0 and val != 0 puts val on the diagonal (negation proved).", "quantifier": "all sizes and coefficient values", "why_tests_cant": "all sizes", "anchors": ["src/utils/create_matrix/band_matrix.cpp", "src/utils/create_matrix"]}
{"id": "C27", "title": "random_structure_matrix has the requested row population", "statement": "For every stream of random column draws and every non-zero value, random_structure_matrix(M,N,nnzrow,val) with M, nnzrow > 0 is either still waiting for draws or has returned a matrix in row-major order in which each row stores exactly nnzrow distinct columns with value val; it can finish from every state; nnzrow >= N throws. (val = 0 and nnzrow = 0 break it: negations proved.)", "quantifier": "all random streams, all M, N, nnzrow < N", "why_tests_cant": "quantifies over all random streams", "anchors": ["src/utils/create_matrix/random_structure.cpp"]}
{"id": "C28", "title": "MatrixMarket output can be read back", "statement": "input_mm applied to the text written by output_mm yields a COO matrix with the same dimensions and the same (row, col, value) sequence, given that printing and parsing a number are inverse; comment lines after the banner do not change the result. A matrix without columns is written but refused when read back; a value that does not parse (inf, nan) is read back as zero; a file cut short is not reliably rejected.", "quantifier": "all COO matrices with at least one column, all previous contents of the receiving object, all lists of comment lines", "why_tests_cant": "round trip over all matrices", "anchors": ["src/utils/IO/IO_coo.cpp: output_mm, input_mm"]}
{"id": "C29", "title": "CG tracks the true residual and reports status faithfully", "statement": "In exact arithmetic, at every iteration the CG recursion residual equals b - A x; SUCCESS is returned iff at some iteration the residual norm was below tol with at least miniter iterations, the returned x is then that iterate and get_final_iter/get_final_residual report it; otherwise RESIDUAL_NAN or MAXITER with the matching iteration number; a non-square matrix is rejected.", "quantifier": "all matrices, right-hand sides, initial guesses, preconditioners, tolerances, iteration limits", "why_tests_cant": "loop invariant over unboundedly many iterations", "anchors": ["src/equation/cg.cpp"]}
{"id": "C30", "title": "BiCGSTAB tracks the true residual and reports status faithfully", "statement": "In exact arithmetic, at every iteration of BiCGSTAB the residual vector equals b - A x; return codes are faithful as for CG; BREAKDOWN is returned exactly when rho or omega vanishes and then x is unchanged by that iteration's missing half.", "quantifier": "all matrices, right-hand sides, initial guesses, preconditioners", "why_tests_cant": "loop invariant over unboundedly many iterations", "anchors": ["src/equation/bicgstab.cpp"]}
{"id": "C31", "title": "Jacobi solver reports and fixes the right thing", "statement": "If A x = b then a Jacobi step leaves x unchanged (and conversely, for non-zero diagonal, a fixed point solves the system); on SUCCESS get_final_residual() is the quantity compared with tol. (The last clause fails: final_resid is another norm; negation proved.)", "quantifier": "all matrices with non-zero diagonal, all b, x", "why_tests_cant": "all matrices", "anchors": ["src/equation/jacobi.cpp"]}
{"id": "C32", "title": "SOR kernels perform the triangular solves", "statement": "The SOR lower kernel returns t with (D/w + L) t = r for every square CRS with sorted columns and every Dense matrix; hence a SOR step fixes x iff A x = b. All accesses are in bounds. (The Dense preconditioner kernel reads one element past the row: negation proved.)", "quantifier": "all matrices, all r, all relaxation factors", "why_tests_cant": "forward substitution over all sizes", "anchors": ["src/equation/sor.cpp", "src/equation/kernel/sor_kernel.hpp"]}
{"id": "C33", "title": "CG handles an exact initial guess", "statement": "If the initial guess already solves the system, CG returns SUCCESS with x unchanged. (Violated: alpha = 0/0; negation proved over a field-with-NaN model.)", "quantifier": "all systems with an exact initial guess", "why_tests_cant": "tests start from random guesses", "anchors": ["src/equation/cg.cpp"]}
{"id": "C34", "title": "CG solves SPD systems in finitely many steps", "statement": "In exact arithmetic, for symmetric positive definite A and no preconditioner, the Jacobi preconditioner or the SOR preconditioner (omega > 0), the CG iterates reach the solution within n iterations (residuals are mutually orthogonal, directions A-conjugate).", "quantifier": "all SPD matrices of all sizes, all right-hand sides and initial guesses", "why_tests_cant": "theorem about all SPD systems", "anchors": ["src/equation/cg.cpp"]}
{"id": "C35", "title": "Logger nesting is balanced", "statement": "At every log level, the logger calls of any properly nested execution never underflow, leave the logger's call stack unchanged and write exactly one line per finished logged call, with the whole call path and that call's own duration. Of the 708 logged functions in src, 674 keep entries and exits matched on every path that returns; the other 34 (vector, Dense and tensor_Dense equality on unequal operands, is_same_size / is_same_structure, the LinearOperator copy constructor, getrf / getrs / sytrf with a wrong pivot size) have a returning path that leaves a stale entry or underflows; a call left by an exception leaves its entries behind and never underflows.", "quantifier": "all log levels, logger states, nesting depths, branches taken, iteration counts and call sequences; for the failures, all unequal operands and any number of repetitions", "why_tests_cant": "call histories and nesting are unbounded, and the effect of an unmatched entry appears only in later calls", "anchors": ["src/utils/system/logger_utils.cpp", "include/monolish/common/monolish_logger.hpp", "src/utils/compare/compare_vector.cpp", "src/utils/compare/compare_dense.cpp", "src/utils/linearoperator_constructor.cpp"]}
{"id": "C36", "title": "Tensor index mapping is a bijection", "statement": "For every shape with positive extents, get_index(pos) maps in-range multi-indices one-to-one onto 0..size-1 and get_index(k) is its inverse; at(pos) after insert(pos,v) returns v and every other in-range position keeps its value; a position of the wrong rank is rejected.", "quantifier": "all shapes of all ranks, all positions", "why_tests_cant": "all shapes and ranks", "anchors": ["include/monolish/common/monolish_tensor_dense.hpp: get_index", "src/utils/at_insert_sort/at_insert_sort_tensor_dense.cpp"]}
{"id": "C37", "title": "tensor_COO behaves like COO", "statement": "tensor_COO insert/at is a last-write-wins map over multi-indices for every history; sort(false) yields a permutation sorted by linear index; conversion to and from tensor_Dense preserves every element.", "quantifier": "all shapes, all histories", "why_tests_cant": "all histories and ranks", "anchors": ["src/utils/at_insert_sort/at_insert_sort_tensor_coo.cpp", "src/utils/convert/convert_tensor_coo.cpp", "src/utils/convert/convert_tensor_dense.cpp"]}
{"id": "C38", "title": "tensor reshape keeps elements and is all-or-nothing", "statement": "reshape(shape) succeeds iff the shape (with at most one -1) has the right number of elements, keeps the linear order of elements, and a rejected reshape leaves the tensor unchanged. (The last clause fails: the shape is overwritten before the exception; negation proved.)", "quantifier": "all tensors, all requested shapes including -1 entries", "why_tests_cant": "all shapes, exception paths", "anchors": ["src/utils/reshape/reshape_tensor_dense.cpp"]}
{"id": "C39", "title": "tensor contraction kernels compute the index sum", "statement": "tensvec, tensmat, tensmul and mattens on tensor_Dense compute C(i..,j..) = a*sum_k A(i..,k) B(k,j..) + b*C(i..,j..) for tensors of every rank (given that GEMM does so for matrices).", "quantifier": "all ranks and shapes, all contents", "why_tests_cant": "all ranks", "anchors": ["src/blas/tensor/tensmul/tensor_dense-tensor_dense_tensmul.hpp", "src/blas/tensor/tensmat/tensor_dense-dense_tensmat.hpp", "src/blas/tensor/tensvec/tensor_dense_tensvec.hpp"]}
{"id": "C40", "title": "LinearOperator algebra", "statement": "As long as every object an operator refers to stays alive and is not overwritten: an operator converted from a COO, CRS or Dense matrix acts as that matrix in matvec and in products with Dense matrices; add, sub, matmul and scalar add, sub, mul, div of operators into a separate result of the same size act (matvec and rmatvec) as the corresponding matrix expression; copies and assigned operators act like the original; convert_to_Dense recovers the matrix (the zero matrix if matvec is not set).", "quantifier": "all matrices and operators (also nested and user callbacks), all vectors, all schedules", "why_tests_cant": "all operators, unbounded nesting of callbacks", "anchors": ["src/utils/convert/convert_linearoperator.cpp", "src/blas/matrix/mataddsub/linearoperator_mataddsub.hpp", "src/blas/matrix/matmul/linearoperator-linearoperator_matmul.hpp", "src/vml/linearoperator/double_scalar_linearoperator.cpp", "src/utils/linearoperator_constructor.cpp", "src/utils/copy/copy_linearoperator.cpp"]}
{"id": "C41", "title": "LinearOperator diag is schedule independent", "statement": "For an operator acting as the matrix M, A.diag(v) with a vector v of size min(rows, cols) reads and writes in bounds, finishes, and leaves exactly M(i,i) in v[i], for every interleaving of the OpenMP threads; a vector of another size is rejected.", "quantifier": "all interleavings, all thread counts and distributions of iterations, all operators", "why_tests_cant": "races appear only on some schedules", "anchors": ["src/utils/getvec/linearoperator_getvec.cpp"]}
{"id": "C42", "title": "solver_check distinguishes success from failure", "statement": "util::solver_check(err) returns a different value for MONOLISH_SOLVER_SUCCESS than for every error code. (Violated: it returns false for every argument; proved.)", "quantifier": "all int codes", "why_tests_cant": "finite but stated over all ints", "anchors": ["src/utils/equation_utils.cpp: solver_check"]}
{"id": "C43", "title": "Matrix max/min return the extreme element", "statement": "vml::max/min of a matrix returns the largest/smallest element of the represented matrix for Dense, CRS and dense views. (Violated for views of all-negative data and for full CRS; negations proved, Dense proved.)", "quantifier": "all matrices", "why_tests_cant": "all contents", "anchors": ["src/vml/matrix/math_1_3op/matmax.hpp", "src/vml/matrix/math_1_3op/matmin.hpp"]}
{"id": "C44", "title": "alo is the asymmetric linear operator", "statement": "vml::alo(a,alpha,beta,y) gives y[i]=alpha*a[i] for a[i]>=0 and beta*a[i] for a[i]<0.", "quantifier": "all inputs over any linearly ordered commutative ring", "why_tests_cant": "all values", "anchors": ["src/internal/math/double_math.cpp: valo"]}
{"id": "C45", "title": "times/adds row and column scaling", "statement": "times_row/times_col/adds_row/adds_col (all lines or a single one) on Dense, and times_row/times_col on CRS, give C(i,j)=A(i,j) op x[j] (row) or op x[i] (col) on the selected lines and leave the others unchanged.", "quantifier": "all matrices, all vectors, all line numbers", "why_tests_cant": "all shapes", "anchors": ["src/blas/matrix/times", "src/blas/matrix/adds"]}
{"id": "C46", "title": "move aliases the storage", "statement": "After D.move(T) a Dense (or vector) and the tensor share one storage: a write through either is visible through the other at the same linear position, and resize on the alias beyond its storage is rejected rather than detaching it.", "quantifier": "all shapes, all write histories through either handle", "why_tests_cant": "all histories of interleaved writes", "anchors": ["src/utils/move/move_dense.cpp", "src/utils/move/move_vector.cpp"]}
{"id": "C47", "title": "tensor_CRS conversion keeps every slice's rows", "statement": "tensor_CRS::convert(tensor_COO) of a tensor sorted by linear index into a fresh target gives, for every slice d and row i, the entries of that slice and row in order; the round trip to tensor_COO is the identity. Re-using a target must give the same result. (The re-use clause fails: column lists are appended; negation proved.)", "quantifier": "all sorted tensor_COO of rank >= 2", "why_tests_cant": "all slice/row occupancy patterns", "anchors": ["src/utils/convert/convert_tensor_crs.cpp", "src/utils/convert/convert_tensor_coo.cpp"]}
{"id": "C48", "title": "MPI wrappers deliver received data", "statement": "Send/Recv and Isend/Irecv/Waitall deliver the messages of each source, destination and tag in order into the receiver's variables, Waitall returns only when all posted receives are complete, Bcast/Scatter/Gather/Allreduce leave their results in the caller's objects, and Initialized() returns true iff MPI is initialised.", "quantifier": "all numbers of processes, all interleavings, all buffers and roots", "why_tests_cant": "needs multi-process runs in every interleaving", "anchors": ["src/mpi/send_recv.hpp", "src/mpi/isend_irecv.hpp", "src/mpi/Bcast.hpp", "src/mpi/Scatter.hpp", "src/mpi/Gather.hpp", "src/mpi/allreduce.hpp", "src/mpi/monolish_mpi.cpp"]}
{"id": "C49", "title": "Transposing a COO matrix onto itself", "statement": "A.transpose(A) gives the transpose of A, like transposing a copy. (Violated: the assignments read members that were just overwritten; negation proved, memory safety and the diagonal case proved.)", "quantifier": "all COO matrices, target and source being the same object", "why_tests_cant": "aliasing of target and source for all contents", "anchors": ["src/utils/transpose/transpose_coo.cpp"]}
{"id": "C50", "title": "Copying a tensor_CRS gives an equal tensor", "statement": "tensor_CRS B = A gives a tensor with the same shape and the same elements as A (converting either to coordinates gives the same list), and A.equal(B) and B.equal(A) are both true. (The last clause fails for every tensor with at least one slice: the copy's row pointers are one element longer and the comparison reads past the original's; negation proved.)", "quantifier": "all well-formed tensor_CRS of every rank and shape", "why_tests_cant": "all structures; the over-read is silent in tests", "anchors": ["src/utils/convert/convert_tensor_crs.cpp: convert(tensor_CRS)", "src/utils/compare/compare_tensor_crs.cpp", "include/monolish/common/monolish_tensor_crs.hpp"]}
{"id": "C51", "title": "tensor_CRS products act slice by slice", "statement": "tensvec/tensmat/tensmul with a tensor_CRS A compute C(ps,i,js)=a*sum_k A(ps,i,k)B(k,js)+b*C(ps,i,js) for every leading position ps, and times/times_row multiply each stored element by the scalar or by x[last index]; nothing outside the destination changes. (tensvec ignores its scalars a and b; negation proved.)", "quantifier": "all well-formed tensor_CRS, all operands with matching extents, all thread schedules, source and destination distinct or identical (times)", "why_tests_cant": "all slice structures and schedules", "anchors": ["src/blas/tensor/tensvec/tensor_crs_tensvec.hpp", "src/blas/tensor/tensmat/tensor_crs-dense_tensmat.hpp", "src/blas/tensor/tensmul/tensor_crs-tensor_dense_tensmul.hpp", "src/blas/tensor/times/tensor_crs_times.hpp"]}
{"id": "C52", "title": "A view shows its target's elements", "statement": "view1D(x,start,size): element k of the view is element start+k of x, for reads and writes, after any operations on x and on other objects. (Fails after any resize of x, even to the same size, which leaves the view dangling, and for objects that were moved from part of a tensor; negations proved. Holds for all histories that do not resize, destroy or re-bind x.)", "quantifier": "all objects, windows inside them, all histories", "why_tests_cant": "all histories of interleaved operations; use-after-free is silent in tests", "anchors": ["include/monolish/common/monolish_view1D.hpp", "include/monolish/common/monolish_vector.hpp: resize"]}
{"id": "C53", "title": "BiCGSTAB solves trivially easy systems", "statement": "If the preconditioned first residual is mapped by A to a non-zero multiple of itself (e.g. A is the identity matrix, or A is diagonal with the Jacobi preconditioner), BiCGSTAB returns SUCCESS with the solution. (Violated for every such system with an inexact initial guess: omega is 0/0 and every element of x becomes NaN; negation proved.)", "quantifier": "all such systems of every size, all right-hand sides and inexact initial guesses, all tolerances and limits", "why_tests_cant": "all systems; NaN propagation", "anchors": ["src/equation/bicgstab.cpp: monolish_BiCGSTAB"]}
{"id": "C54", "title": "The Jacobi solver converges for strictly diagonally dominant matrices", "statement": "For every strictly diagonally dominant matrix, non-zero right-hand side, positive tolerance and initial guess there is an iteration count such that the Jacobi solver returns SUCCESS whenever maxiter is at least that count (exact arithmetic, default miniter); the user's preconditioner has no influence. If the off-diagonal row sums are at most q times the diagonal, c bounds the row sums and e the initial error, k + 1 iterations suffice as soon as sqrt(n) c q^k e < tol |b|, and after j iterations the result is within q^j e of the solution.", "quantifier": "all sizes, all strictly diagonally dominant matrices, all right-hand sides and guesses", "why_tests_cant": "convergence for every system is a limit statement", "anchors": ["src/equation/jacobi.cpp: monolish_Jacobi"]}
{"id": "C55", "title": "Jacobi and SOR solve the zero right-hand side", "statement": "Solving A x = 0 with Jacobi or SOR returns SUCCESS once x is (close to) zero. (Violated: the residual is multiplied by 1/||b|| = infinity, SUCCESS is never returned for b = 0, for any matrix, guess, tolerance or limit; negation proved.)", "quantifier": "all matrices, sizes, guesses, preconditioners, tolerances and limits", "why_tests_cant": "never-returns statement over all runs", "anchors": ["src/equation/jacobi.cpp: monolish_Jacobi", "src/equation/sor.cpp: monolish_SOR"]}
{"id": "C56", "title": "SOR with a preconditioner solves the given system", "statement": "SOR with any preconditioner P returns, on SUCCESS, a vector whose residual b - A x is small. (Violated: the residual is formed with P x, so the fixed points are the solutions of A P x = b; negation proved on a concrete system, fixed points characterised for every system.)", "quantifier": "all systems and preconditioners", "why_tests_cant": "all systems; tests use only the default preconditioner", "anchors": ["src/equation/sor.cpp: monolish_SOR"]}
{"id": "C57", "title": "The SOR solver converges", "statement": "For every symmetric positive definite matrix and every omega strictly between 0 and 2, and for every strictly diagonally dominant matrix and 0 < omega <= 1, with non-zero right-hand side and positive tolerance, there is an iteration count such that the SOR solver (no preconditioner) returns SUCCESS whenever maxiter is at least that count (exact arithmetic, default miniter). In the dominant case k + 1 iterations suffice as soon as sqrt(n) c (1 - omega + omega q)^k e < tol |b| (q, c, e as in C54).", "quantifier": "all sizes, all such matrices, right-hand sides, initial guesses and omegas", "why_tests_cant": "convergence for every system is a limit statement (Ostrowski-Reich)", "anchors": ["src/equation/sor.cpp: monolish_SOR", "src/equation/kernel/sor_kernel.hpp: sor_kernel_lower"]}
{"id": "C58", "title": "Selecting an unavailable solver library is reported", "statement": "If set_lib(l) selects a library that does not exist (l != 0), solve() does not report SUCCESS without having solved the system. (Violated by CG, BiCGSTAB, Jacobi and SOR: SUCCESS with x unchanged, for every system; negation proved.)", "quantifier": "all systems and all l != 0", "why_tests_cant": "all inputs", "anchors": ["src/equation/cg.cpp: solve", "src/equation/bicgstab.cpp: solve", "src/equation/jacobi.cpp: solve", "src/equation/sor.cpp: solve"]}
{"id": "C59", "title": "get_residual_l2 is the norm of the residual", "statement": "util::get_residual_l2(A, x, y) returns the Euclidean norm of y - A x for every square matrix (exact arithmetic), in GPU builds for arguments on the device and for arguments on the host. (For a rectangular matrix it aborts although all sizes match: negation proved.)", "quantifier": "all square matrices, all x and y, both placements", "why_tests_cant": "all sizes and contents", "anchors": ["src/utils/equation_utils.cpp: get_residual_l2"]}
{"id": "C60", "title": "Closed-form eigenvalues belong to the generated matrices", "statement": "In exact arithmetic, tridiagonal_toeplitz_matrix_eigenvalue(M,N,a,b) and laplacian_matrix_1D_eigenvalue(M,N) for N = 0..M-1 list exactly the eigenvalues of the generated matrix in increasing order; toeplitz_plus_hankel_matrix_eigenvalue is an eigenvalue of the generalized problem and frank_matrix_eigenvalue an eigenvalue of the Frank matrix, each the N-th from the bottom. (The last two are false as documented: the Toeplitz-plus-Hankel values need not be increasing, and frank_matrix_eigenvalue(M,1) = 1/4 is never an eigenvalue; negations proved, with the true spectrum of the Frank matrix.)", "quantifier": "all sizes M, all N and all real coefficients", "why_tests_cant": "an identity between a transcendental formula and the spectrum of a matrix of arbitrary size", "anchors": ["src/utils/create_matrix/tridiagonal_toeplitz.cpp", "src/utils/create_matrix/laplacian.cpp", "src/utils/create_matrix/frank.cpp", "src/utils/create_matrix/toeplitz_plus_hankel.cpp"]}
{"id": "C61", "title": "LinearOperator values are independent of their operands", "statement": "The result of an operation on LinearOperators is a value: it may be an operand of the operation, it stays valid when operands or temporaries go away, copies support all operations of the original, an overwritten operator has no callbacks of its old value left, and operands of different size are rejected.", "quantifier": "all operators", "why_tests_cant": "lifetimes and aliasing patterns are unbounded", "anchors": ["src/utils/convert/convert_linearoperator.cpp", "src/blas/matrix/mataddsub/linearoperator_mataddsub.hpp", "src/vml/linearoperator/double_scalar_linearoperator.cpp", "src/utils/linearoperator_constructor.cpp", "src/utils/copy/copy_linearoperator.cpp", "src/utils/compare/compare_linearoperator.cpp"]}
{"id": "C62", "title": "LinearOperator diag into a view", "statement": "A.diag(view) stores M(i,i) in element i of the view and changes nothing outside the view, for every interleaving of the OpenMP threads.", "quantifier": "all interleavings, all views (offset and length), all operators", "why_tests_cant": "races appear only on some schedules", "anchors": ["src/utils/getvec/linearoperator_getvec.cpp"]}
{"id": "C63", "title": "Distributed reductions equal the reduction of the whole vector", "statement": "With MPI, blas::sum, asum, nrm1, nrm2 and dot on the parts held by P processes return to every process the value for the concatenated vector, for every partition and thread schedule (exact arithmetic, an MPI library that accepts equal send and receive buffers).", "quantifier": "all process counts, partitions, schedules, contents", "why_tests_cant": "all partitions and schedules", "anchors": ["src/blas/vector/dot.hpp", "src/blas/vector/nrm2.hpp", "src/blas/vector/sum.hpp", "src/blas/vector/asum.hpp", "src/blas/vector/nrm1.hpp", "src/mpi/allreduce.hpp"]}
{"id": "C64", "title": "Every element-wise overload computes the function of its name", "statement": "Each overload of vml::add/sub/mul/div/pow/max/min/sin/.../alo and of blas::vecadd/vecsub/times/adds/copy/axpy/axpyz/xpay/scal, matadd/matsub/mscal, tensadd/tenssub/tscal, for any storage classes of its arguments (vector, view, Dense, CRS, tensor, ...), precision and build configuration, stores in its last argument, position by position, the function its name promises of the other arguments' values before the call, and changes nothing else, for every thread schedule.", "quantifier": "all overloads of the dispatch files, all build configurations, all argument sizes, shapes, positions in memory and contents, all schedules", "why_tests_cant": "thousands of generated overloads; any one may dispatch to the wrong kernel or swap arguments; tests sample few type combinations and no schedules", "anchors": ["src/vml/vector/vector_vml.cpp", "src/vml/matrix/matrix_vml.cpp", "src/vml/tensor/tensor_vml.cpp", "src/blas/vector/vector_blas.cpp", "src/blas/matrix/mataddsub/mataddsub.cpp", "src/blas/tensor/tensaddsub/tensaddsub.cpp", "src/internal/arithmetic/double_arithmetic.cpp", "src/internal/math/double_math.cpp"]}
{"id": "C65", "title": "Element-wise functions reject arguments of different shape or structure", "statement": "Every element-wise function stops with a failed assertion, before writing anything, when two of its container arguments differ in shape, or, for sparse arguments, in structure.", "quantifier": "all overloads, all pairs of mismatched arguments", "why_tests_cant": "each of thousands of overloads with every mismatch", "anchors": ["src/vml/matrix/arithmetic/matadd.hpp", "src/vml/tensor/arithmetic/tensadd.hpp", "src/blas/vector/times.hpp", "src/utils/compare/compare_crs.cpp"]}
{"id": "C66", "title": "The element-wise API is complete", "statement": "Each VML function is available for every combination of storage classes of a family (vector and the three 1D views; Dense and the three dense views; tensor_Dense and its views; CRS; tensor_CRS) for its operands and its result, in double and float.", "quantifier": "all functions, all combinations of classes, both precisions", "why_tests_cant": "combinatorial: thousands of signatures", "anchors": ["src/vml/vector/vector_vml.cpp", "src/vml/matrix/matrix_vml.cpp", "src/vml/tensor/tensor_vml.cpp"]}
{"id": "C67", "title": "LU on a dense matrix solves the system or reports breakdown", "statement": "For every square dense matrix A of size n > 0 and vectors of size n, both overloads of equation::LU::solve return; if A is nonsingular they return SUCCESS and the result satisfies A x = b, if A is singular they return BREAKDOWN (exact arithmetic, any LAPACK that meets its documented contract).", "quantifier": "all n, all square matrices, all right-hand sides, all LAPACK implementations meeting the contract", "why_tests_cant": "row-major storage against column-major LAPACK, the transposition flag and pivoting must cancel for every matrix; tests try a few matrices", "anchors": ["src/equation/lu/lu.cpp", "src/internal/lapack/getrf/dense_double_getrf.cpp", "src/internal/lapack/getrs/dense_double_getrs.cpp"]}
{"id": "C68", "title": "Cholesky on a dense symmetric matrix solves the system or reports breakdown", "statement": "For every symmetric dense matrix A of size n > 0 (definite or not), equation::Cholesky::solve returns SUCCESS and a solution of A x = b if A is nonsingular and BREAKDOWN otherwise; the part of A above the diagonal is not read.", "quantifier": "all n, all symmetric matrices, all right-hand sides, all LAPACK implementations meeting the contract", "why_tests_cant": "for every matrix; which triangle is read depends on the storage order", "anchors": ["src/equation/cholesky/cholesky.cpp", "src/internal/lapack/sytrf/dense_double_sytrf.cpp", "src/internal/lapack/sytrs/dense_double_sytrs.cpp"]}
{"id": "C69", "title": "The divide-and-conquer eigensolvers return eigenpairs", "statement": "For every symmetric dense A (and B), when standard_eigen::DC::solve or generalized_eigen::DC::solve returns SUCCESS, row k of A is an eigenvector for lambda[k] of the (generalised, of the given itype) problem, the eigenvalues ascend, and for the standard problem the rows are orthonormal. It returns SUCCESS only if something was computed.", "quantifier": "all n, all symmetric matrices, all itypes, all LAPACK implementations meeting the contract", "why_tests_cant": "for every matrix; eigenvectors are rows because of the storage order", "anchors": ["src/eigen/DC.cpp", "src/internal/lapack/syev/dense_double_syev.cpp", "src/internal/lapack/sygv/dense_double_sygv.cpp"]}
{"id": "C70", "title": "LOBPCG: success certifies eigenpairs of the standard problem", "statement": "Whenever standard_eigen::LOBPCG::solve returns SUCCESS, the m values in l and the m rows of x are finite, every row is normalised, and for each pair the norm of the preconditioned residual P(A v - lambda v) is below the tolerance, whatever LAPACK returned on the way and however many iterations and restarts were made.", "quantifier": "all n > 0, all m, all matrices, start vectors, preconditioners that do not produce numbers from NaN or infinity, all behaviours of sygvd, all iteration counts, arithmetic with infinities and NaN but no rounding", "why_tests_cant": "the images A x are never recomputed but updated along with x; that they stay A x has to hold for every history", "anchors": ["src/eigen/lobpcg_standard.cpp", "include/monolish/common/monolish_common.hpp"]}
{"id": "C71", "title": "LOBPCG: success certifies eigenpairs of the generalised problem", "statement": "Whenever generalized_eigen::LOBPCG::solve returns SUCCESS, each returned pair satisfies A v = lambda B v up to a residual below the tolerance.", "quantifier": "all n > 0, all m, all matrices A, B, start vectors, preconditioners", "why_tests_cant": "a residual formula that is wrong in one term passes every test in which the iteration also converges in exact arithmetic", "anchors": ["src/eigen/lobpcg_generalized.cpp"]}
{"id": "C72", "title": "LOBPCG ends within maxiter iterations", "statement": "standard_eigen::LOBPCG::solve and generalized_eigen::LOBPCG::solve return, throw or abort after at most maxiter iterations for every matrix and start vectors.", "quantifier": "all matrices, start vectors, preconditioners, LAPACK answers, maxiter", "why_tests_cant": "non-termination for some input cannot be observed by a test", "anchors": ["src/eigen/lobpcg_standard.cpp", "src/eigen/lobpcg_generalized.cpp"]}
{"id": "C73", "title": "fill sets every element of the thing it is called on and nothing else", "statement": "x.fill(v) on a vector, matrix, tensor of any kind, or on a view as its constructor or resize left it, gives every element (every stored element for sparse classes) the value v and leaves all other memory unchanged.", "quantifier": "all objects and views, all sizes and offsets, all values, all schedules of the parallel loop", "why_tests_cant": "frame property over all memory, offsets and schedules", "anchors": ["src/utils/fill/fill_vector.cpp", "src/utils/fill/fill_view1D.cpp", "src/utils/fill/fill_view_dense.cpp", "src/utils/fill/fill_coo.cpp", "include/monolish/common/monolish_view1D.hpp"]}
{"id": "C74", "title": "Assignment copies the elements", "statement": "dst = src between vectors, Dense matrices, dense tensors and views of the same extents gives dst the elements of src, in order, and changes nothing else; with different extents it aborts.", "quantifier": "all pairs of classes, all offsets of views on either side, all sizes, all schedules", "why_tests_cant": "the copy must be right for every offset of both views; with offset 0 everything works", "anchors": ["src/utils/copy/copy_view1D.cpp:79", "src/utils/copy/copy_vector.cpp", "src/utils/copy/copy_view_dense.cpp", "src/utils/copy/copy_view_tensor_dense.cpp"]}
{"id": "C75", "title": "Iterating from begin() to end() meets every element once, in order", "statement": "For vectors, Dense matrices, dense tensors and their views, a loop from begin() to end() meets exactly the elements, each once, in order.", "quantifier": "all objects and views, all offsets and sizes", "why_tests_cant": "holds for every offset or not at all; a test with a view at the start of its target passes", "anchors": ["include/monolish/common/monolish_view1D.hpp:323", "include/monolish/common/monolish_view_dense.hpp:463", "include/monolish/common/monolish_vector.hpp:316"]}
{"id": "C76", "title": "A view's [k], at(k) and insert(k, v) mean the same element", "statement": "view[k], view.at(k) and view.insert(k, v) address the k-th element of the view, for views of objects, of moved objects and of other views; access outside the view is rejected.", "quantifier": "all views, nesting depths, offsets, indices", "why_tests_cant": "two addressing schemes (through the raw pointer and through the target) have to agree for every nesting and offset", "anchors": ["include/monolish/common/monolish_view_dense.hpp:329", "include/monolish/common/monolish_view_tensor_dense.hpp:316", "include/monolish/common/monolish_view1D.hpp:445"]}
{"id": "C77", "title": "Resizing a view stays inside its target and keeps its start", "statement": "view.resize(n) succeeds exactly when the new extent fits into the target; then the view starts where it did, shows n elements, and no element has changed; assigning a std::vector to a view1D gives it the size and elements of the array.", "quantifier": "all views (also of views), offsets, sizes", "why_tests_cant": "boundary condition over all offsets and nestings", "anchors": ["include/monolish/common/monolish_view1D.hpp:360", "include/monolish/common/monolish_view_dense.hpp:499", "src/utils/copy/copy_view1D.cpp:10"]}
{"id": "C78", "title": "COO construction, copying and assignment keep the entries", "statement": "COO(M,N,NNZ,row,col,value[,origin]), COO(coo), COO(coo,value), set_ptr and A = B give a matrix of the stated size with exactly the given entries (indices shifted by origin), in order; A = B is rejected unless both have the same size and positions.", "quantifier": "all sizes, all arrays, all origins, all pairs of matrices", "why_tests_cant": "for all arrays, with the boundary between accepted and rejected pairs", "anchors": ["src/utils/coo_constructor.cpp", "src/utils/copy/copy_coo.cpp", "src/utils/compare/compare_coo.cpp"]}
{"id": "C79", "title": "CRS construction from arrays and assignment keep the rows", "statement": "Arrays that describe a CRS matrix (row pointers rising from 0 to nnz, columns in range) passed to a constructor (with columns counted from origin, if given) or to set_ptr of any object give a well-formed matrix with exactly those rows; A = B gives A the rows of B and is rejected unless sizes and structures agree.", "quantifier": "all sizes, arrays, origins, previous contents, pairs of matrices, schedules of the hash computation", "why_tests_cant": "for all arrays; rejection depends on a hash", "anchors": ["src/utils/crs_constructor.cpp", "src/utils/copy/copy_crs.cpp", "src/utils/compare/compare_crs.cpp"]}
{"id": "C80", "title": "Coordinate tensors: construction, copying and comparison", "statement": "tensor_COO(shape,index,value), the copy constructors and set_ptr give exactly the given elements in order; A == B is true exactly when shapes and stored elements agree.", "quantifier": "all ranks, shapes, element lists, pairs of tensors", "why_tests_cant": "equality has to be right for all pairs, including those of different lengths", "anchors": ["src/utils/tensor_coo_constructor.cpp", "src/utils/copy/copy_tensor_coo.cpp", "src/utils/compare/compare_tensor_coo.cpp"]}
{"id": "C81", "title": "The example program solves what is in the file", "statement": "The example program (construct COO from a Matrix Market file, construct CRS from it, solve with CG and the Jacobi preconditioner, maxiter = number of rows), given a file that describes a symmetric positive definite matrix, any start vector that is not already the solution and a positive tolerance, returns SUCCESS within n iterations and an x whose residual b - A x, A being the matrix in the file, is below the tolerance.", "quantifier": "all files (entries, comment lines), all sizes, all right-hand sides, start vectors, tolerances, all schedules", "why_tests_cant": "covers all files and matrices end to end; wrong only for some orders of the lines", "anchors": ["examples/cpu_only/cg/cg.cpp:main", "src/utils/IO/IO_coo.cpp:input_mm", "src/utils/convert/convert_crs.cpp", "src/equation/cg.cpp"]}
{"id": "C82", "title": "Generated matrices can be solved", "statement": "Generate a tridiagonal matrix (a > 0, 2|b| <= a), a 1-D Laplacian or a 2-D Laplacian of any size, convert it to CRS and solve: CG with the Jacobi preconditioner returns SUCCESS within as many iterations as there are rows with a residual below the tolerance; SOR with 0 < omega < 2 returns SUCCESS once maxiter is large enough.", "quantifier": "all sizes, values, right-hand sides, start vectors, tolerances, omegas, all schedules", "why_tests_cant": "for all sizes; positive definiteness of the generated family is a theorem, not a test", "anchors": ["benchmark/equation/CG.cpp", "benchmark/equation/SOR.cpp", "src/utils/create_matrix", "src/equation/cg.cpp", "src/equation/sor.cpp"]}
{"id": "C83", "title": "A program gives the same results in a CPU build and in a GPU build", "statement": "A program that sends its objects, computes with arguments on the same side, and receives results before it accesses elements, sends again or frees, gives every object the same values in a GPU build as in a CPU build (where the transfers do nothing), and fails in neither. No result is silently lost by any other sequence of send/recv/nonfree_recv/device_free.", "quantifier": "all programs (sequences of transfers, computations, element accesses), numbers of objects, computing functions", "why_tests_cant": "for all histories of transfers; tests run a few sequences on one build", "anchors": ["src/utils/system/gpu_comm.cpp", "include/monolish/common/monolish_vector.hpp:290", "include/monolish/common/monolish_common.hpp:get_device_mem_stat"]}
{"id": "C84", "title": "The device status tells where the data are", "statement": "At every point of every program, get_device_mem_stat() of an object is true exactly when all its arrays are on the device; no kernel meets an address that is not there; a copy is on the device exactly if its source is and has its values there and on the host; after destruction nothing stays on the device. This also holds for objects obtained by move, of whole objects or of views.", "quantifier": "all programs, objects, views, orders of destruction", "why_tests_cant": "for all histories; depends on reference counts of the device data environment", "anchors": ["src/utils/system/gpu_comm.cpp", "src/utils/move/move_dense.cpp", "src/utils/move/move_vector.cpp", "src/utils/vector_constructor.cpp:159", "src/utils/crs_constructor.cpp:154", "include/monolish/common/monolish_dense.hpp:600"]}
{"id": "C85", "title": "move with extents, move between views, reshape and unary minus", "statement": "A.move(t, rowN, colN) of a matrix from a tensor or tensor view makes A the rowN x colN matrix of the very same elements (a negative extent is computed from the other) or throws, changing nothing, if that is impossible; x.move(t, n) likewise; v.move(w[, rowN, colN]) of a matrix view makes v show the elements of w with the stated extents and changes no element; reshape keeps the elements in order and throws when the number of elements would change; -x is a new vector of the negated elements.", "quantifier": "all sizes, extents, requests, views, heaps", "why_tests_cant": "for all requests including negative and zero extents; aliasing effects on elements no view shows", "anchors": ["src/utils/move/move_dense.cpp", "src/utils/move/move_vector.cpp", "src/utils/move/move_view_dense.cpp", "src/utils/reshape/reshape_dense.cpp", "src/utils/minus/vector_minus.cpp"]}
{"id": "C86", "title": "A dense tensor times or plus a vector along its lines", "statement": "times_row(A,x,C), adds_row(A,x,C) give C(i..,j) = A(i..,j) op x(j) and times_col, adds_col give C(i,j..) = A(i,j..) op x(i), for tensors of every rank, also in place; the versions with a line number change that line of C only; wrong shapes, lengths and line numbers are rejected.", "quantifier": "all ranks, shapes (including empty ones), offsets into shared storage, line numbers, schedules", "why_tests_cant": "all ranks and all line numbers including the boundary", "anchors": ["src/blas/tensor/times/tensor_dense_times.hpp", "src/blas/tensor/times/tensor_dense_line_times.hpp", "src/blas/tensor/adds/tensor_dense_adds.hpp", "src/blas/tensor/adds/tensor_dense_line_adds.hpp"]}
{"id": "C87", "title": "Every overload of a product function computes the product", "statement": "Whatever storage classes (vector, matrix, tensor, views of them, CRS, tensor_CRS) and precision, matvec, matvec_N, matmul, tensvec, tensmat, mattens and tensmul called as f(A, X, C) make C the product over the last axis of A and the first axis of X, and f(a, A, X, b, C) makes it a*A*X + b*C; matvec_T uses the transpose of A; nothing else changes. Every combination of storage classes is accepted.", "quantifier": "all 2560 overloads, all shapes and ranks, values, scalars, offsets, schedules, with and without AVX", "why_tests_cant": "2560 overloads times all shapes; a swapped argument in one overload is invisible elsewhere", "anchors": ["src/blas/matrix/matvec/matvec_blas.cpp", "src/blas/matrix/matmul/matmul_blas.cpp", "src/blas/tensor/tensvec/tensvec_blas.cpp", "src/blas/tensor/tensmat/tensmat_blas.cpp", "src/blas/tensor/mattens/mattens_blas.cpp", "src/blas/tensor/tensmul/tensmul_blas.cpp"]}
{"id": "C88", "title": "Every reduction overload computes its reduction", "statement": "Whatever the storage class and precision, sum, asum, nrm1, nrm2 and dot, returning the result or leaving it in their last argument, give the sum, the sum of absolute values, the Euclidean norm and the inner product of all elements; dot of vectors of different lengths stops; vml::max and vml::min of one argument return an element that no element exceeds (or falls below). Every storage class is accepted.", "quantifier": "all 184 overloads, all lengths and shapes, values, offsets, partitions and orders of the parallel loop", "why_tests_cant": "184 overloads times all inputs and thread schedules; a swapped core in one overload or a wrong neutral element shows only for some values", "anchors": ["src/blas/vector/vector_blas.cpp", "src/vml/vector/vector_vml.cpp", "src/vml/matrix/matrix_vml.cpp", "src/vml/tensor/tensor_vml.cpp", "src/vml/matrix/math_1_3op/matmax.hpp"]}
{"id": "C89", "title": "The documented hand-written CG equals the library's CG", "statement": "The example that implements conjugate gradients with the public functions matvec, sub, copy, dot, axpy, xpay and nrm2 leaves in x, bit for bit and in any arithmetic, what equation::CG without preconditioner (same tolerance, at most one iteration per row) leaves there, prints one line per iteration, the last one with the final residual, and stops in the same way if a check fails; on its tridiagonal matrix it ends with a residual below the tolerance.", "quantifier": "all square matrices of every storage class, vectors, tolerances, arithmetics and loop schedules; all sizes and dominant diagonal values for the program", "why_tests_cant": "bitwise agreement for every input and arithmetic and termination for every size are not a finite check", "anchors": ["examples/cpu_only/cg_impl/cg.cpp:my_cg", "src/equation/cg.cpp:monolish_CG"]}
{"id": "C90", "title": "print_all shows every element exactly once", "statement": "print_all of a vector, view, COO, CRS, Dense, view_Dense, tensor_Dense, view_tensor_Dense, tensor_COO or tensor_CRS prints one line per (stored) element, in storage order, with the element's own 1-based position and its own value, and reads nothing outside the object; a tensor_CRS prints what its tensor_COO conversion prints", "quantifier": "all objects of every class, shapes, sizes and contents", "why_tests_cant": "the correspondence of lines and positions must hold for all shapes and storage states; index arithmetic bugs show only for some shapes or offsets", "anchors": ["src/utils/IO/IO_vector.cpp:print_all", "src/utils/IO/IO_view1D.cpp", "src/utils/IO/IO_coo.cpp", "src/utils/IO/IO_crs.cpp", "src/utils/IO/IO_dense.cpp", "src/utils/IO/IO_view_dense.cpp", "src/utils/IO/IO_tensor_dense.cpp", "src/utils/IO/IO_view_tensor_dense.cpp", "src/utils/IO/IO_tensor_coo.cpp", "src/utils/IO/IO_tensor_crs.cpp"]}
{"id": "C91", "title": "The dense eigensolver returns the whole spectrum with multiplicities", "statement": "When standard_eigen::DC::solve succeeds on a symmetric matrix, lambda holds exactly the roots of the characteristic polynomial, each as often as its multiplicity, in ascending order; the example program that generates the tridiagonal Toeplitz matrix, converts it to Dense, solves and prints lambda prints in line k the k-th value of tridiagonal_toeplitz_matrix_eigenvalue, and signals failure when the solver fails", "quantifier": "all sizes, all symmetric matrices, all LAPACK implementations that meet the documented contract; all n >= 2 and values a, b for the program", "why_tests_cant": "completeness of the spectrum and agreement with a closed form for every size cannot be sampled", "anchors": ["src/eigen/DC.cpp", "examples/eigen/DC/DC.cpp:main", "src/internal/lapack/syev/dense_double_syev.cpp", "src/utils/create_matrix/tridiagonal_toeplitz.cpp"]}
{"id": "C92", "title": "The templated solver example solves the system in the file", "statement": "The example program that reads a Matrix Market file, converts it to the storage class given as template argument, solves and prints x: with Dense and LU it prints, one line per unknown, the solution of A x = b for every nonsingular matrix, whatever the order of the entries in the file; with Dense and BiCGSTAB it prints an iterate of the textbook method that passes the residual test; when the solver fails it reports failure instead of printing", "quantifier": "all Matrix Market files (entry order, comments, repeated entries), sizes, right-hand sides, start vectors, LAPACK implementations that meet the documented contract", "why_tests_cant": "all files, matrices and right-hand sides; a file with another entry order or a singular matrix is not in a test", "anchors": ["examples/cpu_only/templated_solver/solver.cpp:solve_test", "src/equation/lu/lu.cpp", "src/equation/bicgstab.cpp", "src/utils/dense_constructor.cpp:convert"]}
{"id": "C93", "title": "BiCGSTAB reaches the exact solution within n iterations", "statement": "In exact arithmetic BiCGSTAB with a nonsingular matrix and preconditioner and without breakdown ends within n iterations, returning SUCCESS and a solution of A x = b", "quantifier": "all n, nonsingular matrices, nonsingular linear preconditioners, right-hand sides, start vectors, tolerances and maxiter >= n", "why_tests_cant": "finite termination is a statement about all matrices of every order; rounding hides the exact zero division in tests", "anchors": ["src/equation/bicgstab.cpp:monolish_BiCGSTAB"]}
{"id": "C94", "title": "Every row and column operation does its operation", "statement": "Every overload of times_row, times_col, adds_row and adds_col, whatever the storage classes (matrices, views, tensors, CRS, tensor_CRS) and precision: C(.., j) = A(.., j) op x(j) by rows, C(i, ..) = A(i, ..) op x(i) by columns; with a valid line number only in that line, the rest of C keeps its elements; in place or not; nothing else changes. Every dense combination of classes is accepted.", "quantifier": "all 2088 overloads, all shapes and ranks, values, offsets, aliasing of A and C, thread schedules", "why_tests_cant": "2088 overloads times all inputs; a swapped core or argument in one overload, or an index bug for one shape, is outside any test set", "anchors": ["src/blas/matrix/times/times.cpp", "src/blas/matrix/adds/adds.cpp", "src/blas/tensor/times/times.cpp", "src/blas/tensor/adds/adds.cpp", "src/blas/matrix/times/dense_line_times.hpp", "src/blas/matrix/times/crs_line_times.hpp"]}
{"id": "C95", "title": "The headers offer what the library defines", "statement": "Every operation a public header declares is defined in the library (the call links), and every operation the library defines is declared (it can be called): products, row and column operations, reductions and element-wise functions, for all storage classes and both precisions", "quantifier": "all declarations of include/monolish/{blas,vml}/*.hpp and all definitions of src/{blas,vml} (about 10000 each)", "why_tests_cant": "a test only shows the overloads it calls; no test can call an operation that is not declared, and a missing definition fails only in the program that uses it", "anchors": ["include/monolish/blas", "include/monolish/vml", "src/blas/matrix/matvec/matvec_blas.cpp", "src/blas/matrix/matmul/matmul_blas.cpp", "src/blas/tensor/tensmul/tensmul_blas.cpp", "src/blas/tensor/tensvec/tensvec_blas.cpp", "src/vml/matrix/matrix_vml.cpp"]}
{"id": "C96", "title": "Every diagonal operation does its operation", "statement": "Every member diag_add, diag_sub, diag_mul, diag_div, whatever the class (Dense, CRS, tensor_Dense and their views), precision and argument (scalar, vector, view of anything): the diagonal elements become A(i,..,i) op y(i) and nothing else changes; every class has every operation with every argument type", "quantifier": "all 360 member functions and 24 kernels, all shapes, values, structures, argument views, thread schedules", "why_tests_cant": "360 member functions times all inputs; a wrong operator or kernel in one of them, or for one precision, is outside a test set", "anchors": ["src/blas/matrix/diag_op/dense_diag_add.cpp", "src/blas/matrix/diag_op/crs_diag_add.cpp", "src/blas/tensor/diag_op/tensor_dense_diag_add.cpp", "src/blas/matrix/diag_op/dense_diag_op.hpp", "src/blas/matrix/diag_op/crs_diag_op.hpp", "src/blas/tensor/diag_op/tensor_dense_diag_op.hpp"]}
{"id": "C97", "title": "The residual history tells what happened", "statement": "With set_print_rhistory(true) a solver writes one line per iteration, numbered 1, 2, 3, ...; printing changes nothing else about the run; no line but the last shows a reason to stop, the last one shows the reason given by the return code and the value of get_final_residual(); line k shows what the same call limited to k iterations would report; without it nothing is written", "quantifier": "all matrices, preconditioners, right-hand sides, initial vectors, settings and arithmetics (CG, BiCGSTAB, Jacobi, SOR)", "why_tests_cant": "relates every line of every run with another run; a test sees single histories", "anchors": ["src/equation/cg.cpp", "src/equation/bicgstab.cpp", "src/equation/jacobi.cpp", "src/equation/sor.cpp", "include/monolish_solver.hpp"]}
{"id": "C98", "title": "Solver objects may be reused", "statement": "A solver object may be given any sequence of settings, preconditioners and solve calls, and other objects may be created, used and destroyed in between: a call of solve returns exactly what a fresh object with the settings last set would return; the preconditioner is made for the matrix of this call; the residual history goes to the stream chosen last and only there; no use of a live object is undefined", "quantifier": "all programs: all finite sequences of statements creating, setting, solving (also throwing), copying and destroying any number of solver objects; all matrices, vectors and arithmetics", "why_tests_cant": "quantifies over all histories of calls on all objects; a test runs one", "anchors": ["include/monolish_solver.hpp", "include/monolish_equation.hpp", "src/equation/precond.cpp", "src/equation/cg.cpp", "src/equation/bicgstab.cpp", "src/equation/jacobi.cpp", "src/equation/sor.cpp", "src/equation/none.cpp"]}
{"id": "C99", "title": "32-bit indices do not change results", "statement": "The sparse classes store indices as int and mix int with size_t. For matrices with at most INT_MAX rows, columns and stored elements this has no effect: insert, at, sort, conversion COO to CRS and back, transpose, matrix-vector product, and the generator of the grid Laplacian behave exactly as with unbounded integers (same result, same exception, same failed assertion) and no signed overflow happens", "quantifier": "all matrices and all sequences of calls whose sizes fit into int; all schedules of the product", "why_tests_cant": "index arithmetic near 2^31 needs matrices of many gigabytes, which no unit test builds", "anchors": ["include/monolish/common/monolish_coo.hpp", "include/monolish/common/monolish_crs.hpp", "src/utils/at_insert_sort/at_insert_sort_coo.cpp", "src/utils/convert/convert_crs.cpp", "src/utils/transpose/transpose_crs.cpp", "src/utils/create_matrix/laplacian_2D5p.cpp"]}
{"id": "C100", "title": "Rounding errors stay within the textbook bounds for every schedule", "statement": "In floating-point arithmetic, a finite result of sum, asum, nrm1, dot, nrm2 of N numbers, and every component of a CRS matvec or matvec_T, differs from the exact result by at most ((1+u)^k - 1) times the sum of the absolute values of the terms (k additions and multiplications on the longest path; plus a term for underflow), whatever the number of threads, the distribution of iterations and the order in which partial results are combined; sums and dot products of small integers are exact; the same call returns the same value on every run", "quantifier": "all inputs, lengths, thread counts, distributions, orders of combination; all arithmetics of the standard model, in particular every binary IEEE format with any rule for ties, with overflow and gradual underflow", "why_tests_cant": "the bound concerns all schedules and all inputs; a test sees a few of each, and cannot tell a wrong result from a rounding error without it", "anchors": ["src/blas/vector/sum.hpp", "src/blas/vector/nrm1.hpp", "src/blas/vector/dot.hpp", "src/blas/vector/nrm2.hpp", "src/blas/matrix/matvec/crs_matvec.hpp"]}
{"id": "C101", "title": "The log viewer shows what happened", "statement": "monolish_log_viewer, run on the log of a program: the first table has one row for every name of an outermost logged call, with the total duration and the number of these calls; the second table has one row for every outermost logged call and every path of calls in it that is a solver call or inside one, with the path, depth, number of the outermost call, total duration, number of calls, and shares in the enclosing calls; shares of the inner calls of a call are between 0 and 100 and add up to at most 100; no logged call is missing from the numbers", "quantifier": "all executions (forests of nested calls, any names without slash), all log levels, all clocks that do not run backwards", "why_tests_cant": "the viewer reconstructs the nesting from the names by grouping and back-filling; whether this loses or mixes calls depends on the whole history", "anchors": ["python/monolish_log_viewer/aggregate.py", "python/monolish_log_viewer/create_log.py", "python/monolish_log_viewer/read.py", "src/utils/system/logger_utils.cpp"]}
{"id": "C102", "title": "CG converges at the textbook rate", "statement": "In exact arithmetic, for a symmetric positive definite matrix and preconditioner: every iterate of CG is the best approximation in the energy norm among all vectors initial guess + Krylov space; the error never grows; if the eigenvalues of the preconditioned matrix are between m and M, the error after k iterations is at most 2((sqrt M - sqrt m)/(sqrt M + sqrt m))^k times the initial error; hence solve returns SUCCESS after at most k iterations as soon as this bound is below the tolerance, independently of the size of the matrix. For a symmetric matrix whose off-diagonal row sums are at most delta < 1 times its positive diagonal, the number of iterations with the Jacobi or SOR (omega = 1) preconditioner is bounded by delta, the largest diagonal element, the initial error and the tolerance", "quantifier": "all sizes, symmetric positive definite matrices and preconditioners, right-hand sides, initial guesses, tolerances, schedules of the matrix product", "why_tests_cant": "a bound on the number of iterations for all matrices of all sizes with a given condition number is not a finite set of cases", "anchors": ["include/monolish_equation.hpp", "src/equation/cg.cpp"]}
{"id": "C103", "title": "Rounding errors: the residual CG and BiCGSTAB report is close to the true one", "statement": "In floating-point arithmetic (every arithmetic with relative rounding errors and underflow, so float and double): what CG and BiCGSTAB leave in x and report as final residual belong to the same iteration, and the true residual b - A x differs from the residual the solver maintains, element by element, by at most (number of updates + 1) times a loss that is of the size of the unit roundoff times the bounds of the iterates, residuals and row sums (plus underflow terms); so after SUCCESS the norm of the true residual is at most the tolerance, up to the rounding error of the norm, plus the accumulated losses. It is not always below the tolerance itself", "quantifier": "all arithmetics with rounding, CRS matrices, preconditioners, right-hand sides, initial guesses, settings, schedules of the matrix product and the sums, numbers of iterations, as long as the results are finite", "why_tests_cant": "accumulation of rounding errors over any number of iterations, for all inputs and schedules", "anchors": ["src/equation/cg.cpp", "src/equation/bicgstab.cpp", "src/blas/vector/axpy.hpp", "src/blas/vector/nrm2.hpp"]}
{"id": "C104", "title": "LOBPCG's eigenvalues are eigenvalues; the example program shows them", "statement": "If LOBPCG for the standard problem returns SUCCESS on a symmetric matrix, every number it returns is within tol of an eigenvalue of the matrix without preconditioner, and within max|a_ii| tol with the Jacobi preconditioner (in general kappa tol, if the preconditioner shrinks no vector by more than kappa), up to the relative error of the square root; the smallest eigenvalues are not promised. The example program examples/eigen/lobpcg generates a tridiagonal Toeplitz matrix, and after a successful solve prints the eigenvalues, each within |a| tol of one of the values given by tridiagonal_toeplitz_matrix_eigenvalue, and the normalised eigenvectors, reading only memory it owns", "quantifier": "all symmetric matrices, preconditioners, initial vectors, numbers of eigenpairs, answers of LAPACK, numbers of iterations; all sizes and values of the tridiagonal matrix", "why_tests_cant": "the claim is about the true spectrum of every matrix and any number of iterations", "anchors": ["src/eigen/lobpcg_standard.cpp", "examples/eigen/lobpcg/lobpcg.cpp", "include/monolish/common/monolish_view1D.hpp", "src/utils/create_matrix/tridiagonal_toeplitz.cpp"]}
{"id": "C105", "title": "The solvers cannot tell apart two representations of one matrix", "statement": "CG, BiCGSTAB, the Jacobi solver and LOBPCG, without preconditioner or with the Jacobi preconditioner, give the same outcome (status, x, eigenvalues, iteration count, residual, or the same error) for a Dense matrix, a CRS matrix and a LinearOperator with the same elements, whatever arithmetic, settings and right-hand side are used, as long as the products themselves are exact; in particular CG on an operator that acts as a symmetric positive definite matrix (for instance on B + s C built from two CRS matrices) stops with SUCCESS within n iterations. An operator must not outlive the matrix it was made from: after that matrix has been destroyed every solve with it is undefined behaviour.", "quantifier": "all matrices, operators however nested, settings, right-hand sides, initial guesses, thread counts and schedules of the diagonal loop", "why_tests_cant": "equality of whole runs for all inputs, all nestings of callbacks and all schedules", "anchors": ["src/equation/cg.cpp", "src/equation/bicgstab.cpp", "src/equation/jacobi.cpp", "include/monolish/common/monolish_linearoperator.hpp", "src/utils/getvec/linearoperator_getvec.cpp"]}
{"id": "C106", "title": "Logging is safe with any number of threads", "statement": "Switching logging on does not change what a program does, whatever number of threads it uses: no logger call goes wrong, and the logger's record of running calls is the same after a library call as before. In particular this holds for the library's own parallel regions, such as the diagonal of a LinearOperator, whose threads call the operator's callback (which logs) at the same time.", "quantifier": "all log levels, numbers of threads, distributions of iterations, callbacks, and interleavings of the threads at the granularity of reads and writes of the logger's vectors", "why_tests_cant": "depends on the interleaving of single memory accesses; the failing schedules are rare", "anchors": ["src/utils/system/logger_utils.cpp", "include/monolish/common/monolish_logger.hpp", "src/utils/getvec/linearoperator_getvec.cpp", "src/utils/convert/convert_linearoperator.cpp"]}
{"id": "C107", "title": "A solve in a GPU build gives the same answer, wherever the data are", "statement": "If the matrix and both vectors are on the same side (all on the host or all on the device), CG, BiCGSTAB, Jacobi and SOR with no preconditioner, Jacobi or SOR give the result the host algorithm gives on the same contents (x, return code, iteration count, residual, or the same error); A and b keep their contents and x stays on its side. If they are not on the same side, the solver throws.", "quantifier": "all matrices (CRS, Dense), contents, settings, preconditioners, numbers of iterations, builds (CPU, GPU) and positions of the data", "why_tests_cant": "unit tests run on few matrices and compare only converged results; a stale copy or a missing transfer shows only for particular histories of transfers", "anchors": ["src/equation/cg.cpp", "src/equation/bicgstab.cpp", "src/equation/jacobi.cpp", "src/equation/sor.cpp", "src/equation/kernel/sor_kernel.hpp", "include/monolish/common/monolish_common.hpp"]}
{"id": "C108", "title": "In an MPI build a solve on all processes is one solve of the whole system", "statement": "If every process calls CG, BiCGSTAB, Jacobi or SOR with the same settings on its own square matrix and vectors (of any size, also zero), all processes take part in the same reductions and leave the solver together, with the same return code, iteration count and residual; these, and the parts of x, are those of a solve of the block-diagonal system made of all the matrices. In particular CG on symmetric positive definite matrices returns SUCCESS everywhere within the total number of unknowns iterations, unless every process already starts from its solution. If the settings differ, or one process's matrix is not square, the processes can wait for each other for ever.", "quantifier": "all numbers of processes, sizes of the parts, matrices, preconditioners, settings, numbers of iterations, arithmetics and ways MPI combines the contributions", "why_tests_cant": "no test can run all numbers of processes and all decompositions; a deadlock appears only when one process leaves the loop in another iteration than the others", "anchors": ["src/blas/vector/dot.hpp", "src/blas/vector/nrm2.hpp", "src/mpi/allreduce.hpp", "src/equation/cg.cpp", "src/equation/bicgstab.cpp", "src/equation/jacobi.cpp", "src/equation/sor.cpp"]}
{"id": "C109", "title": "Constructors of vectors, dense matrices and dense tensors give the object asked for", "statement": "vector(N, x), Dense(M, N, x) and the constructors of the same size as another object give objects of that size whose elements are all x, however the threads run; the random constructors and util::random_vector give the values drawn (hence within the range, if the draws are) and touch nothing else; a range, std::vector, initializer list, pointer or view gives the listed elements in row-major order; copies and conversions (vector to vector, tensor to tensor, Dense and vector to tensor) have the elements of the source. A list or vector that does not have as many elements as the object is rejected.", "quantifier": "all sizes, shapes, values, random streams, schedules of the fill loops, offsets of the source in a shared buffer, previous contents of the target", "why_tests_cant": "sources that start inside a shared buffer come only from particular histories (move from a view); out-of-range copies go unnoticed in tests", "anchors": ["src/utils/vector_constructor.cpp", "src/utils/dense_constructor.cpp", "src/utils/tensor_dense_constructor.cpp", "src/utils/convert/convert_tensor_dense.cpp"]}
{"id": "C110", "title": "Rounding errors: SUCCESS of the Jacobi and SOR solvers", "statement": "If Jacobi::solve or SOR::solve returns SUCCESS in double or single precision, the true residual b - Ax of the returned x is at most the tolerance times the norm of b, up to the rounding errors of the test and of one evaluation of the residual, whatever the number of iterations.", "quantifier": "all matrices, right-hand sides, initial guesses, preconditioners, relaxation factors, tolerances, numbers of iterations, orders of summation", "why_tests_cant": "the true residual is a real number that the floating-point run cannot compute; the tests use a handful of matrices", "anchors": ["src/equation/jacobi.cpp", "src/equation/sor.cpp", "src/equation/kernel/sor_kernel.hpp", "include/monolish/equation/monolish_equation.hpp"]}
{"id": "C111", "title": "CRS tensors of the same structure work together", "statement": "Two tensor_CRS objects of the same shape with the same index arrays count as having the same structure (util::is_same_structure), however they were made - from arrays, with set_ptr, like another tensor, by conversion or copy - and whatever happened to their values: they can be assigned to each other, A = B giving A the elements of B, and combined element-wise. set_ptr gives the tensor of the arrays, whatever the object was before. Tensors with different shapes or index arrays are rejected.", "quantifier": "all shapes, numbers of slices, index arrays, values, previous states of the target, histories of conversions and assignments, schedules of the hash computation", "why_tests_cant": "an uninitialised hash shows only for particular memory contents; hash collisions for particular structures", "anchors": ["src/utils/copy/copy_tensor_crs.cpp", "src/utils/tensor_crs_constructor.cpp", "src/utils/hash.cpp", "src/utils/compare/compare_tensor_crs.cpp", "src/utils/convert/convert_tensor_crs.cpp", "src/blas/tensor/times/tensor_crs_times.hpp"]}
{"id": "C112", "title": "input_mm reads every Matrix Market file", "statement": "Every file in the Matrix Market format (coordinate, real, general) is read as the matrix it describes - its dimensions and its entries in the order of the file - whatever its layout: comment lines, blanks, tabs, carriage returns, leading zeros, with or without a line break at the end. A file that is not in the format (fewer entries than announced, an index that is 0 or larger than the dimension) is refused.", "quantifier": "all files, all previous states of the object", "why_tests_cant": "files of all sizes and layouts; the tests read a few files written by output_mm or from one collection", "anchors": ["src/utils/IO/IO_coo.cpp:input_mm", "include/monolish/common/monolish_coo.hpp", "examples/cpu_only/cg/cg.cpp"]}
{"id": "C113", "title": "Incomplete factorisations: ILU and IC", "statement": "equation::ILU / equation::IC on a square CRS matrix on the device: solve() returns SUCCESS with x such that L U x = b (L L' x = b) for a factorisation of the matrix on the device that agrees with it at every stored position; when eliminating creates no new positions x is the solution of A x = b. As preconditioners they apply the inverse of that product, and CG with IC solves every symmetric positive definite system within n iterations. When there is no such factorisation (zero pivot) an exception is raised; without a GPU, or with operands that are not on the device, an exception is raised.", "quantifier": "all square CRS matrices, right-hand sides, sizes, both precisions, all device states, all implementations of the vendor library that satisfy its documentation", "why_tests_cant": "the tests run on one tridiagonal matrix and need a GPU; zero pivots and stale device values are never tried", "anchors": ["src/equation/ilu.cpp", "src/equation/ic.cpp", "src/equation/kernel/ilu_kernel.hpp", "src/equation/kernel/ic_kernel.hpp"]}
{"id": "C114", "title": "random_structure_tensor has the requested population in every line", "statement": "random_structure_tensor for two, three and four extents: a tensor of the given shape in row-major order without repeated positions, in which every line (all indices but the last fixed) holds exactly nnzrow elements, all equal to the given value; too large a request is refused; the loop ends as soon as the random numbers have met every index often enough.", "quantifier": "all shapes, populations, values and all streams of random numbers", "why_tests_cant": "the result depends on random numbers; tests see one stream", "anchors": ["src/utils/create_tensor/random_tensor.cpp:random_structure_tensor", "src/utils/at_insert_sort/at_insert_sort_tensor_coo.cpp", "include/monolish/common/monolish_common.hpp"]}
{"id": "C115", "title": "The generalised dense eigensolver returns the whole spectrum with multiplicities", "statement": "When generalized_eigen::DC::solve returns SUCCESS for symmetric A and B, lambda holds all generalised eigenvalues (the roots of det(x B - A), det(x - A B) or det(x - B A) for the three problem types), each as often as its multiplicity, in ascending order; B is not singular; the rows of A hold eigenvectors normalised with B (with its inverse for the third type).", "quantifier": "all sizes, all symmetric A and B, the three problem types, every LAPACK that meets its documentation", "why_tests_cant": "multiplicities and completeness of a spectrum are statements about all eigenvectors; the tests compare one matrix with a closed form", "anchors": ["src/eigen/DC.cpp", "src/internal/lapack/sygv", "include/monolish_generalized_eigen.hpp"]}
{"id": "C116", "title": "Direct solvers with data on the GPU", "statement": "In a GPU build the direct solvers treat the data the user sees - the device copy of an operand that is on the device, the host copy of one that is not: LU and Cholesky (dense) return SUCCESS with the solution of A x = b, or BREAKDOWN exactly for a singular matrix; DC returns the eigenvalues and eigenvectors; QR and Cholesky on CRS matrices return SUCCESS with the solution or report that there is none. Host and device give the same solution, operands on different sides are refused, and operands stay on the side on which they were.", "quantifier": "all sizes, matrices, right-hand sides, host and device states of each operand, both precisions, every LAPACK and cuSOLVER that meets its documentation", "why_tests_cant": "needs a GPU and every combination of placements and of stale copies; the tests use one placement and one matrix", "anchors": ["src/equation/lu/lu.cpp", "src/equation/cholesky/cholesky.cpp", "src/equation/cholesky/cholesky_cusolver_gpu.cpp", "src/equation/qr/qr.cpp", "src/equation/qr/qr_cusolver_gpu.cpp", "src/eigen/DC.cpp", "src/internal/lapack"]}
{"id": "C117", "title": "LOBPCG with data on the GPU", "statement": "In a GPU build LOBPCG (standard and generalised) gives, wherever the user has put A, B, l and x, the return code, eigenvalues, eigenvectors, iteration count and residual that the same calculation gives on the host with the eigensolver of cuSOLVER for the projected problem, and leaves l and x where they were.", "quantifier": "all sizes, matrices, numbers of vectors, preconditioners, initial vectors (given or random), numbers of iterations including restarts, host and device states of all arguments, every answer of the library", "why_tests_cant": "needs a GPU and every placement; whether a stale copy is used depends on the whole sequence of transfers in every iteration", "anchors": ["src/eigen/lobpcg_standard.cpp", "src/eigen/lobpcg_generalized.cpp", "src/internal/lapack/sygv", "src/utils/system/gpu_comm.cpp", "include/monolish/common/monolish_vector.hpp"]}
{"id": "C118", "title": "LOBPCG on several processes solves one problem", "statement": "In an MPI build, when every process calls LOBPCG (standard or generalised) with the same settings on its own rows of the problem, all processes return together, with the same return code, iteration count and residual, and with the same eigenvalues; with one process the result is that of a build without MPI.", "quantifier": "all numbers of processes, sizes of the parts (also a single row), matrices, initial vectors, preconditioners, settings, numbers of iterations, every LAPACK", "why_tests_cant": "whether processes wait for each other for ever, or diverge silently, depends on the local sizes and data of all of them together; the tests call the solver on one process", "anchors": ["src/eigen/lobpcg_standard.cpp", "src/eigen/lobpcg_generalized.cpp", "src/blas/vector/dot.hpp", "src/blas/vector/nrm2.hpp", "src/mpi/allreduce.hpp"]}
{"id": "C119", "title": "LOBPCG only improves, and reports every failure of LAPACK", "statement": "For a symmetric matrix (and a symmetric B), whatever return code LOBPCG gives other than RESIDUAL_NAN, after at least one iteration and with finite vectors: each number l[i] is the Rayleigh quotient of its vector x[i], which is not zero; the vectors are orthogonal to one another (for B in the generalised problem); the numbers ascend; and l[i] is at most the largest Rayleigh quotient on any space spanned by i+1 of the vectors it started from, in particular l[0] is at most the quotient of every start vector. With a larger maxiter no l[i] gets larger, and l[i] is never less than the i-th smallest eigenvalue. When LAPACK fails on the projected problem the caller is told so.", "quantifier": "all sizes, symmetric matrices, numbers of vectors, start vectors (given or random), preconditioners, tolerances, numbers of iterations including restarts, every LAPACK that works as documented", "why_tests_cant": "a statement about all iterates of all runs; the tests look at a converged result of one matrix, and no test makes LAPACK fail", "anchors": ["src/eigen/lobpcg_standard.cpp:123-309", "src/eigen/lobpcg_generalized.cpp:145-361", "src/internal/lapack/sygv"]}
{"id": "C120", "title": "LOBPCG finds an eigenpair", "statement": "For a symmetric matrix and a start vector of length 1 (or a random one), without a preconditioner or with the Jacobi preconditioner and a positive diagonal (of at least c; then the residual and tol are those divided by the diagonal, and tol below is replaced by c tol), LOBPCG returns SUCCESS with a vector of length 1 and a number whose residual is below the tolerance, once maxiter is large enough: (maxiter - 1) tol^2 > 2 D^2 is enough, where D is the spread of the Rayleigh quotients of the matrix. It never restarts for ever and never throws, whatever the projected matrices. With m vectors and (maxiter - 1) tol^2 > 2 m D^2 it never runs out of iterations.", "quantifier": "all sizes, symmetric matrices, start vectors, tolerances, settings of maxiter, orders of the threads, every LAPACK that works as documented, also when it reports a singular projected problem and the solver restarts", "why_tests_cant": "convergence within a bounded number of steps for every matrix and start vector; the tests look at one matrix", "anchors": ["src/eigen/lobpcg_standard.cpp:13-309", "include/common/monolish_solver.hpp"]}
{"id": "C121", "title": "get_data_size tells the memory of the arrays", "statement": "get_data_size() of a matrix or tensor is the memory in GB (10^9 bytes) of the arrays of its format that are in use: the values, and the index arrays with the size of their element type.", "quantifier": "all formats, sizes, numbers of stored elements and value types", "why_tests_cant": "a formula over all sizes and types; the only test compares COO with the number the code computes", "anchors": ["include/monolish/common/monolish_dense.hpp:454", "include/monolish/common/monolish_coo.hpp:700", "include/monolish/common/monolish_crs.hpp:777", "include/monolish/common/monolish_tensor_dense.hpp:397", "include/monolish/common/monolish_tensor_coo.hpp:230", "include/monolish/common/monolish_tensor_crs.hpp:125"]}
