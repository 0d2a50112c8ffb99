# DESIGN - Lean 4 model of ricosjp/monolish

Source: `/repo` (monolish 0.17.3), C++; read as text only. Lean project: `/verif/lean`.

## 1. Shape of the model

* `Verif/Core/*` - the execution framework. `Res α` is the outcome of a C++
  fragment: `ok a`, `throw` (a C++ exception), `abort` (a failed `assert`) or
  `ub` (undefined behaviour: out-of-bounds access, use of an empty stack, ...).
  Buffers are `List`s; every read and write of a buffer goes through `rd`/`wr`,
  which yield `ub` out of bounds. Loops are `forN` (counted loops) or fuel
  recursion whose fuel is *proved* never to run out. `Res.Sat r P` ("r is `ok a`
  with `P a`") therefore states total correctness and memory safety at once.
* `Verif/Model/*` - the code, function by function, each definition citing
  file and lines.
* `Verif/Spec/*` - small specifications that do not mention the model's helpers
  (last-write-wins map, sums over index sets, row-major position, ...).
* `Verif/Lemmas/*` - helper lemmas.
* `Verif/Props/*` - the property theorems (names `Cxx_...`), each followed by an
  `example` showing that a concrete non-trivial case meets its hypotheses.
  Violated properties appear as `Cxx_..._violated` (negation with a concrete
  witness, evaluated by the kernel) next to the `..._partial` theorem that does hold.

## 2. Conventions and simplifications (apply everywhere)

* Values: an arbitrary type `α` with exactly the operations the function uses.
  Where no algebraic law is needed none is assumed, so the theorem also covers
  IEEE floating point; where a law is needed (associativity of a sum, a field
  in the solvers) the typeclass in the theorem says so and the result is about
  exact arithmetic.
* Sizes and indices (`size_t`, `int`) are `Nat` (no wrap-around), except in
  `vhash`, whose 32/64-bit wrap-around is modelled with `BitVec`, and where
  a signed value matters (`Int`).
* Only the CPU path of the OSS build is modelled (no MKL, no CUDA, no MPI
  transport, no SX-Aurora). GPU status is modelled only where a CPU-visible
  check uses it. BLAS/LAPACK (`cblas_dgemv`, `cblas_dgemm`, `cblas_ddot`, ...)
  are parameters/specifications: trusted to implement their documentation.
* `assert`: a failed assertion is the outcome `abort`. A theorem with the
  asserted condition as hypothesis holds with or without `NDEBUG`.
* `std::vector`/`shared_ptr` buffers: a `List` of fixed length; aliasing is
  modelled explicitly where it is the property (views, `move`).
* OpenMP. Loops whose iterations write disjoint elements are run in an arbitrary
  order (`Order`, C16-C18, C29-C34 ...). Where interleaving is the property the model
  is a small-step machine whose schedule is an arbitrary list of thread numbers:
  `Model/Conc` (element-wise kernels, loads and stores are separate steps),
  `Model/LinDiag` (LinearOperator::diag), `Model/Logger` (concurrent logger calls).
  Memory is sequentially consistent and access to one element is atomic (trusted;
  guaranteed by C++ for the race-free loops). Reductions are arbitrary trees of
  arbitrary partitions (`RTree`).
* Solver scalars: `Num` (abstract comparisons), `Exact` (field with exact root),
  `Ext` (values with NaN/inf and one zero) where special values matter. SOR kernels
  are sequential in the code and in the model.
* Tensor indices: 32-bit truncation is modelled in tensor_COO::sort, not in
  tensor_CRS. Generators: sizes below 2^31, random draws are a list.
* MatrixMarket: number printing/parsing is a parameter (`Codec.Ok`), everything
  else is on characters.
* Logger calls are left out of the functional models and modelled separately (C35);
  the call skeletons of all 708 logged functions are extracted from the source text
  by `tools/logger_extract.py`/`logger_gen.py` (trusted; conditions uninterpreted,
  optional macros off).
* LinearOperator: objects live in a store, callbacks hold addresses (captures by
  reference), the depth of nested calls is bounded by a parameter that the theorems
  quantify.
* MPI: the library is specified by the rules of its standard (order of messages,
  counts, no overlapping buffers), the wrappers are modelled on top.

## 3. Properties: what is modelled, how it is proved

| id | model | proof |
|----|-------|-------|
| C01 | `Coo` with capacity, `resize`, `insert`, `at` | representation invariant + refinement to the insertion list by induction on the history |
| C02 | `_q_sort` on three arrays, fuel recursion | Hoare partition invariants; permutation + sortedness; fuel bound = termination |
| C03 | `sort(true)` merge loop | loop invariant on the kept prefix |
| C04 | same | negation by witness; partial = C03's "some inserted value" |
| C05 | same | negation by witness; partial for `sort(false)` |
| C06 | `CRS::convert(COO)` loop | loop invariant over the scanned prefix; witnesses for trailing rows and stale targets |
| C07 | `COO::convert(CRS)` | loop invariant; composition with C06 |
| C08 | `Dense::convert(COO)`, `COO::convert(Dense)` | loop invariants, row-major bijection |
| C09 | constructors/`convert(CRS)` with explicit buffer sizes | bounds; overflow witness |
| C10-C12 | the three transposes | index arithmetic; counting-sort invariant for CRS |
| C13 | the `equal` functions | iff under equal `nnz`; witnesses otherwise |
| C14 | `vhash` with an explicit OpenMP partition, `BitVec` arithmetic | content independence for all arrays; witness for partition dependence |
| C15 | `matadd_core`/`matsub_core` | element-wise + distributivity of the denotation; witness |
| C16-C18 | `crs_matvec`, `crs-dense_matmul` | fold = stored-order sum without laws; = Σ over columns in a commutative semiring |
| C19 | `crs_getvec`, `dense_getvec`, `coo_getvec` | loop invariants; witnesses |
| C20, C21 | diag_op kernels | loop invariants/frame; stride arithmetic on shapes |
| C22, C23 | vector and view classes | refinement to lists; offset arithmetic |
| C24, C25 | kernels over an arbitrary permutation/partition of iterations | commutation of disjoint writes; commutative-monoid folds |
| C26, C27, C60 | generators as insert programs, random stream as a list; eigenvalue formulas over the reals | C01's refinement + arithmetic on indices; trigonometric identities |
| C28 | reader and writer on characters, number codec abstract | structural induction |
| C29-C34, C42, C53-C59 | solver loops over an abstract field/inner product, instantiated with the CRS and Dense matvec | loop invariants; Krylov argument (C34), contraction (C54), energy norm (C57) |
| C35 | logger state machine; skeletons of all logged functions | induction on call forests; kernel evaluation over the table of functions |
| C36-C39, C47, C50, C51 | tensor classes | mixed-radix arithmetic by induction on the shape, reuse of the matrix results |
| C40, C61 | LinearOperator as objects in a store with closures | frame lemmas over reachability, induction on call depth |
| C41, C62 | LinearOperator::diag as a small-step machine | invariant over all schedules, step counting for termination |
| C43-C46, C49, C52 | direct models | case analysis, loop invariants |
| C64-C66 | all element-wise overloads, core templates and kernels as tables extracted from the sources (tools/dispatch_gen.py), interpreted in Lean | soundness of a symbolic execution for all arguments and schedules + kernel evaluation over the tables |
| C67-C69 | LU, Cholesky, DC and the wrappers of src/internal/lapack over an abstract LAPACK (Model/Lapack.lean); the documented contract of the routines is Spec/LapackSpec.lean | the row-major/column-major transposition is followed through; `exists_lib`, `exists_lib_real` construct a LAPACK meeting the contract, so the hypotheses are satisfiable |
| C70-C72 | both LOBPCG solvers over any `sygvd` (Model/Lobpcg.lean), numbers with infinities and NaN | the pairs (vector, image under A) stay related when finite, through every combination, scaling and restart; a residual below the tolerance forces finiteness; the generalised solver tests A v - λ v (negation on a concrete definite pair) and both may repeat a singular iteration forever (negation for all maxiter and all numbers of passes) |
| C73-C77 | views over objects and over views on the heap model (Model/View.lean): construction, fill, assignment, begin/end, [], at, insert, resize | cells of memory as specification; loops in any order write exactly the window; negations for all offsets (view1D = view1D counts the offset twice, end() ignores it, at() of nested views adds it twice) |
| C78-C80 | constructors from arrays, copy constructors, set_ptr, operator= and comparison of COO, CRS, tensor_COO (Model/CooCopy.lean, Model/CrsAssign.lean) | exact stored entries/rows for all arrays; negations for all prefix pairs |
| C81-C82 | whole programs: example (file to CRS to CG), benchmark set-up (generator to CRS to CG or SOR) (Model/Prog.lean) | composition of C28, C06, C26, C34, C57 with a dominance lemma for positive definiteness; negation for column-ordered files |
| C83-C84 | send/recv/nonfree_recv/device_free, destructors, move and copy constructors on the OpenMP device data environment (regions with reference counts; Model/Device.lean); a computing function is any function of its arguments | simulation between the two builds over all portable programs; invariant (regions = sections of the objects whose flag is set) over all programs; negations on concrete programs |
| C85 | move with extents, view_Dense::move, reshape, unary minus (Model/Move.lean on the heap of Shared and View) | cells of memory as specification; negations for all views of two different objects |
| C86 | times/adds of a dense tensor and a vector along lines (Model/TensorScale.lean: move to a matrix, then the dense functions) | C45 transported through the row-major bijection of positions |
| C87 | the table of all product overloads, generated from the six dispatch files (tools/product_gen.py → Model/ProductSrc.lean), run by Model/Product.lean on the kernels of C16–C18, C39, C51 | rows checked against 16 signatures by `decide +kernel`, each signature proved with one statement (`Holds`, `contraction`) for all storage classes |
| C88 | the table of all reduction overloads, generated from vector_blas.cpp and the three vml files (tools/reduce_gen.py → Model/ReductionSrc.lean), run by Model/Reduction.lean on the kernels of C25/C43 | rows checked by `decide +kernel` against the expected core, template argument and precision; then C25/C43 for every reduction tree; negation for max/min of views and sparse objects |
| C89 | `my_cg` and `main` of examples/cpu_only/cg_impl/cg.cpp (Model/MyCg.lean) over an arbitrary arithmetic `Num`; printed lines and logger balance are part of the outcome | simulation of `equation::CG` by induction on the iterations (`C89_same`), then C26, C06, C34 for the program and C33 for the negation |
| C90 | the `print_all` functions (Model/Print.lean); text as a list of lines (indices, value), digit formatting not modelled | loop invariants, against `at`/`operator[]`/stored entries; tensor_CRS against its conversion to tensor_COO; negations for objects with a positive offset and for rank below 2 |
| C91 | `main` of examples/eigen/DC/DC.cpp (Model/ProgEig.lean) over the models of the generator, Dense conversion, DC and print_all; LAPACK abstract, contract in Spec/LapackSpec.lean | orthonormal eigensystem ⇒ A = VᵀDV ⇒ characteristic polynomial = ∏(X - w k); uniqueness of the sorted list with C60 for the program; negation for the dead error branch |
| C92 | `solve_test` of examples/cpu_only/templated_solver/solver.cpp, instances Dense+LU and Dense+BiCGSTAB (Model/ProgEig.lean); LAPACK abstract, contract in Spec/LapackSpec.lean | composition of the Matrix Market reader, COO→Dense (last entry counts), C67, C30 and print_all; negation for singular matrices (dead error branch) |
| C93 | BiCGSTAB as in C30, over `Ext K` (exact field with IEEE special values) | biorthogonality of the residual polynomials with the Krylov space of the transpose (Lemmas/BiCGTerm.lean) ⇒ mid residual is zero by iteration n; then the code divides 0 by 0: negation for every run without earlier stop |
| C94 | all public overloads of times_row/col, adds_row/col as a table generated from the C++ text (tools/line_gen.py → Model/LineOpSrc.lean), their meaning over the kernels of Model/{Scale,TensorScale,TensorCrs} (Model/LineOp.lean) | kernel evaluation of a row check over the whole table, then C45, C86, C51 for the kernels; completeness by kernel evaluation |
| C95 | the declarations of include/monolish/{blas,vml}/*.hpp as tables (tools/header_gen.py → Model/Header*.lean), read independently of the definitions (Model/{ProductSrc,LineOpSrc,ReductionSrc,DispatchSrc*}.lean) | kernel evaluation: each declared table equals the filtered definition table; hence an iff for every signature; the filtered set is not empty (violations) |
| C96 | all member functions diag_add/sub/mul/div as a table with the kernel each calls, and the operator in each kernel (tools/diag_gen.py → Model/DiagSrc.lean); meaning in Model/Diag.lean over the kernels of Model/{Getvec,TensorDense}.lean | kernel evaluation of a row check over the table, then C20 and C21 for the kernels |
| C48, C63 | MPI wrappers as events of a network machine; collectives as functions of all ranks | invariant over all event sequences; sums over partitions |
| C97 | the loops of CG, BiCGSTAB, Jacobi, SOR again, with the list of lines written to the history stream (Model/History.lean) | the history forgotten, the loops are those of Model/Solver.lean (equation between programs, exceptions included); induction over the iterations for the relation of lines and result; truncated runs compared step by step; violated for the last line of Jacobi |
| C98 | solver objects on a heap: fields, bound preconditioner references, `precond.M`/`precond.A`, history streams with deletion; statements new/set*/solve/copy/destroy (Model/Session.lean) | the settings in force are defined on the list of statements alone (Spec/SessionSpec.lean); an invariant relates the heap to them, by induction over programs; `solve` does not depend on the old counters, nor on the old contents of `M` (C19: `diag` overwrites); negations by running concrete programs |
| C99 | the COO/CRS code again with `int` and `size_t` conversions and overflow as undefined behaviour (Model/Machine.lean) | simulation: the unbounded model and the machine model run in step on small sizes (`SameOutcome`, Spec/MachineSpec.lean), by induction over loops; negations by running the machine model at 2^31 and 2^32 |
| C100 | the reduction model of C25 and the CRS products, over an arithmetic with rounding errors (Spec/RoundSpec.lean); IEEE binary formats (Spec/Ieee.lean) | error analysis by induction over the reduction tree: partial sums of k terms are within (1+u)^(k-1)-1; adding an empty partial result is exact; every binary format meets the standard model; negation: 2^(p+1), 1, 1, 1 summed by one and two threads |
| C101 | the log file as records, both tables of `python/monolish_log_viewer` (groupby, back-fill, merge) over exact rationals (Model/Viewer.lean) | refinement of the forest of calls of C35: grouping of a complete log is a partition by outermost call (induction over the forest), names determine paths, membership characterisation of every row; shares by induction with a monotone clock; lost calls by the same partition for an unbalanced log |
| C102 | the CG model of C29/C34 over the reals (any ordered field for optimality) | Krylov optimality from the conjugacy invariant of C34; polynomials of the preconditioned matrix by the spectral theorem in the energy scalar product; Chebyshev polynomials; composed with C29_exact for the code; SOR preconditioner: its matrix S is SPD (Props/CgSor), a bound m S ≤ A ≤ m' S bounds the preconditioned matrix, and A ≤ ω/(2ω-1) S for ω > 1/2 (Props/CgSorRate, CgSsor); Jacobi preconditioner and diagonally dominant matrices by Gershgorin's argument (Props/CgJacobiRate) |
| C103 | the solver models of C29/C30 over any arithmetic with rounding (`Rounding` of C100, with subtraction, negation, square root; the IEEE formats are instances: Lemmas/FpNum) | one lemma for a coupled update x += a p, r -= a A p with rounding errors of the matrix product; induction over the updates, finiteness runs backwards; bound of nrm2 from C100; a run in double precision as witness and one with SUCCESS and a true residual above the tolerance |
| C104 | LOBPCG model of C70; the example program examples/eigen/lobpcg (Model/ProgLobpcg: generator, conversion, solver, printing through view1D) | residual bound of C70, spectral theorem (an eigenvalue within the residual, Lemmas/EigNear), eigenvalue formula of C60; the array bounds of the views for the program; runs over the rationals with a rounded square root as witnesses |
| C105 | Model/SolverOp: a LinearOperator as solver argument (matvec through the callbacks, diag loop with threads), client program B + s C; LOBPCG with any two arguments that have equal products | induction over the iterations for any two matrix arguments with equal products; C40 (operators act as matrices), C41 (diag under all schedules), C34 (termination); the dangling case by running the callback |
| C106 | Model/LogRace: each logger call as its reads and writes of the sizes of the two vectors, threads interleaving step by step; the parallel region of LinearOperator::diag | data race = conflicting unordered accesses, exact condition by induction over balanced call forests; without a race at most one thread acts, invariant over the schedule; with a race an explicit schedule with a lost update, the rest run serially |
| C107 | Model/SolverDev: objects with host copy, device copy and status flag; every function asserts equal flags and works on that side; send/recv/nonfree_recv/device_free of the solvers and preconditioners as in the code | simulation: an invariant relates the objects to the lists of Model/Solver, one step lemma per library function; SOR kernels shown not to read the vector they overwrite; violations by general theorems or concrete runs |
| C108 | Model/MpiSolver: a process is a tree of Allreduce calls (`Proc`), `Completes` is the joint execution of all processes; the solvers rewritten over it; Spec/MpiSolverSpec: block-diagonal systems | simulation by induction over the iterations: one step lemma per library function says that the parts stay the parts of the whole; existence of the whole system; C34 on the block-diagonal matrix; deadlocks by inversion |
| C109 | Model/Construct: the constructors of vector, Dense, tensor_Dense and the conversions into tensor_Dense over lists with out-of-bounds copies as undefined behaviour; the random stream is arbitrary; Spec/ConstructSpec: `Vec.Is`, `Dense.Is`, `TDense.Is` in terms of element access | the loops by forList_write for every order; the copies by list algebra; violations: general theorem or the program that reaches the state (move from a view) |
| C110 | the Jacobi and SOR loops of Model/Solver over any arithmetic with a standard rounding model (Spec/RoundSpec, Spec/StatSpec: division and the test); instances double and single (Spec/Ieee), IEEE double with infinities (Lemmas/FpInf) for the overflow | the last iteration of a SUCCESS run is exposed by induction on the loop; backward error of one residual evaluation and of nrm2; violations by concrete runs |
| C111 | Model/TensorCrsHash: `tensor_CRS` with its `structure_hash`, uninitialised memory as a parameter; set_ptr, the constructors, conversions, `operator=`, `is_same_structure`, fill, times; Spec/TensorCrsHashSpec: `Made`, the ways that set the hash | the hash is a function of the shape and the lengths of the column arrays (loop lemmas, partial correctness of the conversions); induction over `Made`; violations for every unlucky memory content |
| C112 | Model/Mm: `input_mm` on any character sequence; Spec/MmSpec: the file format in terms of words and numerals, without reference to the reader | lemmas for a word and a numeral at the head of a line, the stream after each line as a function of what remains; one loop lemma for any sequence of delivered lines, used for complete files and for files with too few lines; negations on concrete files |
| C113 | Model/Incomplete: `create_precond`, `apply_precond`, `solve` of ILU and IC with host and device copies; cuSPARSE a parameter; Spec/IncompleteSpec: what its documentation says, zero-fill factorisations, no fill-in | the product of the factors is A where positions are stored, and zero elsewhere when nothing fills in; triangular determinants; L L' inverse is SPD, then C34 for CG; LU and Cholesky without pivoting by induction on Schur complements for positive definite matrices; an instance of the parameter exists; negations on 1x1 and 2x2 matrices for every cuSPARSE |
| C114 | Model/GenTensor: the three overloads on a stream of draws, one loop over the index values of the nested loops | the stored last indices of a line as a finite set; each draw adds at most one; then C37 for the final sort |
| C115 | Model/Lapack (`DC.generalized`), contract of `dsygvd` with its normalisation | Z' B Z = I makes Z invertible; det (x B - A) = det B * prod (x - w_k) over polynomial matrices, similarity for the other types; congruence of B with I and the spectral theorem show that the contract can be met |
| C116 | Model/DirectDev: host and device copies of dense and CRS matrices and vectors, `LU`, `Cholesky`, `DC`, `QR` with two libraries (LAPACK and cuSOLVER, parameters with their documented contracts, Spec/LapackSpec and Spec/DirectDevSpec) | the run on one side is reduced to the host model of C67-C69 with the library of that side; wrong placements are followed through for every library that meets the contract; a reference cuSOLVER shows the contract can be met |
| C117 | Model/LobpcgDev: every object of the call with host copy, device copy and flag; all transfers, placement assertions and `operator[]` checks of the two LOBPCG functions; `sygvd` of a GPU build | simulation: step by step (initial products, projection, sygvd, loop over the vectors, passes, restarts) the visible copies agree with the state of Model/Lobpcg; the violating placements are followed to the failing assertion |
| C118 | Model/MpiLobpcg: both LOBPCG functions as communicating processes (Allreduce in dot and nrm2; projection, LAPACK and restarts local) | one process: the process that gets back what it contributes is the sequential program; several: lock step (all arrive at each reduction with states of the right sizes) by induction over vectors, passes, iterations; two runs on 2 and 4 processes, evaluated by the kernel, for the violations |
| C119 | Model/Lobpcg; `dsygvd` by its documentation on finite arrays (Spec/DsygvdSpec); Ritz pairs and min-max bound in Spec/RitzSpec; `loud` = the library with the ignored errors made visible | a finite combination comes from finite rows, so the projected matrices are U M U', U Q U'; Z'BZ = 1 and AZ = BZ diag w give Q-orthonormal rows of Z'U; dimension count for the min-max bound; transitivity over iterations by induction on the loop; a run evaluated by the kernel for the violation |
| C120 | Model/Lobpcg with one vector; `dsygvd` by its documentation, including when it must succeed (`DsygvdCompletes`); a library meeting both over ℝ is constructed (Lemmas/DsygvdExists) so the hypotheses are consistent | the space searched holds the vector and its residual, so the quotient falls by at least r²/(2D) each pass; at most one restart between two passes; hence the residual test succeeds within the bound; several vectors: the sum of the Ritz values is the least trace on the space (Ky Fan), so it falls by r²/(2D) for the largest residual r; with a preconditioner T the direction Tr has a component of at least c‖Tr‖ along r, and its part orthogonal to the vectors is used; SOR on a symmetric matrix with a positive diagonal is such a T (Props/LobpcgSor). The violation: 0/0 = NaN in the start phase spoils every later combination, by induction on the loop |
| C121 | Model/DataSize over the six formats; Spec/DataSizeSpec (arrays, bytes); exact quotient by 1e9, products in Nat | arithmetic from the well-formedness of each format; exact characterisation and witnesses where the formula is wrong |

A property that the code violates is kept in its natural form in `properties.jsonl`; its
negation is proved (`..._violated`, for all inputs of a kind or for a concrete witness)
together with the part that holds (`..._partial` or a theorem with the exact
precondition). Such properties have status "partial" in `MANIFEST.json`.

## 4. Trusted base

* Lean 4.33.0 kernel; axioms at most `propext`, `Classical.choice`, `Quot.sound`
  (listed per theorem in `AXIOMS.md`, generated with `#print axioms`; no axioms of our
  own, no compiled evaluation).
* The reading of the C++ source recorded in the citation of each definition, and the
  extraction scripts in `tools/` for the generated modules.
* The conventions of section 2, in particular the reference semantics of BLAS and MPI.

## 5. Not modelled

CUDA/MKL/SX-Aurora paths, ILU/IC kernels (GPU only: the CPU path throws),
printing except MatrixMarket and C90, the HTML of the Python log viewer
(its tables are modelled, C101), timing, floating point rounding except in
C100 (other theorems that need algebraic laws are about exact arithmetic).

Modelled code by file is cited in the definitions; `grep -rho 'src/[^ :),]*' lean/Verif/Model | sort -u`
lists it.
