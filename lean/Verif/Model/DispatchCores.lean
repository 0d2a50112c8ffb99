import Verif.Model.Dispatch

/-!
Generated by tools/dispatch_gen.py from /repo: the kernels `internal::v*` and the core templates of the
element-wise functions. Do not edit. Calls of the logger and `is_same_device_mem_stat` checks are left out
(host objects only); a local constant (`gamma = beta - alpha` in `valo`) is inlined.
-/

namespace Verif.Dispatch

/-- the kernels: double and float, with the lines of their definition -/
def kernels : List Kern := [
  -- src/internal/arithmetic/double_arithmetic.cpp:9-31
  ⟨.vadd, .d, [true, false, true], .loop 2 (.bin .add (.el 0) (.sc 1)), .loop 2 (.bin .add (.el 0) (.sc 1)), .loop 2 (.bin .add (.el 0) (.sc 1))⟩,
  -- src/internal/arithmetic/double_arithmetic.cpp:34-56
  ⟨.vsub, .d, [true, false, true], .loop 2 (.bin .sub (.el 0) (.sc 1)), .loop 2 (.bin .sub (.el 0) (.sc 1)), .loop 2 (.bin .sub (.el 0) (.sc 1))⟩,
  -- src/internal/arithmetic/double_arithmetic.cpp:59-81
  ⟨.vmul, .d, [true, false, true], .loop 2 (.bin .mul (.el 0) (.sc 1)), .loop 2 (.bin .mul (.el 0) (.sc 1)), .loop 2 (.bin .mul (.el 0) (.sc 1))⟩,
  -- src/internal/arithmetic/double_arithmetic.cpp:84-106
  ⟨.vdiv, .d, [true, false, true], .loop 2 (.bin .div (.el 0) (.sc 1)), .loop 2 (.bin .div (.el 0) (.sc 1)), .loop 2 (.bin .div (.el 0) (.sc 1))⟩,
  -- src/internal/arithmetic/double_arithmetic.cpp:112-138
  ⟨.vadd, .d, [true, true, true], .loop 2 (.bin .add (.el 0) (.el 1)), .lib .add [0, 1, 2], .loop 2 (.bin .add (.el 0) (.el 1))⟩,
  -- src/internal/arithmetic/double_arithmetic.cpp:141-167
  ⟨.vsub, .d, [true, true, true], .loop 2 (.bin .sub (.el 0) (.el 1)), .lib .sub [0, 1, 2], .loop 2 (.bin .sub (.el 0) (.el 1))⟩,
  -- src/internal/arithmetic/double_arithmetic.cpp:170-196
  ⟨.vmul, .d, [true, true, true], .loop 2 (.bin .mul (.el 0) (.el 1)), .lib .mul [0, 1, 2], .loop 2 (.bin .mul (.el 0) (.el 1))⟩,
  -- src/internal/arithmetic/double_arithmetic.cpp:199-225
  ⟨.vdiv, .d, [true, true, true], .loop 2 (.bin .div (.el 0) (.el 1)), .lib .div [0, 1, 2], .loop 2 (.bin .div (.el 0) (.el 1))⟩,
  -- src/internal/arithmetic/double_arithmetic.cpp:232-251
  ⟨.vcopy, .d, [true, true], .lib .copy [0, 1], .lib .copy [0, 1], .lib .copy [0, 1]⟩,
  -- src/internal/arithmetic/double_arithmetic.cpp:308-329
  ⟨.vreciprocal, .d, [true, true], .loop 1 (.bin .div (.lit 1) (.el 0)), .loop 1 (.bin .div (.lit 1) (.el 0)), .loop 1 (.bin .div (.lit 1) (.el 0))⟩,
  -- src/internal/arithmetic/float_arithmetic.cpp:9-31
  ⟨.vadd, .s, [true, false, true], .loop 2 (.bin .add (.el 0) (.sc 1)), .loop 2 (.bin .add (.el 0) (.sc 1)), .loop 2 (.bin .add (.el 0) (.sc 1))⟩,
  -- src/internal/arithmetic/float_arithmetic.cpp:34-56
  ⟨.vsub, .s, [true, false, true], .loop 2 (.bin .sub (.el 0) (.sc 1)), .loop 2 (.bin .sub (.el 0) (.sc 1)), .loop 2 (.bin .sub (.el 0) (.sc 1))⟩,
  -- src/internal/arithmetic/float_arithmetic.cpp:59-81
  ⟨.vmul, .s, [true, false, true], .loop 2 (.bin .mul (.el 0) (.sc 1)), .loop 2 (.bin .mul (.el 0) (.sc 1)), .loop 2 (.bin .mul (.el 0) (.sc 1))⟩,
  -- src/internal/arithmetic/float_arithmetic.cpp:84-106
  ⟨.vdiv, .s, [true, false, true], .loop 2 (.bin .div (.el 0) (.sc 1)), .loop 2 (.bin .div (.el 0) (.sc 1)), .loop 2 (.bin .div (.el 0) (.sc 1))⟩,
  -- src/internal/arithmetic/float_arithmetic.cpp:112-138
  ⟨.vadd, .s, [true, true, true], .loop 2 (.bin .add (.el 0) (.el 1)), .lib .add [0, 1, 2], .loop 2 (.bin .add (.el 0) (.el 1))⟩,
  -- src/internal/arithmetic/float_arithmetic.cpp:141-167
  ⟨.vsub, .s, [true, true, true], .loop 2 (.bin .sub (.el 0) (.el 1)), .lib .sub [0, 1, 2], .loop 2 (.bin .sub (.el 0) (.el 1))⟩,
  -- src/internal/arithmetic/float_arithmetic.cpp:170-196
  ⟨.vmul, .s, [true, true, true], .loop 2 (.bin .mul (.el 0) (.el 1)), .lib .mul [0, 1, 2], .loop 2 (.bin .mul (.el 0) (.el 1))⟩,
  -- src/internal/arithmetic/float_arithmetic.cpp:199-225
  ⟨.vdiv, .s, [true, true, true], .loop 2 (.bin .div (.el 0) (.el 1)), .lib .div [0, 1, 2], .loop 2 (.bin .div (.el 0) (.el 1))⟩,
  -- src/internal/arithmetic/float_arithmetic.cpp:232-251
  ⟨.vcopy, .s, [true, true], .lib .copy [0, 1], .lib .copy [0, 1], .lib .copy [0, 1]⟩,
  -- src/internal/arithmetic/float_arithmetic.cpp:308-329
  ⟨.vreciprocal, .s, [true, true], .loop 1 (.bin .div (.lit 1) (.el 0)), .loop 1 (.bin .div (.lit 1) (.el 0)), .loop 1 (.bin .div (.lit 1) (.el 0))⟩,
  -- src/internal/math/double_math.cpp:10-35
  ⟨.vsqrt, .d, [true, true], .loop 1 (.un .sqrt (.el 0)), .lib (.math .sqrt) [0, 1], .loop 1 (.un .sqrt (.el 0))⟩,
  -- src/internal/math/double_math.cpp:40-66
  ⟨.vpow, .d, [true, true, true], .loop 2 (.bin .pow (.el 0) (.el 1)), .lib .pow [0, 1, 2], .loop 2 (.bin .pow (.el 0) (.el 1))⟩,
  -- src/internal/math/double_math.cpp:68-94
  ⟨.vpow, .d, [true, false, true], .loop 2 (.bin .pow (.el 0) (.sc 1)), .lib .powx [0, 1, 2], .loop 2 (.bin .pow (.el 0) (.sc 1))⟩,
  -- src/internal/math/double_math.cpp:99-124
  ⟨.vsin, .d, [true, true], .loop 1 (.un .sin (.el 0)), .lib (.math .sin) [0, 1], .loop 1 (.un .sin (.el 0))⟩,
  -- src/internal/math/double_math.cpp:126-151
  ⟨.vsinh, .d, [true, true], .loop 1 (.un .sinh (.el 0)), .lib (.math .sinh) [0, 1], .loop 1 (.un .sinh (.el 0))⟩,
  -- src/internal/math/double_math.cpp:153-178
  ⟨.vasin, .d, [true, true], .loop 1 (.un .asin (.el 0)), .lib (.math .asin) [0, 1], .loop 1 (.un .asin (.el 0))⟩,
  -- src/internal/math/double_math.cpp:179-204
  ⟨.vasinh, .d, [true, true], .loop 1 (.un .asinh (.el 0)), .lib (.math .asinh) [0, 1], .loop 1 (.un .asinh (.el 0))⟩,
  -- src/internal/math/double_math.cpp:209-234
  ⟨.vtan, .d, [true, true], .loop 1 (.un .tan (.el 0)), .lib (.math .tan) [0, 1], .loop 1 (.un .tan (.el 0))⟩,
  -- src/internal/math/double_math.cpp:236-261
  ⟨.vtanh, .d, [true, true], .loop 1 (.un .tanh (.el 0)), .lib (.math .tanh) [0, 1], .loop 1 (.un .tanh (.el 0))⟩,
  -- src/internal/math/double_math.cpp:263-288
  ⟨.vatan, .d, [true, true], .loop 1 (.un .atan (.el 0)), .lib (.math .atan) [0, 1], .loop 1 (.un .atan (.el 0))⟩,
  -- src/internal/math/double_math.cpp:289-314
  ⟨.vatanh, .d, [true, true], .loop 1 (.un .atanh (.el 0)), .lib (.math .atanh) [0, 1], .loop 1 (.un .atanh (.el 0))⟩,
  -- src/internal/math/double_math.cpp:319-344
  ⟨.vceil, .d, [true, true], .loop 1 (.un .ceil (.el 0)), .lib (.math .ceil) [0, 1], .loop 1 (.un .ceil (.el 0))⟩,
  -- src/internal/math/double_math.cpp:346-371
  ⟨.vfloor, .d, [true, true], .loop 1 (.un .floor (.el 0)), .lib (.math .floor) [0, 1], .loop 1 (.un .floor (.el 0))⟩,
  -- src/internal/math/double_math.cpp:376-397
  ⟨.vsign, .d, [true, true], .loop 1 (.bin .mul (.lit (-1)) (.el 0)), .loop 1 (.bin .mul (.lit (-1)) (.el 0)), .loop 1 (.bin .mul (.lit (-1)) (.el 0))⟩,
  -- src/internal/math/double_math.cpp:402-427
  ⟨.vexp, .d, [true, true], .loop 1 (.un .exp (.el 0)), .lib (.math .exp) [0, 1], .loop 1 (.un .exp (.el 0))⟩,
  -- src/internal/math/double_math.cpp:462-484
  ⟨.vmax, .d, [true, true, true], .loop 2 (.bin .max (.el 0) (.el 1)), .loop 2 (.bin .max (.el 0) (.el 1)), .loop 2 (.bin .max (.el 0) (.el 1))⟩,
  -- src/internal/math/double_math.cpp:486-508
  ⟨.vmax, .d, [true, false, true], .loop 2 (.bin .max (.el 0) (.sc 1)), .loop 2 (.bin .max (.el 0) (.sc 1)), .loop 2 (.bin .max (.el 0) (.sc 1))⟩,
  -- src/internal/math/double_math.cpp:543-565
  ⟨.vmin, .d, [true, true, true], .loop 2 (.bin .min (.el 0) (.el 1)), .loop 2 (.bin .min (.el 0) (.el 1)), .loop 2 (.bin .min (.el 0) (.el 1))⟩,
  -- src/internal/math/double_math.cpp:567-589
  ⟨.vmin, .d, [true, false, true], .loop 2 (.bin .min (.el 0) (.sc 1)), .loop 2 (.bin .min (.el 0) (.sc 1)), .loop 2 (.bin .min (.el 0) (.sc 1))⟩,
  -- src/internal/math/double_math.cpp:594-618
  ⟨.valo, .d, [true, false, false, true], .loop 3 (.bin .add (.bin .mul (.sc 1) (.el 0)) (.bin .mul (.bin .sub (.sc 2) (.sc 1)) (.bin .min (.el 0) (.lit 0)))), .loop 3 (.bin .add (.bin .mul (.sc 1) (.el 0)) (.bin .mul (.bin .sub (.sc 2) (.sc 1)) (.bin .min (.el 0) (.lit 0)))), .loop 3 (.bin .add (.bin .mul (.sc 1) (.el 0)) (.bin .mul (.bin .sub (.sc 2) (.sc 1)) (.bin .min (.el 0) (.lit 0))))⟩,
  -- src/internal/math/float_math.cpp:10-35
  ⟨.vsqrt, .s, [true, true], .loop 1 (.un .sqrt (.el 0)), .lib (.math .sqrt) [0, 1], .loop 1 (.un .sqrt (.el 0))⟩,
  -- src/internal/math/float_math.cpp:40-66
  ⟨.vpow, .s, [true, true, true], .loop 2 (.bin .pow (.el 0) (.el 1)), .lib .pow [0, 1, 2], .loop 2 (.bin .pow (.el 0) (.el 1))⟩,
  -- src/internal/math/float_math.cpp:68-94
  ⟨.vpow, .s, [true, false, true], .loop 2 (.bin .pow (.el 0) (.sc 1)), .lib .powx [0, 1, 2], .loop 2 (.bin .pow (.el 0) (.sc 1))⟩,
  -- src/internal/math/float_math.cpp:99-124
  ⟨.vsin, .s, [true, true], .loop 1 (.un .sin (.el 0)), .lib (.math .sin) [0, 1], .loop 1 (.un .sin (.el 0))⟩,
  -- src/internal/math/float_math.cpp:126-151
  ⟨.vsinh, .s, [true, true], .loop 1 (.un .sinh (.el 0)), .lib (.math .sinh) [0, 1], .loop 1 (.un .sinh (.el 0))⟩,
  -- src/internal/math/float_math.cpp:153-178
  ⟨.vasin, .s, [true, true], .loop 1 (.un .asin (.el 0)), .lib (.math .asin) [0, 1], .loop 1 (.un .asin (.el 0))⟩,
  -- src/internal/math/float_math.cpp:179-204
  ⟨.vasinh, .s, [true, true], .loop 1 (.un .asinh (.el 0)), .lib (.math .asinh) [0, 1], .loop 1 (.un .asinh (.el 0))⟩,
  -- src/internal/math/float_math.cpp:209-234
  ⟨.vtan, .s, [true, true], .loop 1 (.un .tan (.el 0)), .lib (.math .tan) [0, 1], .loop 1 (.un .tan (.el 0))⟩,
  -- src/internal/math/float_math.cpp:236-261
  ⟨.vtanh, .s, [true, true], .loop 1 (.un .tanh (.el 0)), .lib (.math .tanh) [0, 1], .loop 1 (.un .tanh (.el 0))⟩,
  -- src/internal/math/float_math.cpp:263-288
  ⟨.vatan, .s, [true, true], .loop 1 (.un .atan (.el 0)), .lib (.math .atan) [0, 1], .loop 1 (.un .atan (.el 0))⟩,
  -- src/internal/math/float_math.cpp:289-314
  ⟨.vatanh, .s, [true, true], .loop 1 (.un .atanh (.el 0)), .lib (.math .atanh) [0, 1], .loop 1 (.un .atanh (.el 0))⟩,
  -- src/internal/math/float_math.cpp:319-344
  ⟨.vceil, .s, [true, true], .loop 1 (.un .ceil (.el 0)), .lib (.math .ceil) [0, 1], .loop 1 (.un .ceil (.el 0))⟩,
  -- src/internal/math/float_math.cpp:346-371
  ⟨.vfloor, .s, [true, true], .loop 1 (.un .floor (.el 0)), .lib (.math .floor) [0, 1], .loop 1 (.un .floor (.el 0))⟩,
  -- src/internal/math/float_math.cpp:376-397
  ⟨.vsign, .s, [true, true], .loop 1 (.bin .mul (.lit (-1)) (.el 0)), .loop 1 (.bin .mul (.lit (-1)) (.el 0)), .loop 1 (.bin .mul (.lit (-1)) (.el 0))⟩,
  -- src/internal/math/float_math.cpp:402-427
  ⟨.vexp, .s, [true, true], .loop 1 (.un .exp (.el 0)), .lib (.math .exp) [0, 1], .loop 1 (.un .exp (.el 0))⟩,
  -- src/internal/math/float_math.cpp:462-484
  ⟨.vmax, .s, [true, true, true], .loop 2 (.bin .max (.el 0) (.el 1)), .loop 2 (.bin .max (.el 0) (.el 1)), .loop 2 (.bin .max (.el 0) (.el 1))⟩,
  -- src/internal/math/float_math.cpp:486-508
  ⟨.vmax, .s, [true, false, true], .loop 2 (.bin .max (.el 0) (.sc 1)), .loop 2 (.bin .max (.el 0) (.sc 1)), .loop 2 (.bin .max (.el 0) (.sc 1))⟩,
  -- src/internal/math/float_math.cpp:543-565
  ⟨.vmin, .s, [true, true, true], .loop 2 (.bin .min (.el 0) (.el 1)), .loop 2 (.bin .min (.el 0) (.el 1)), .loop 2 (.bin .min (.el 0) (.el 1))⟩,
  -- src/internal/math/float_math.cpp:567-589
  ⟨.vmin, .s, [true, false, true], .loop 2 (.bin .min (.el 0) (.sc 1)), .loop 2 (.bin .min (.el 0) (.sc 1)), .loop 2 (.bin .min (.el 0) (.sc 1))⟩,
  -- src/internal/math/float_math.cpp:594-618
  ⟨.valo, .s, [true, false, false, true], .loop 3 (.bin .add (.bin .mul (.sc 1) (.el 0)) (.bin .mul (.bin .sub (.sc 2) (.sc 1)) (.bin .min (.el 0) (.lit 0)))), .loop 3 (.bin .add (.bin .mul (.sc 1) (.el 0)) (.bin .mul (.bin .sub (.sc 2) (.sc 1)) (.bin .min (.el 0) (.lit 0)))), .loop 3 (.bin .add (.bin .mul (.sc 1) (.el 0)) (.bin .mul (.bin .sub (.sc 2) (.sc 1)) (.bin .min (.el 0) (.lit 0))))⟩]

/-- the core templates of the element-wise functions -/
inductive Core
  | vmlvec_svadd
  | vmlvec_vvadd
  | vmlvec_svdiv
  | vmlvec_vvdiv
  | vmlvec_svmul
  | vmlvec_vvmul
  | vmlvec_svsub
  | vmlvec_vvsub
  | vmlvec_vvmax
  | vmlvec_svmax
  | vmlvec_vvmin
  | vmlvec_svmin
  | vmlvec_vvpow
  | vmlvec_svpow
  | vmlvec_vecalo
  | vmlvec_vasin
  | vmlvec_vasinh
  | vmlvec_vatan
  | vmlvec_vatanh
  | vmlvec_vceil
  | vmlvec_vexp
  | vmlvec_vfloor
  | vmlvec_vreciprocal
  | vmlvec_vsign
  | vmlvec_vsin
  | vmlvec_vsinh
  | vmlvec_vsqrt
  | vmlvec_vtan
  | vmlvec_vtanh
  | vmlmat_smadd
  | vmlmat_mmadd
  | vmlmat_smdiv
  | vmlmat_mmdiv
  | vmlmat_smmul
  | vmlmat_mmmul
  | vmlmat_smsub
  | vmlmat_mmsub
  | vmlmat_mmmax
  | vmlmat_smmax
  | vmlmat_mmmin
  | vmlmat_smmin
  | vmlmat_mmpow
  | vmlmat_smpow
  | vmlmat_malo
  | vmlmat_masin
  | vmlmat_masinh
  | vmlmat_matan
  | vmlmat_matanh
  | vmlmat_mceil
  | vmlmat_mexp
  | vmlmat_mfloor
  | vmlmat_mreciprocal
  | vmlmat_msign
  | vmlmat_msin
  | vmlmat_msinh
  | vmlmat_msqrt
  | vmlmat_mtan
  | vmlmat_mtanh
  | vmlten_stadd
  | vmlten_ttadd
  | vmlten_stdiv
  | vmlten_ttdiv
  | vmlten_stmul
  | vmlten_ttmul
  | vmlten_stsub
  | vmlten_ttsub
  | vmlten_ttmax
  | vmlten_stmax
  | vmlten_ttmin
  | vmlten_stmin
  | vmlten_ttpow
  | vmlten_stpow
  | vmlten_talo
  | vmlten_tasin
  | vmlten_tasinh
  | vmlten_tatan
  | vmlten_tatanh
  | vmlten_tceil
  | vmlten_texp
  | vmlten_tfloor
  | vmlten_treciprocal
  | vmlten_tsign
  | vmlten_tsin
  | vmlten_tsinh
  | vmlten_tsqrt
  | vmlten_ttan
  | vmlten_ttanh
  | vec_vecadd
  | vec_vecsub
  | vec_times_scalar
  | vec_times_vector
  | vec_copy
  | vec_Daxpy
  | vec_Saxpy
  | vec_Daxpyz
  | vec_Saxpyz
  | vec_Dxpay
  | vec_Sxpay
  | vec_Dscal
  | vec_Sscal
  | mat_matadd
  | mat_matsub
  | mat_times
  | mat_adds
  | mat_mscal
  | mat_copy
  | ten_tensadd
  | ten_tenssub
  | ten_times
  | ten_adds
  | ten_tscal
  | ten_copy
  deriving DecidableEq, Repr

/-- src/vml/vector/arithmetic/vecadd.hpp:6-19 -/
def vmlvec_svadd_def : CoreDef :=
  ⟨[true, false, true], [.sameSize [0, 2]], 2, [.beg 0, .val 1, .beg 2], .call .vadd⟩

/-- src/vml/vector/arithmetic/vecadd.hpp:21-34 -/
def vmlvec_vvadd_def : CoreDef :=
  ⟨[true, true, true], [.sameSize [0, 1, 2]], 2, [.beg 0, .beg 1, .beg 2], .call .vadd⟩

/-- src/vml/vector/arithmetic/vecdiv.hpp:6-19 -/
def vmlvec_svdiv_def : CoreDef :=
  ⟨[true, false, true], [.sameSize [0, 2]], 2, [.beg 0, .val 1, .beg 2], .call .vdiv⟩

/-- src/vml/vector/arithmetic/vecdiv.hpp:21-34 -/
def vmlvec_vvdiv_def : CoreDef :=
  ⟨[true, true, true], [.sameSize [0, 1, 2]], 2, [.beg 0, .beg 1, .beg 2], .call .vdiv⟩

/-- src/vml/vector/arithmetic/vecmul.hpp:6-19 -/
def vmlvec_svmul_def : CoreDef :=
  ⟨[true, false, true], [.sameSize [0, 2]], 2, [.beg 0, .val 1, .beg 2], .call .vmul⟩

/-- src/vml/vector/arithmetic/vecmul.hpp:21-34 -/
def vmlvec_vvmul_def : CoreDef :=
  ⟨[true, true, true], [.sameSize [0, 1, 2]], 2, [.beg 0, .beg 1, .beg 2], .call .vmul⟩

/-- src/vml/vector/arithmetic/vecsub.hpp:6-19 -/
def vmlvec_svsub_def : CoreDef :=
  ⟨[true, false, true], [.sameSize [0, 2]], 2, [.beg 0, .val 1, .beg 2], .call .vsub⟩

/-- src/vml/vector/arithmetic/vecsub.hpp:21-34 -/
def vmlvec_vvsub_def : CoreDef :=
  ⟨[true, true, true], [.sameSize [0, 1, 2]], 2, [.beg 0, .beg 1, .beg 2], .call .vsub⟩

/-- src/vml/vector/math_1_3op/vecmax.hpp:5-18 -/
def vmlvec_vvmax_def : CoreDef :=
  ⟨[true, true, true], [.sameSize [0, 1, 2]], 2, [.beg 0, .beg 1, .beg 2], .call .vmax⟩

/-- src/vml/vector/math_1_3op/vecmax.hpp:20-33 -/
def vmlvec_svmax_def : CoreDef :=
  ⟨[true, false, true], [.sameSize [0, 2]], 2, [.beg 0, .val 1, .beg 2], .call .vmax⟩

/-- src/vml/vector/math_1_3op/vecmin.hpp:5-18 -/
def vmlvec_vvmin_def : CoreDef :=
  ⟨[true, true, true], [.sameSize [0, 1, 2]], 2, [.beg 0, .beg 1, .beg 2], .call .vmin⟩

/-- src/vml/vector/math_1_3op/vecmin.hpp:20-33 -/
def vmlvec_svmin_def : CoreDef :=
  ⟨[true, false, true], [.sameSize [0, 2]], 2, [.beg 0, .val 1, .beg 2], .call .vmin⟩

/-- src/vml/vector/math_1_3op/vecpow.hpp:5-18 -/
def vmlvec_vvpow_def : CoreDef :=
  ⟨[true, true, true], [.sameSize [0, 1, 2]], 2, [.beg 0, .beg 1, .beg 2], .call .vpow⟩

/-- src/vml/vector/math_1_3op/vecpow.hpp:20-33 -/
def vmlvec_svpow_def : CoreDef :=
  ⟨[true, false, true], [.sameSize [0, 2]], 2, [.beg 0, .val 1, .beg 2], .call .vpow⟩

/-- src/vml/vector/math_2op/vecalo.hpp:5-18 -/
def vmlvec_vecalo_def : CoreDef :=
  ⟨[true, false, false, true], [.sameSize [0, 3]], 0, [.beg 0, .val 1, .val 2, .beg 3], .call .valo⟩

/-- src/vml/vector/math_2op/vecasin.hpp:5-16 -/
def vmlvec_vasin_def : CoreDef :=
  ⟨[true, true], [.sameSize [0, 1]], 1, [.beg 0, .beg 1], .call .vasin⟩

/-- src/vml/vector/math_2op/vecasinh.hpp:5-16 -/
def vmlvec_vasinh_def : CoreDef :=
  ⟨[true, true], [.sameSize [0, 1]], 1, [.beg 0, .beg 1], .call .vasinh⟩

/-- src/vml/vector/math_2op/vecatan.hpp:5-16 -/
def vmlvec_vatan_def : CoreDef :=
  ⟨[true, true], [.sameSize [0, 1]], 1, [.beg 0, .beg 1], .call .vatan⟩

/-- src/vml/vector/math_2op/vecatanh.hpp:5-16 -/
def vmlvec_vatanh_def : CoreDef :=
  ⟨[true, true], [.sameSize [0, 1]], 1, [.beg 0, .beg 1], .call .vatanh⟩

/-- src/vml/vector/math_2op/vecceil.hpp:5-16 -/
def vmlvec_vceil_def : CoreDef :=
  ⟨[true, true], [.sameSize [0, 1]], 1, [.beg 0, .beg 1], .call .vceil⟩

/-- src/vml/vector/math_2op/vecexp.hpp:5-16 -/
def vmlvec_vexp_def : CoreDef :=
  ⟨[true, true], [.sameSize [0, 1]], 1, [.beg 0, .beg 1], .call .vexp⟩

/-- src/vml/vector/math_2op/vecfloor.hpp:5-16 -/
def vmlvec_vfloor_def : CoreDef :=
  ⟨[true, true], [.sameSize [0, 1]], 1, [.beg 0, .beg 1], .call .vfloor⟩

/-- src/vml/vector/math_2op/vecreciprocal.hpp:5-17 -/
def vmlvec_vreciprocal_def : CoreDef :=
  ⟨[true, true], [.sameSize [0, 1]], 1, [.beg 0, .beg 1], .call .vreciprocal⟩

/-- src/vml/vector/math_2op/vecsign.hpp:5-16 -/
def vmlvec_vsign_def : CoreDef :=
  ⟨[true, true], [.sameSize [0, 1]], 1, [.beg 0, .beg 1], .call .vsign⟩

/-- src/vml/vector/math_2op/vecsin.hpp:5-16 -/
def vmlvec_vsin_def : CoreDef :=
  ⟨[true, true], [.sameSize [0, 1]], 1, [.beg 0, .beg 1], .call .vsin⟩

/-- src/vml/vector/math_2op/vecsinh.hpp:5-16 -/
def vmlvec_vsinh_def : CoreDef :=
  ⟨[true, true], [.sameSize [0, 1]], 1, [.beg 0, .beg 1], .call .vsinh⟩

/-- src/vml/vector/math_2op/vecsqrt.hpp:5-16 -/
def vmlvec_vsqrt_def : CoreDef :=
  ⟨[true, true], [.sameSize [0, 1]], 1, [.beg 0, .beg 1], .call .vsqrt⟩

/-- src/vml/vector/math_2op/vectan.hpp:5-16 -/
def vmlvec_vtan_def : CoreDef :=
  ⟨[true, true], [.sameSize [0, 1]], 1, [.beg 0, .beg 1], .call .vtan⟩

/-- src/vml/vector/math_2op/vectanh.hpp:5-16 -/
def vmlvec_vtanh_def : CoreDef :=
  ⟨[true, true], [.sameSize [0, 1]], 1, [.beg 0, .beg 1], .call .vtanh⟩

/-- src/vml/matrix/arithmetic/matadd.hpp:6-19 -/
def vmlmat_smadd_def : CoreDef :=
  ⟨[true, false, true], [.sameSize [0, 2]], 0, [.beg 0, .val 1, .beg 2], .call .vadd⟩

/-- src/vml/matrix/arithmetic/matadd.hpp:21-35 -/
def vmlmat_mmadd_def : CoreDef :=
  ⟨[true, true, true], [.sameSize [0, 1, 2], .sameStructure [0, 1, 2]], 0, [.beg 0, .beg 1, .beg 2], .call .vadd⟩

/-- src/vml/matrix/arithmetic/matdiv.hpp:6-19 -/
def vmlmat_smdiv_def : CoreDef :=
  ⟨[true, false, true], [.sameSize [0, 2]], 0, [.beg 0, .val 1, .beg 2], .call .vdiv⟩

/-- src/vml/matrix/arithmetic/matdiv.hpp:21-35 -/
def vmlmat_mmdiv_def : CoreDef :=
  ⟨[true, true, true], [.sameSize [0, 1, 2], .sameStructure [0, 1, 2]], 0, [.beg 0, .beg 1, .beg 2], .call .vdiv⟩

/-- src/vml/matrix/arithmetic/matmul.hpp:6-19 -/
def vmlmat_smmul_def : CoreDef :=
  ⟨[true, false, true], [.sameSize [0, 2]], 0, [.beg 0, .val 1, .beg 2], .call .vmul⟩

/-- src/vml/matrix/arithmetic/matmul.hpp:21-35 -/
def vmlmat_mmmul_def : CoreDef :=
  ⟨[true, true, true], [.sameSize [0, 1, 2], .sameStructure [0, 1, 2]], 0, [.beg 0, .beg 1, .beg 2], .call .vmul⟩

/-- src/vml/matrix/arithmetic/matsub.hpp:6-19 -/
def vmlmat_smsub_def : CoreDef :=
  ⟨[true, false, true], [.sameSize [0, 2]], 0, [.beg 0, .val 1, .beg 2], .call .vsub⟩

/-- src/vml/matrix/arithmetic/matsub.hpp:21-35 -/
def vmlmat_mmsub_def : CoreDef :=
  ⟨[true, true, true], [.sameSize [0, 1, 2], .sameStructure [0, 1, 2]], 0, [.beg 0, .beg 1, .beg 2], .call .vsub⟩

/-- src/vml/matrix/math_1_3op/matmax.hpp:5-19 -/
def vmlmat_mmmax_def : CoreDef :=
  ⟨[true, true, true], [.sameSize [0, 1, 2], .sameStructure [0, 1, 2]], 2, [.beg 0, .beg 1, .beg 2], .call .vmax⟩

/-- src/vml/matrix/math_1_3op/matmax.hpp:21-35 -/
def vmlmat_smmax_def : CoreDef :=
  ⟨[true, false, true], [.sameSize [0, 2], .sameStructure [0, 2]], 2, [.beg 0, .val 1, .beg 2], .call .vmax⟩

/-- src/vml/matrix/math_1_3op/matmin.hpp:5-19 -/
def vmlmat_mmmin_def : CoreDef :=
  ⟨[true, true, true], [.sameSize [0, 1, 2], .sameStructure [0, 1, 2]], 2, [.beg 0, .beg 1, .beg 2], .call .vmin⟩

/-- src/vml/matrix/math_1_3op/matmin.hpp:21-35 -/
def vmlmat_smmin_def : CoreDef :=
  ⟨[true, false, true], [.sameSize [0, 2], .sameStructure [0, 2]], 2, [.beg 0, .val 1, .beg 2], .call .vmin⟩

/-- src/vml/matrix/math_1_3op/matpow.hpp:5-19 -/
def vmlmat_mmpow_def : CoreDef :=
  ⟨[true, true, true], [.sameSize [0, 1, 2], .sameStructure [0, 1, 2]], 0, [.beg 0, .beg 1, .beg 2], .call .vpow⟩

/-- src/vml/matrix/math_1_3op/matpow.hpp:21-35 -/
def vmlmat_smpow_def : CoreDef :=
  ⟨[true, false, true], [.sameSize [0, 2], .sameStructure [0, 2]], 0, [.beg 0, .val 1, .beg 2], .call .vpow⟩

/-- src/vml/matrix/math_2op/matalo.hpp:5-19 -/
def vmlmat_malo_def : CoreDef :=
  ⟨[true, false, false, true], [.sameSize [0, 3], .sameStructure [0, 3]], 0, [.beg 0, .val 1, .val 2, .beg 3], .call .valo⟩

/-- src/vml/matrix/math_2op/matasin.hpp:5-17 -/
def vmlmat_masin_def : CoreDef :=
  ⟨[true, true], [.sameSize [0, 1], .sameStructure [0, 1]], 0, [.beg 0, .beg 1], .call .vasin⟩

/-- src/vml/matrix/math_2op/matasinh.hpp:5-17 -/
def vmlmat_masinh_def : CoreDef :=
  ⟨[true, true], [.sameSize [0, 1], .sameStructure [0, 1]], 0, [.beg 0, .beg 1], .call .vasinh⟩

/-- src/vml/matrix/math_2op/matatan.hpp:5-17 -/
def vmlmat_matan_def : CoreDef :=
  ⟨[true, true], [.sameSize [0, 1], .sameStructure [0, 1]], 0, [.beg 0, .beg 1], .call .vatan⟩

/-- src/vml/matrix/math_2op/matatanh.hpp:5-17 -/
def vmlmat_matanh_def : CoreDef :=
  ⟨[true, true], [.sameSize [0, 1], .sameStructure [0, 1]], 0, [.beg 0, .beg 1], .call .vatanh⟩

/-- src/vml/matrix/math_2op/matceil.hpp:5-17 -/
def vmlmat_mceil_def : CoreDef :=
  ⟨[true, true], [.sameSize [0, 1], .sameStructure [0, 1]], 0, [.beg 0, .beg 1], .call .vceil⟩

/-- src/vml/matrix/math_2op/matexp.hpp:5-17 -/
def vmlmat_mexp_def : CoreDef :=
  ⟨[true, true], [.sameSize [0, 1], .sameStructure [0, 1]], 0, [.beg 0, .beg 1], .call .vexp⟩

/-- src/vml/matrix/math_2op/matfloor.hpp:5-17 -/
def vmlmat_mfloor_def : CoreDef :=
  ⟨[true, true], [.sameSize [0, 1], .sameStructure [0, 1]], 0, [.beg 0, .beg 1], .call .vfloor⟩

/-- src/vml/matrix/math_2op/matreciprocal.hpp:5-18 -/
def vmlmat_mreciprocal_def : CoreDef :=
  ⟨[true, true], [.sameSize [0, 1], .sameStructure [0, 1]], 0, [.beg 0, .beg 1], .call .vreciprocal⟩

/-- src/vml/matrix/math_2op/matsign.hpp:5-17 -/
def vmlmat_msign_def : CoreDef :=
  ⟨[true, true], [.sameSize [0, 1], .sameStructure [0, 1]], 0, [.beg 0, .beg 1], .call .vsign⟩

/-- src/vml/matrix/math_2op/matsin.hpp:5-17 -/
def vmlmat_msin_def : CoreDef :=
  ⟨[true, true], [.sameSize [0, 1], .sameStructure [0, 1]], 0, [.beg 0, .beg 1], .call .vsin⟩

/-- src/vml/matrix/math_2op/matsinh.hpp:5-17 -/
def vmlmat_msinh_def : CoreDef :=
  ⟨[true, true], [.sameSize [0, 1], .sameStructure [0, 1]], 0, [.beg 0, .beg 1], .call .vsinh⟩

/-- src/vml/matrix/math_2op/matsqrt.hpp:5-17 -/
def vmlmat_msqrt_def : CoreDef :=
  ⟨[true, true], [.sameSize [0, 1], .sameStructure [0, 1]], 0, [.beg 0, .beg 1], .call .vsqrt⟩

/-- src/vml/matrix/math_2op/mattan.hpp:5-17 -/
def vmlmat_mtan_def : CoreDef :=
  ⟨[true, true], [.sameSize [0, 1], .sameStructure [0, 1]], 0, [.beg 0, .beg 1], .call .vtan⟩

/-- src/vml/matrix/math_2op/mattanh.hpp:5-17 -/
def vmlmat_mtanh_def : CoreDef :=
  ⟨[true, true], [.sameSize [0, 1], .sameStructure [0, 1]], 0, [.beg 0, .beg 1], .call .vtanh⟩

/-- src/vml/tensor/arithmetic/tensadd.hpp:6-19 -/
def vmlten_stadd_def : CoreDef :=
  ⟨[true, false, true], [.sameSize [0, 2]], 0, [.beg 0, .val 1, .beg 2], .call .vadd⟩

/-- src/vml/tensor/arithmetic/tensadd.hpp:21-35 -/
def vmlten_ttadd_def : CoreDef :=
  ⟨[true, true, true], [.sameSize [0, 1, 2], .sameStructure [0, 1, 2]], 0, [.beg 0, .beg 1, .beg 2], .call .vadd⟩

/-- src/vml/tensor/arithmetic/tensdiv.hpp:6-19 -/
def vmlten_stdiv_def : CoreDef :=
  ⟨[true, false, true], [.sameSize [0, 2]], 0, [.beg 0, .val 1, .beg 2], .call .vdiv⟩

/-- src/vml/tensor/arithmetic/tensdiv.hpp:21-35 -/
def vmlten_ttdiv_def : CoreDef :=
  ⟨[true, true, true], [.sameSize [0, 1, 2], .sameStructure [0, 1, 2]], 0, [.beg 0, .beg 1, .beg 2], .call .vdiv⟩

/-- src/vml/tensor/arithmetic/tensmul.hpp:6-19 -/
def vmlten_stmul_def : CoreDef :=
  ⟨[true, false, true], [.sameSize [0, 2]], 0, [.beg 0, .val 1, .beg 2], .call .vmul⟩

/-- src/vml/tensor/arithmetic/tensmul.hpp:21-35 -/
def vmlten_ttmul_def : CoreDef :=
  ⟨[true, true, true], [.sameSize [0, 1, 2], .sameStructure [0, 1, 2]], 0, [.beg 0, .beg 1, .beg 2], .call .vmul⟩

/-- src/vml/tensor/arithmetic/tenssub.hpp:6-19 -/
def vmlten_stsub_def : CoreDef :=
  ⟨[true, false, true], [.sameSize [0, 2]], 0, [.beg 0, .val 1, .beg 2], .call .vsub⟩

/-- src/vml/tensor/arithmetic/tenssub.hpp:21-35 -/
def vmlten_ttsub_def : CoreDef :=
  ⟨[true, true, true], [.sameSize [0, 1, 2], .sameStructure [0, 1, 2]], 0, [.beg 0, .beg 1, .beg 2], .call .vsub⟩

/-- src/vml/tensor/math_1_3op/tensmax.hpp:5-19 -/
def vmlten_ttmax_def : CoreDef :=
  ⟨[true, true, true], [.sameSize [0, 1, 2], .sameStructure [0, 1, 2]], 2, [.beg 0, .beg 1, .beg 2], .call .vmax⟩

/-- src/vml/tensor/math_1_3op/tensmax.hpp:21-35 -/
def vmlten_stmax_def : CoreDef :=
  ⟨[true, false, true], [.sameSize [0, 2], .sameStructure [0, 2]], 2, [.beg 0, .val 1, .beg 2], .call .vmax⟩

/-- src/vml/tensor/math_1_3op/tensmin.hpp:5-19 -/
def vmlten_ttmin_def : CoreDef :=
  ⟨[true, true, true], [.sameSize [0, 1, 2], .sameStructure [0, 1, 2]], 2, [.beg 0, .beg 1, .beg 2], .call .vmin⟩

/-- src/vml/tensor/math_1_3op/tensmin.hpp:21-35 -/
def vmlten_stmin_def : CoreDef :=
  ⟨[true, false, true], [.sameSize [0, 2], .sameStructure [0, 2]], 2, [.beg 0, .val 1, .beg 2], .call .vmin⟩

/-- src/vml/tensor/math_1_3op/tenspow.hpp:5-19 -/
def vmlten_ttpow_def : CoreDef :=
  ⟨[true, true, true], [.sameSize [0, 1, 2], .sameStructure [0, 1, 2]], 0, [.beg 0, .beg 1, .beg 2], .call .vpow⟩

/-- src/vml/tensor/math_1_3op/tenspow.hpp:21-35 -/
def vmlten_stpow_def : CoreDef :=
  ⟨[true, false, true], [.sameSize [0, 2], .sameStructure [0, 2]], 0, [.beg 0, .val 1, .beg 2], .call .vpow⟩

/-- src/vml/tensor/math_2op/tensalo.hpp:5-19 -/
def vmlten_talo_def : CoreDef :=
  ⟨[true, false, false, true], [.sameSize [0, 3], .sameStructure [0, 3]], 0, [.beg 0, .val 1, .val 2, .beg 3], .call .valo⟩

/-- src/vml/tensor/math_2op/tensasin.hpp:5-17 -/
def vmlten_tasin_def : CoreDef :=
  ⟨[true, true], [.sameSize [0, 1], .sameStructure [0, 1]], 0, [.beg 0, .beg 1], .call .vasin⟩

/-- src/vml/tensor/math_2op/tensasinh.hpp:5-17 -/
def vmlten_tasinh_def : CoreDef :=
  ⟨[true, true], [.sameSize [0, 1], .sameStructure [0, 1]], 0, [.beg 0, .beg 1], .call .vasinh⟩

/-- src/vml/tensor/math_2op/tensatan.hpp:5-17 -/
def vmlten_tatan_def : CoreDef :=
  ⟨[true, true], [.sameSize [0, 1], .sameStructure [0, 1]], 0, [.beg 0, .beg 1], .call .vatan⟩

/-- src/vml/tensor/math_2op/tensatanh.hpp:5-17 -/
def vmlten_tatanh_def : CoreDef :=
  ⟨[true, true], [.sameSize [0, 1], .sameStructure [0, 1]], 0, [.beg 0, .beg 1], .call .vatanh⟩

/-- src/vml/tensor/math_2op/tensceil.hpp:5-17 -/
def vmlten_tceil_def : CoreDef :=
  ⟨[true, true], [.sameSize [0, 1], .sameStructure [0, 1]], 0, [.beg 0, .beg 1], .call .vceil⟩

/-- src/vml/tensor/math_2op/tensexp.hpp:5-17 -/
def vmlten_texp_def : CoreDef :=
  ⟨[true, true], [.sameSize [0, 1], .sameStructure [0, 1]], 0, [.beg 0, .beg 1], .call .vexp⟩

/-- src/vml/tensor/math_2op/tensfloor.hpp:5-17 -/
def vmlten_tfloor_def : CoreDef :=
  ⟨[true, true], [.sameSize [0, 1], .sameStructure [0, 1]], 0, [.beg 0, .beg 1], .call .vfloor⟩

/-- src/vml/tensor/math_2op/tensreciprocal.hpp:5-18 -/
def vmlten_treciprocal_def : CoreDef :=
  ⟨[true, true], [.sameSize [0, 1], .sameStructure [0, 1]], 0, [.beg 0, .beg 1], .call .vreciprocal⟩

/-- src/vml/tensor/math_2op/tenssign.hpp:5-17 -/
def vmlten_tsign_def : CoreDef :=
  ⟨[true, true], [.sameSize [0, 1], .sameStructure [0, 1]], 0, [.beg 0, .beg 1], .call .vsign⟩

/-- src/vml/tensor/math_2op/tenssin.hpp:5-17 -/
def vmlten_tsin_def : CoreDef :=
  ⟨[true, true], [.sameSize [0, 1], .sameStructure [0, 1]], 0, [.beg 0, .beg 1], .call .vsin⟩

/-- src/vml/tensor/math_2op/tenssinh.hpp:5-17 -/
def vmlten_tsinh_def : CoreDef :=
  ⟨[true, true], [.sameSize [0, 1], .sameStructure [0, 1]], 0, [.beg 0, .beg 1], .call .vsinh⟩

/-- src/vml/tensor/math_2op/tenssqrt.hpp:5-17 -/
def vmlten_tsqrt_def : CoreDef :=
  ⟨[true, true], [.sameSize [0, 1], .sameStructure [0, 1]], 0, [.beg 0, .beg 1], .call .vsqrt⟩

/-- src/vml/tensor/math_2op/tenstan.hpp:5-17 -/
def vmlten_ttan_def : CoreDef :=
  ⟨[true, true], [.sameSize [0, 1], .sameStructure [0, 1]], 0, [.beg 0, .beg 1], .call .vtan⟩

/-- src/vml/tensor/math_2op/tenstanh.hpp:5-17 -/
def vmlten_ttanh_def : CoreDef :=
  ⟨[true, true], [.sameSize [0, 1], .sameStructure [0, 1]], 0, [.beg 0, .beg 1], .call .vtanh⟩

/-- src/blas/vector/vecadd.hpp:5-18 -/
def vec_vecadd_def : CoreDef :=
  ⟨[true, true, true], [.sameSize [0, 1, 2]], 2, [.beg 0, .beg 1, .beg 2], .call .vadd⟩

/-- src/blas/vector/vecsub.hpp:5-18 -/
def vec_vecsub_def : CoreDef :=
  ⟨[true, true, true], [.sameSize [0, 1, 2]], 2, [.beg 0, .beg 1, .beg 2], .call .vsub⟩

/-- src/blas/vector/times.hpp:6-19 -/
def vec_times_scalar_def : CoreDef :=
  ⟨[false, true, true], [.sameSize [1, 2]], 2, [.beg 1, .val 0, .beg 2], .call .vmul⟩

/-- src/blas/vector/times.hpp:21-34 -/
def vec_times_vector_def : CoreDef :=
  ⟨[true, true, true], [.sameSize [0, 2]], 2, [.beg 0, .beg 1, .beg 2], .call .vmul⟩

/-- src/blas/vector/copy.hpp:5-16 -/
def vec_copy_def : CoreDef :=
  ⟨[true, true], [.sameSize [0, 1]], 1, [.beg 0, .beg 1], .call .vcopy⟩

/-- src/blas/vector/axpy.hpp:6-34 -/
def vec_Daxpy_def : CoreDef :=
  ⟨[false, true, true], [.sameSize [1, 2]], 1, [.val 0, .beg 1, .beg 2], .own ⟨.vadd, .d, [false, true, true], .lib .axpy [0, 1, 2], .lib .axpy [0, 1, 2], .lib .axpy [0, 1, 2]⟩⟩

/-- src/blas/vector/axpy.hpp:36-64 -/
def vec_Saxpy_def : CoreDef :=
  ⟨[false, true, true], [.sameSize [1, 2]], 1, [.val 0, .beg 1, .beg 2], .own ⟨.vadd, .s, [false, true, true], .lib .axpy [0, 1, 2], .lib .axpy [0, 1, 2], .lib .axpy [0, 1, 2]⟩⟩

/-- src/blas/vector/axpyz.hpp:6-37 -/
def vec_Daxpyz_def : CoreDef :=
  ⟨[false, true, true, true], [.sameSize [1, 2, 3]], 1, [.val 0, .beg 1, .beg 2, .beg 3], .own ⟨.vadd, .d, [false, true, true, true], .loop 3 (.bin .add (.bin .mul (.sc 0) (.el 1)) (.el 2)), .loop 3 (.bin .add (.bin .mul (.sc 0) (.el 1)) (.el 2)), .loop 3 (.bin .add (.bin .mul (.sc 0) (.el 1)) (.el 2))⟩⟩

/-- src/blas/vector/axpyz.hpp:39-70 -/
def vec_Saxpyz_def : CoreDef :=
  ⟨[false, true, true, true], [.sameSize [1, 2, 3]], 1, [.val 0, .beg 1, .beg 2, .beg 3], .own ⟨.vadd, .s, [false, true, true, true], .loop 3 (.bin .add (.bin .mul (.sc 0) (.el 1)) (.el 2)), .loop 3 (.bin .add (.bin .mul (.sc 0) (.el 1)) (.el 2)), .loop 3 (.bin .add (.bin .mul (.sc 0) (.el 1)) (.el 2))⟩⟩

/-- src/blas/vector/xpay.hpp:6-36 -/
def vec_Dxpay_def : CoreDef :=
  ⟨[false, true, true], [.sameSize [1, 2]], 1, [.val 0, .beg 1, .beg 2], .own ⟨.vadd, .d, [false, true, true], .loop 2 (.bin .add (.el 1) (.bin .mul (.sc 0) (.el 2))), .loop 2 (.bin .add (.el 1) (.bin .mul (.sc 0) (.el 2))), .loop 2 (.bin .add (.el 1) (.bin .mul (.sc 0) (.el 2)))⟩⟩

/-- src/blas/vector/xpay.hpp:38-68 -/
def vec_Sxpay_def : CoreDef :=
  ⟨[false, true, true], [.sameSize [1, 2]], 1, [.val 0, .beg 1, .beg 2], .own ⟨.vadd, .s, [false, true, true], .loop 2 (.bin .add (.el 1) (.bin .mul (.sc 0) (.el 2))), .loop 2 (.bin .add (.el 1) (.bin .mul (.sc 0) (.el 2))), .loop 2 (.bin .add (.el 1) (.bin .mul (.sc 0) (.el 2)))⟩⟩

/-- src/blas/vector/scal.hpp:6-28 -/
def vec_Dscal_def : CoreDef :=
  ⟨[false, true], [], 1, [.val 0, .beg 1], .own ⟨.vadd, .d, [false, true], .lib .scal [0, 1], .lib .scal [0, 1], .lib .scal [0, 1]⟩⟩

/-- src/blas/vector/scal.hpp:30-52 -/
def vec_Sscal_def : CoreDef :=
  ⟨[false, true], [], 1, [.val 0, .beg 1], .own ⟨.vadd, .s, [false, true], .lib .scal [0, 1], .lib .scal [0, 1], .lib .scal [0, 1]⟩⟩

/-- src/blas/matrix/mataddsub/dense_mataddsub.hpp:8-21 -/
def mat_matadd_def : CoreDef :=
  ⟨[true, true, true], [.sameSize [0, 1, 2]], 0, [.beg 0, .beg 1, .beg 2], .call .vadd⟩

/-- src/blas/matrix/mataddsub/crs_mataddsub.hpp:8-23 -/
def mat_matadd_crs_def : CoreDef :=
  ⟨[true, true, true], [.sameSize [0, 1, 2], .sameStructure [0, 1, 2]], 0, [.beg 0, .beg 1, .beg 2], .call .vadd⟩

/-- src/blas/matrix/mataddsub/dense_mataddsub.hpp:23-36 -/
def mat_matsub_def : CoreDef :=
  ⟨[true, true, true], [.sameSize [0, 1, 2]], 0, [.beg 0, .beg 1, .beg 2], .call .vsub⟩

/-- src/blas/matrix/mataddsub/crs_mataddsub.hpp:25-40 -/
def mat_matsub_crs_def : CoreDef :=
  ⟨[true, true, true], [.sameSize [0, 1, 2], .sameStructure [0, 1, 2]], 0, [.beg 0, .beg 1, .beg 2], .call .vsub⟩

/-- src/blas/matrix/times/dense_times.hpp:9-21 -/
def mat_times_def : CoreDef :=
  ⟨[false, true, true], [.sameStructure [1, 2]], 1, [.beg 1, .val 0, .beg 2], .call .vmul⟩

/-- src/blas/matrix/times/crs_times.hpp:9-22 -/
def mat_times_crs_def : CoreDef :=
  ⟨[false, true, true], [.sameStructure [1, 2]], 1, [.beg 1, .val 0, .beg 2], .call .vmul⟩

/-- src/blas/matrix/adds/dense_adds.hpp:9-21 -/
def mat_adds_def : CoreDef :=
  ⟨[false, true, true], [.sameStructure [1, 2]], 1, [.beg 1, .val 0, .beg 2], .call .vadd⟩

/-- src/blas/matrix/scal/dense_scal.hpp:8-16 -/
def mat_mscal_def : CoreDef :=
  ⟨[false, true], [], 1, [.beg 1, .val 0, .beg 1], .call .vmul⟩

/-- src/blas/matrix/scal/crs_scal.hpp:7-15 -/
def mat_mscal_crs_def : CoreDef :=
  ⟨[false, true], [], 1, [.beg 1, .val 0, .beg 1], .call .vmul⟩

/-- src/blas/matrix/copy/dense_copy.hpp:7-18 -/
def mat_copy_def : CoreDef :=
  ⟨[true, true], [.sameSize [0, 1]], 0, [.beg 0, .beg 1], .call .vcopy⟩

/-- src/blas/matrix/copy/crs_copy.hpp:7-20 -/
def mat_copy_crs_def : CoreDef :=
  ⟨[true, true], [.sameSize [0, 1], .sameStructure [0, 1]], 0, [.beg 0, .beg 1], .call .vcopy⟩

/-- src/blas/tensor/tensaddsub/tensor_dense_tensaddsub.hpp:8-21 -/
def ten_tensadd_def : CoreDef :=
  ⟨[true, true, true], [.sameSize [0, 1, 2]], 0, [.beg 0, .beg 1, .beg 2], .call .vadd⟩

/-- src/blas/tensor/tensaddsub/tensor_crs_tensaddsub.hpp:8-23 -/
def ten_tensadd_crs_def : CoreDef :=
  ⟨[true, true, true], [.sameSize [0, 1, 2], .sameStructure [0, 1, 2]], 0, [.beg 0, .beg 1, .beg 2], .call .vadd⟩

/-- src/blas/tensor/tensaddsub/tensor_dense_tensaddsub.hpp:23-36 -/
def ten_tenssub_def : CoreDef :=
  ⟨[true, true, true], [.sameSize [0, 1, 2]], 0, [.beg 0, .beg 1, .beg 2], .call .vsub⟩

/-- src/blas/tensor/tensaddsub/tensor_crs_tensaddsub.hpp:25-40 -/
def ten_tenssub_crs_def : CoreDef :=
  ⟨[true, true, true], [.sameSize [0, 1, 2], .sameStructure [0, 1, 2]], 0, [.beg 0, .beg 1, .beg 2], .call .vsub⟩

/-- src/blas/tensor/times/tensor_dense_times.hpp:9-21 -/
def ten_times_def : CoreDef :=
  ⟨[false, true, true], [.sameStructure [1, 2]], 1, [.beg 1, .val 0, .beg 2], .call .vmul⟩

/-- src/blas/tensor/times/tensor_crs_times.hpp:9-22 -/
def ten_times_crs_def : CoreDef :=
  ⟨[false, true, true], [.sameStructure [1, 2]], 1, [.beg 1, .val 0, .beg 2], .call .vmul⟩

/-- src/blas/tensor/adds/tensor_dense_adds.hpp:9-21 -/
def ten_adds_def : CoreDef :=
  ⟨[false, true, true], [.sameStructure [1, 2]], 1, [.beg 1, .val 0, .beg 2], .call .vadd⟩

/-- src/blas/tensor/scal/tensor_dense_scal.hpp:8-16 -/
def ten_tscal_def : CoreDef :=
  ⟨[false, true], [], 1, [.beg 1, .val 0, .beg 1], .call .vmul⟩

/-- src/blas/tensor/scal/tensor_crs_scal.hpp:7-15 -/
def ten_tscal_crs_def : CoreDef :=
  ⟨[false, true], [], 1, [.beg 1, .val 0, .beg 1], .call .vmul⟩

/-- src/blas/tensor/copy/tensor_dense_copy.hpp:7-19 -/
def ten_copy_def : CoreDef :=
  ⟨[true, true], [.sameSize [0, 1]], 0, [.beg 0, .beg 1], .call .vcopy⟩

/-- src/blas/tensor/copy/tensor_crs_copy.hpp:7-20 -/
def ten_copy_crs_def : CoreDef :=
  ⟨[true, true], [.sameSize [0, 1], .sameStructure [0, 1]], 0, [.beg 0, .beg 1], .call .vcopy⟩

/-- the general definition of a core template, and the more specialised one for sparse arguments if any
(citations at the definitions above) -/
def Core.defs : Core → CoreDef × Option CoreDef
  | .vmlvec_svadd => (vmlvec_svadd_def, none)
  | .vmlvec_vvadd => (vmlvec_vvadd_def, none)
  | .vmlvec_svdiv => (vmlvec_svdiv_def, none)
  | .vmlvec_vvdiv => (vmlvec_vvdiv_def, none)
  | .vmlvec_svmul => (vmlvec_svmul_def, none)
  | .vmlvec_vvmul => (vmlvec_vvmul_def, none)
  | .vmlvec_svsub => (vmlvec_svsub_def, none)
  | .vmlvec_vvsub => (vmlvec_vvsub_def, none)
  | .vmlvec_vvmax => (vmlvec_vvmax_def, none)
  | .vmlvec_svmax => (vmlvec_svmax_def, none)
  | .vmlvec_vvmin => (vmlvec_vvmin_def, none)
  | .vmlvec_svmin => (vmlvec_svmin_def, none)
  | .vmlvec_vvpow => (vmlvec_vvpow_def, none)
  | .vmlvec_svpow => (vmlvec_svpow_def, none)
  | .vmlvec_vecalo => (vmlvec_vecalo_def, none)
  | .vmlvec_vasin => (vmlvec_vasin_def, none)
  | .vmlvec_vasinh => (vmlvec_vasinh_def, none)
  | .vmlvec_vatan => (vmlvec_vatan_def, none)
  | .vmlvec_vatanh => (vmlvec_vatanh_def, none)
  | .vmlvec_vceil => (vmlvec_vceil_def, none)
  | .vmlvec_vexp => (vmlvec_vexp_def, none)
  | .vmlvec_vfloor => (vmlvec_vfloor_def, none)
  | .vmlvec_vreciprocal => (vmlvec_vreciprocal_def, none)
  | .vmlvec_vsign => (vmlvec_vsign_def, none)
  | .vmlvec_vsin => (vmlvec_vsin_def, none)
  | .vmlvec_vsinh => (vmlvec_vsinh_def, none)
  | .vmlvec_vsqrt => (vmlvec_vsqrt_def, none)
  | .vmlvec_vtan => (vmlvec_vtan_def, none)
  | .vmlvec_vtanh => (vmlvec_vtanh_def, none)
  | .vmlmat_smadd => (vmlmat_smadd_def, none)
  | .vmlmat_mmadd => (vmlmat_mmadd_def, none)
  | .vmlmat_smdiv => (vmlmat_smdiv_def, none)
  | .vmlmat_mmdiv => (vmlmat_mmdiv_def, none)
  | .vmlmat_smmul => (vmlmat_smmul_def, none)
  | .vmlmat_mmmul => (vmlmat_mmmul_def, none)
  | .vmlmat_smsub => (vmlmat_smsub_def, none)
  | .vmlmat_mmsub => (vmlmat_mmsub_def, none)
  | .vmlmat_mmmax => (vmlmat_mmmax_def, none)
  | .vmlmat_smmax => (vmlmat_smmax_def, none)
  | .vmlmat_mmmin => (vmlmat_mmmin_def, none)
  | .vmlmat_smmin => (vmlmat_smmin_def, none)
  | .vmlmat_mmpow => (vmlmat_mmpow_def, none)
  | .vmlmat_smpow => (vmlmat_smpow_def, none)
  | .vmlmat_malo => (vmlmat_malo_def, none)
  | .vmlmat_masin => (vmlmat_masin_def, none)
  | .vmlmat_masinh => (vmlmat_masinh_def, none)
  | .vmlmat_matan => (vmlmat_matan_def, none)
  | .vmlmat_matanh => (vmlmat_matanh_def, none)
  | .vmlmat_mceil => (vmlmat_mceil_def, none)
  | .vmlmat_mexp => (vmlmat_mexp_def, none)
  | .vmlmat_mfloor => (vmlmat_mfloor_def, none)
  | .vmlmat_mreciprocal => (vmlmat_mreciprocal_def, none)
  | .vmlmat_msign => (vmlmat_msign_def, none)
  | .vmlmat_msin => (vmlmat_msin_def, none)
  | .vmlmat_msinh => (vmlmat_msinh_def, none)
  | .vmlmat_msqrt => (vmlmat_msqrt_def, none)
  | .vmlmat_mtan => (vmlmat_mtan_def, none)
  | .vmlmat_mtanh => (vmlmat_mtanh_def, none)
  | .vmlten_stadd => (vmlten_stadd_def, none)
  | .vmlten_ttadd => (vmlten_ttadd_def, none)
  | .vmlten_stdiv => (vmlten_stdiv_def, none)
  | .vmlten_ttdiv => (vmlten_ttdiv_def, none)
  | .vmlten_stmul => (vmlten_stmul_def, none)
  | .vmlten_ttmul => (vmlten_ttmul_def, none)
  | .vmlten_stsub => (vmlten_stsub_def, none)
  | .vmlten_ttsub => (vmlten_ttsub_def, none)
  | .vmlten_ttmax => (vmlten_ttmax_def, none)
  | .vmlten_stmax => (vmlten_stmax_def, none)
  | .vmlten_ttmin => (vmlten_ttmin_def, none)
  | .vmlten_stmin => (vmlten_stmin_def, none)
  | .vmlten_ttpow => (vmlten_ttpow_def, none)
  | .vmlten_stpow => (vmlten_stpow_def, none)
  | .vmlten_talo => (vmlten_talo_def, none)
  | .vmlten_tasin => (vmlten_tasin_def, none)
  | .vmlten_tasinh => (vmlten_tasinh_def, none)
  | .vmlten_tatan => (vmlten_tatan_def, none)
  | .vmlten_tatanh => (vmlten_tatanh_def, none)
  | .vmlten_tceil => (vmlten_tceil_def, none)
  | .vmlten_texp => (vmlten_texp_def, none)
  | .vmlten_tfloor => (vmlten_tfloor_def, none)
  | .vmlten_treciprocal => (vmlten_treciprocal_def, none)
  | .vmlten_tsign => (vmlten_tsign_def, none)
  | .vmlten_tsin => (vmlten_tsin_def, none)
  | .vmlten_tsinh => (vmlten_tsinh_def, none)
  | .vmlten_tsqrt => (vmlten_tsqrt_def, none)
  | .vmlten_ttan => (vmlten_ttan_def, none)
  | .vmlten_ttanh => (vmlten_ttanh_def, none)
  | .vec_vecadd => (vec_vecadd_def, none)
  | .vec_vecsub => (vec_vecsub_def, none)
  | .vec_times_scalar => (vec_times_scalar_def, none)
  | .vec_times_vector => (vec_times_vector_def, none)
  | .vec_copy => (vec_copy_def, none)
  | .vec_Daxpy => (vec_Daxpy_def, none)
  | .vec_Saxpy => (vec_Saxpy_def, none)
  | .vec_Daxpyz => (vec_Daxpyz_def, none)
  | .vec_Saxpyz => (vec_Saxpyz_def, none)
  | .vec_Dxpay => (vec_Dxpay_def, none)
  | .vec_Sxpay => (vec_Sxpay_def, none)
  | .vec_Dscal => (vec_Dscal_def, none)
  | .vec_Sscal => (vec_Sscal_def, none)
  | .mat_matadd => (mat_matadd_def, some mat_matadd_crs_def)
  | .mat_matsub => (mat_matsub_def, some mat_matsub_crs_def)
  | .mat_times => (mat_times_def, some mat_times_crs_def)
  | .mat_adds => (mat_adds_def, none)
  | .mat_mscal => (mat_mscal_def, some mat_mscal_crs_def)
  | .mat_copy => (mat_copy_def, some mat_copy_crs_def)
  | .ten_tensadd => (ten_tensadd_def, some ten_tensadd_crs_def)
  | .ten_tenssub => (ten_tenssub_def, some ten_tenssub_crs_def)
  | .ten_times => (ten_times_def, some ten_times_crs_def)
  | .ten_adds => (ten_adds_def, none)
  | .ten_tscal => (ten_tscal_def, some ten_tscal_crs_def)
  | .ten_copy => (ten_copy_def, some ten_copy_crs_def)

end Verif.Dispatch
