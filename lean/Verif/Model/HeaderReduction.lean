import Verif.Model.ReductionSrc

/-!
Generated by tools/header_gen.py from /repo/include/monolish/{blas,vml}/*.hpp: declared reductions. Do not edit.
-/

namespace Verif.Reduction

/-- the overloads of `tBlasVec` that are declared -/
def hBlasVec : List (Fn × List Dispatch.Par × Option Dispatch.Prec × Option Dispatch.Prec) := [
  (.asum, [.obj .vector .d true], (some .d), none),
  (.asum, [.obj (.view1D .vec) .d true], (some .d), none),
  (.asum, [.obj (.view1D .mat) .d true], (some .d), none),
  (.asum, [.obj (.view1D .ten) .d true], (some .d), none),
  (.asum, [.obj .vector .s true], (some .s), none),
  (.asum, [.obj (.view1D .vec) .s true], (some .s), none),
  (.asum, [.obj (.view1D .mat) .s true], (some .s), none),
  (.asum, [.obj (.view1D .ten) .s true], (some .s), none),
  (.asum, [.obj .vector .d true], none, (some .d)),
  (.asum, [.obj (.view1D .vec) .d true], none, (some .d)),
  (.asum, [.obj (.view1D .mat) .d true], none, (some .d)),
  (.asum, [.obj (.view1D .ten) .d true], none, (some .d)),
  (.asum, [.obj .vector .s true], none, (some .s)),
  (.asum, [.obj (.view1D .vec) .s true], none, (some .s)),
  (.asum, [.obj (.view1D .mat) .s true], none, (some .s)),
  (.asum, [.obj (.view1D .ten) .s true], none, (some .s)),
  (.sum, [.obj .vector .d true], (some .d), none),
  (.sum, [.obj (.view1D .vec) .d true], (some .d), none),
  (.sum, [.obj (.view1D .mat) .d true], (some .d), none),
  (.sum, [.obj (.view1D .ten) .d true], (some .d), none),
  (.sum, [.obj .vector .s true], (some .s), none),
  (.sum, [.obj (.view1D .vec) .s true], (some .s), none),
  (.sum, [.obj (.view1D .mat) .s true], (some .s), none),
  (.sum, [.obj (.view1D .ten) .s true], (some .s), none),
  (.sum, [.obj .vector .d true], none, (some .d)),
  (.sum, [.obj (.view1D .vec) .d true], none, (some .d)),
  (.sum, [.obj (.view1D .mat) .d true], none, (some .d)),
  (.sum, [.obj (.view1D .ten) .d true], none, (some .d)),
  (.sum, [.obj .vector .s true], none, (some .s)),
  (.sum, [.obj (.view1D .vec) .s true], none, (some .s)),
  (.sum, [.obj (.view1D .mat) .s true], none, (some .s)),
  (.sum, [.obj (.view1D .ten) .s true], none, (some .s)),
  (.dot, [.obj .vector .d true, .obj .vector .d true], (some .d), none),
  (.dot, [.obj .vector .d true, .obj (.view1D .vec) .d true], (some .d), none),
  (.dot, [.obj .vector .d true, .obj (.view1D .mat) .d true], (some .d), none),
  (.dot, [.obj .vector .d true, .obj (.view1D .ten) .d true], (some .d), none),
  (.dot, [.obj (.view1D .vec) .d true, .obj .vector .d true], (some .d), none),
  (.dot, [.obj (.view1D .vec) .d true, .obj (.view1D .vec) .d true], (some .d), none),
  (.dot, [.obj (.view1D .vec) .d true, .obj (.view1D .mat) .d true], (some .d), none),
  (.dot, [.obj (.view1D .vec) .d true, .obj (.view1D .ten) .d true], (some .d), none),
  (.dot, [.obj (.view1D .mat) .d true, .obj .vector .d true], (some .d), none),
  (.dot, [.obj (.view1D .mat) .d true, .obj (.view1D .vec) .d true], (some .d), none),
  (.dot, [.obj (.view1D .mat) .d true, .obj (.view1D .mat) .d true], (some .d), none),
  (.dot, [.obj (.view1D .mat) .d true, .obj (.view1D .ten) .d true], (some .d), none),
  (.dot, [.obj (.view1D .ten) .d true, .obj .vector .d true], (some .d), none),
  (.dot, [.obj (.view1D .ten) .d true, .obj (.view1D .vec) .d true], (some .d), none),
  (.dot, [.obj (.view1D .ten) .d true, .obj (.view1D .mat) .d true], (some .d), none),
  (.dot, [.obj (.view1D .ten) .d true, .obj (.view1D .ten) .d true], (some .d), none),
  (.dot, [.obj .vector .s true, .obj .vector .s true], (some .s), none),
  (.dot, [.obj .vector .s true, .obj (.view1D .vec) .s true], (some .s), none),
  (.dot, [.obj .vector .s true, .obj (.view1D .mat) .s true], (some .s), none),
  (.dot, [.obj .vector .s true, .obj (.view1D .ten) .s true], (some .s), none),
  (.dot, [.obj (.view1D .vec) .s true, .obj .vector .s true], (some .s), none),
  (.dot, [.obj (.view1D .vec) .s true, .obj (.view1D .vec) .s true], (some .s), none),
  (.dot, [.obj (.view1D .vec) .s true, .obj (.view1D .mat) .s true], (some .s), none),
  (.dot, [.obj (.view1D .vec) .s true, .obj (.view1D .ten) .s true], (some .s), none),
  (.dot, [.obj (.view1D .mat) .s true, .obj .vector .s true], (some .s), none),
  (.dot, [.obj (.view1D .mat) .s true, .obj (.view1D .vec) .s true], (some .s), none),
  (.dot, [.obj (.view1D .mat) .s true, .obj (.view1D .mat) .s true], (some .s), none),
  (.dot, [.obj (.view1D .mat) .s true, .obj (.view1D .ten) .s true], (some .s), none),
  (.dot, [.obj (.view1D .ten) .s true, .obj .vector .s true], (some .s), none),
  (.dot, [.obj (.view1D .ten) .s true, .obj (.view1D .vec) .s true], (some .s), none),
  (.dot, [.obj (.view1D .ten) .s true, .obj (.view1D .mat) .s true], (some .s), none),
  (.dot, [.obj (.view1D .ten) .s true, .obj (.view1D .ten) .s true], (some .s), none),
  (.dot, [.obj .vector .d true, .obj .vector .d true], none, (some .d)),
  (.dot, [.obj .vector .d true, .obj (.view1D .vec) .d true], none, (some .d)),
  (.dot, [.obj .vector .d true, .obj (.view1D .mat) .d true], none, (some .d)),
  (.dot, [.obj .vector .d true, .obj (.view1D .ten) .d true], none, (some .d)),
  (.dot, [.obj (.view1D .vec) .d true, .obj .vector .d true], none, (some .d)),
  (.dot, [.obj (.view1D .vec) .d true, .obj (.view1D .vec) .d true], none, (some .d)),
  (.dot, [.obj (.view1D .vec) .d true, .obj (.view1D .mat) .d true], none, (some .d)),
  (.dot, [.obj (.view1D .vec) .d true, .obj (.view1D .ten) .d true], none, (some .d)),
  (.dot, [.obj (.view1D .mat) .d true, .obj .vector .d true], none, (some .d)),
  (.dot, [.obj (.view1D .mat) .d true, .obj (.view1D .vec) .d true], none, (some .d)),
  (.dot, [.obj (.view1D .mat) .d true, .obj (.view1D .mat) .d true], none, (some .d)),
  (.dot, [.obj (.view1D .mat) .d true, .obj (.view1D .ten) .d true], none, (some .d)),
  (.dot, [.obj (.view1D .ten) .d true, .obj .vector .d true], none, (some .d)),
  (.dot, [.obj (.view1D .ten) .d true, .obj (.view1D .vec) .d true], none, (some .d)),
  (.dot, [.obj (.view1D .ten) .d true, .obj (.view1D .mat) .d true], none, (some .d)),
  (.dot, [.obj (.view1D .ten) .d true, .obj (.view1D .ten) .d true], none, (some .d)),
  (.dot, [.obj .vector .s true, .obj .vector .s true], none, (some .s)),
  (.dot, [.obj .vector .s true, .obj (.view1D .vec) .s true], none, (some .s)),
  (.dot, [.obj .vector .s true, .obj (.view1D .mat) .s true], none, (some .s)),
  (.dot, [.obj .vector .s true, .obj (.view1D .ten) .s true], none, (some .s)),
  (.dot, [.obj (.view1D .vec) .s true, .obj .vector .s true], none, (some .s)),
  (.dot, [.obj (.view1D .vec) .s true, .obj (.view1D .vec) .s true], none, (some .s)),
  (.dot, [.obj (.view1D .vec) .s true, .obj (.view1D .mat) .s true], none, (some .s)),
  (.dot, [.obj (.view1D .vec) .s true, .obj (.view1D .ten) .s true], none, (some .s)),
  (.dot, [.obj (.view1D .mat) .s true, .obj .vector .s true], none, (some .s)),
  (.dot, [.obj (.view1D .mat) .s true, .obj (.view1D .vec) .s true], none, (some .s)),
  (.dot, [.obj (.view1D .mat) .s true, .obj (.view1D .mat) .s true], none, (some .s)),
  (.dot, [.obj (.view1D .mat) .s true, .obj (.view1D .ten) .s true], none, (some .s)),
  (.dot, [.obj (.view1D .ten) .s true, .obj .vector .s true], none, (some .s)),
  (.dot, [.obj (.view1D .ten) .s true, .obj (.view1D .vec) .s true], none, (some .s)),
  (.dot, [.obj (.view1D .ten) .s true, .obj (.view1D .mat) .s true], none, (some .s)),
  (.dot, [.obj (.view1D .ten) .s true, .obj (.view1D .ten) .s true], none, (some .s)),
  (.nrm1, [.obj .vector .d true], (some .d), none),
  (.nrm1, [.obj (.view1D .vec) .d true], (some .d), none),
  (.nrm1, [.obj (.view1D .mat) .d true], (some .d), none),
  (.nrm1, [.obj (.view1D .ten) .d true], (some .d), none),
  (.nrm1, [.obj .vector .s true], (some .s), none),
  (.nrm1, [.obj (.view1D .vec) .s true], (some .s), none),
  (.nrm1, [.obj (.view1D .mat) .s true], (some .s), none),
  (.nrm1, [.obj (.view1D .ten) .s true], (some .s), none),
  (.nrm1, [.obj .vector .d true], none, (some .d)),
  (.nrm1, [.obj (.view1D .vec) .d true], none, (some .d)),
  (.nrm1, [.obj (.view1D .mat) .d true], none, (some .d)),
  (.nrm1, [.obj (.view1D .ten) .d true], none, (some .d)),
  (.nrm1, [.obj .vector .s true], none, (some .s)),
  (.nrm1, [.obj (.view1D .vec) .s true], none, (some .s)),
  (.nrm1, [.obj (.view1D .mat) .s true], none, (some .s)),
  (.nrm1, [.obj (.view1D .ten) .s true], none, (some .s)),
  (.nrm2, [.obj .vector .d true], (some .d), none),
  (.nrm2, [.obj (.view1D .vec) .d true], (some .d), none),
  (.nrm2, [.obj (.view1D .mat) .d true], (some .d), none),
  (.nrm2, [.obj (.view1D .ten) .d true], (some .d), none),
  (.nrm2, [.obj .vector .s true], (some .s), none),
  (.nrm2, [.obj (.view1D .vec) .s true], (some .s), none),
  (.nrm2, [.obj (.view1D .mat) .s true], (some .s), none),
  (.nrm2, [.obj (.view1D .ten) .s true], (some .s), none),
  (.nrm2, [.obj .vector .d true], none, (some .d)),
  (.nrm2, [.obj (.view1D .vec) .d true], none, (some .d)),
  (.nrm2, [.obj (.view1D .mat) .d true], none, (some .d)),
  (.nrm2, [.obj (.view1D .ten) .d true], none, (some .d)),
  (.nrm2, [.obj .vector .s true], none, (some .s)),
  (.nrm2, [.obj (.view1D .vec) .s true], none, (some .s)),
  (.nrm2, [.obj (.view1D .mat) .s true], none, (some .s)),
  (.nrm2, [.obj (.view1D .ten) .s true], none, (some .s))]

/-- the overloads of `tVmlVec` that are declared -/
def hVmlVec : List (Fn × List Dispatch.Par × Option Dispatch.Prec × Option Dispatch.Prec) := [
  (.max, [.obj .vector .d true], (some .d), none),
  (.max, [.obj (.view1D .vec) .d true], (some .d), none),
  (.max, [.obj (.view1D .mat) .d true], (some .d), none),
  (.max, [.obj (.view1D .ten) .d true], (some .d), none),
  (.max, [.obj .vector .s true], (some .s), none),
  (.max, [.obj (.view1D .vec) .s true], (some .s), none),
  (.max, [.obj (.view1D .mat) .s true], (some .s), none),
  (.max, [.obj (.view1D .ten) .s true], (some .s), none),
  (.min, [.obj .vector .d true], (some .d), none),
  (.min, [.obj (.view1D .vec) .d true], (some .d), none),
  (.min, [.obj (.view1D .mat) .d true], (some .d), none),
  (.min, [.obj (.view1D .ten) .d true], (some .d), none),
  (.min, [.obj .vector .s true], (some .s), none),
  (.min, [.obj (.view1D .vec) .s true], (some .s), none),
  (.min, [.obj (.view1D .mat) .s true], (some .s), none),
  (.min, [.obj (.view1D .ten) .s true], (some .s), none)]

/-- the overloads of `tVmlMat` that are declared -/
def hVmlMat : List (Fn × List Dispatch.Par × Option Dispatch.Prec × Option Dispatch.Prec) := [
  (.max, [.obj .crs .d true], (some .d), none),
  (.max, [.obj .dense .d true], (some .d), none),
  (.max, [.obj (.viewDense .vec) .d true], (some .d), none),
  (.max, [.obj (.viewDense .mat) .d true], (some .d), none),
  (.max, [.obj (.viewDense .ten) .d true], (some .d), none),
  (.max, [.obj .crs .s true], (some .s), none),
  (.max, [.obj .dense .s true], (some .s), none),
  (.max, [.obj (.viewDense .vec) .s true], (some .s), none),
  (.max, [.obj (.viewDense .mat) .s true], (some .s), none),
  (.max, [.obj (.viewDense .ten) .s true], (some .s), none),
  (.min, [.obj .crs .d true], (some .d), none),
  (.min, [.obj .dense .d true], (some .d), none),
  (.min, [.obj (.viewDense .vec) .d true], (some .d), none),
  (.min, [.obj (.viewDense .mat) .d true], (some .d), none),
  (.min, [.obj (.viewDense .ten) .d true], (some .d), none),
  (.min, [.obj .crs .s true], (some .s), none),
  (.min, [.obj .dense .s true], (some .s), none),
  (.min, [.obj (.viewDense .vec) .s true], (some .s), none),
  (.min, [.obj (.viewDense .mat) .s true], (some .s), none),
  (.min, [.obj (.viewDense .ten) .s true], (some .s), none)]

/-- the overloads of `tVmlTen` that are declared -/
def hVmlTen : List (Fn × List Dispatch.Par × Option Dispatch.Prec × Option Dispatch.Prec) := [
  (.max, [.obj .tcrs .d true], (some .d), none),
  (.max, [.obj .tdense .d true], (some .d), none),
  (.max, [.obj (.viewTDense .vec) .d true], (some .d), none),
  (.max, [.obj (.viewTDense .mat) .d true], (some .d), none),
  (.max, [.obj (.viewTDense .ten) .d true], (some .d), none),
  (.max, [.obj .tcrs .s true], (some .s), none),
  (.max, [.obj .tdense .s true], (some .s), none),
  (.max, [.obj (.viewTDense .vec) .s true], (some .s), none),
  (.max, [.obj (.viewTDense .mat) .s true], (some .s), none),
  (.max, [.obj (.viewTDense .ten) .s true], (some .s), none),
  (.min, [.obj .tcrs .d true], (some .d), none),
  (.min, [.obj .tdense .d true], (some .d), none),
  (.min, [.obj (.viewTDense .vec) .d true], (some .d), none),
  (.min, [.obj (.viewTDense .mat) .d true], (some .d), none),
  (.min, [.obj (.viewTDense .ten) .d true], (some .d), none),
  (.min, [.obj .tcrs .s true], (some .s), none),
  (.min, [.obj .tdense .s true], (some .s), none),
  (.min, [.obj (.viewTDense .vec) .s true], (some .s), none),
  (.min, [.obj (.viewTDense .mat) .s true], (some .s), none),
  (.min, [.obj (.viewTDense .ten) .s true], (some .s), none)]

/-- declared without a definition -/
def hExtra : List (Fn × List Dispatch.Par × Option Dispatch.Prec × Option Dispatch.Prec) := []

/-- all declarations (184), table by table -/
def declared : List (List (Fn × List Dispatch.Par × Option Dispatch.Prec × Option Dispatch.Prec)) :=
  [hBlasVec, hVmlVec, hVmlMat, hVmlTen, hExtra]

end Verif.Reduction
