import Verif.Props.Stationary
import Verif.Spec.Ext
import Verif.Props.GapRun

/-!
# C110: `double` and `float`, CRS matrices, and the two ways SUCCESS can mislead
-/

namespace Verif.Stat

open Verif.Spec Verif.Solver Verif.Gap Verif.Round

/-- one is representable -/
theorem of_one {f : Format} (he : f.emin ≤ 0) (hb : 1 ≤ f.big) : ∃ h, Format.Fp.of f 1 = .num 1 h := by
  have hr : f.Rep 1 := ⟨1, 0, he, by simp only [abs_one]; exact_mod_cast Nat.one_le_two_pow, by simp⟩
  have e := f.round_of_rep hr
  refine ⟨hr, ?_⟩
  unfold Format.Fp.of
  rw [if_pos (by rw [e, abs_one]; exact hb)]
  congr 1

theorem roundedQuot (f : Format) (tree : Nat → RTree) (he : f.emin ≤ 0) (hb : 1 ≤ f.big) :
    RoundedQuot f.rounding (f.num tree) where
  one := by
    obtain ⟨h, e⟩ := of_one he hb
    show f.rounding.val (Format.Fp.of f 1) = 1
    rw [e]
    rfl
  div a b ha hb' h := by
    cases a with
    | other => exact ha.elim
    | num x hx =>
      cases b with
      | other => exact hb'.elim
      | num y hy =>
        by_cases h0 : y = 0
        · have e : (f.num tree).div (.num x hx) (.num y hy) = .other := if_pos h0
          rw [e] at h
          exact h.elim
        · have e : (f.num tree).div (.num x hx) (.num y hy) = Format.Fp.of f (x / y) := if_neg h0
          rw [e] at h ⊢
          refine ⟨h0, ?_⟩
          show |(Format.Fp.of f (x / y)).val - x / y| ≤ (2 : ℝ) ^ (-(f.p : ℤ)) * |x / y| + (2 : ℝ) ^ (f.emin - 1)
          rw [Format.Fp.of_finite h]
          rcases f.round_rel (x / y) with h1 | ⟨h1, _⟩
          · have := (Format.two_zpow_pos (f.emin - 1)).le
            linarith
          · have := mul_nonneg (Format.two_zpow_pos (-(f.p : ℤ))).le (abs_nonneg (x / y))
            linarith
  test a b c _ _ h := by
    refine ⟨?_, (Format.lt_val _ _ h).1⟩
    obtain ⟨h, e⟩ := of_one he hb
    show f.rounding.Finite (Format.Fp.of f 1)
    rw [e]
    trivial

/-- **C110 (formats).** `double` and `float` meet the assumption on quotients. -/
theorem C110_formats (tree : Nat → RTree) :
    RoundedQuot double.rounding (double.num tree) ∧ RoundedQuot single.rounding (single.num tree) := by
  constructor
  · refine roundedQuot _ _ (by unfold double; norm_num) ?_
    exact le_trans (by norm_num) double_big
  · refine roundedQuot _ _ (by unfold single; norm_num) ?_
    unfold single
    norm_num

/-- a finite norm is small enough for its reciprocal to be finite and nonzero -/
theorem norm_small (tree : Nat → RTree) {b : List (Format.Fp double)}
    (fb : double.rounding.Finite ((double.num tree).nrm2 b)) :
    double.rounding.η * double.rounding.val ((double.num tree).nrm2 b) < 1 - double.rounding.u := by
  have hbig : ∀ a : Format.Fp double, double.rounding.Finite (Format.Fp.sqrt a) →
      double.rounding.val (Format.Fp.sqrt a) ≤ double.big := by
    intro a fa
    cases a with
    | other => exact fa.elim
    | num v hv =>
      by_cases h0 : v < 0
      · have e : Format.Fp.sqrt (Format.Fp.num v hv) = .other := if_pos h0
        rw [e] at fa
        exact fa.elim
      · have e : Format.Fp.sqrt (Format.Fp.num v hv) = Format.Fp.of double (√v) := if_neg h0
        rw [e] at fa ⊢
        unfold Format.Fp.of at fa ⊢
        split at fa
        · rename_i hle
          rw [if_pos hle]
          exact (le_abs_self _).trans hle
        · exact fa.elim
  have h1 := hbig _ fb
  have eη : double.rounding.η = (2 : ℝ) ^ (-1075 : ℤ) := by simp [Format.rounding, double]
  have eu : double.rounding.u = (2 : ℝ) ^ (-53 : ℤ) := by simp [Format.rounding, double]
  have h2 : double.big ≤ (2 : ℝ) ^ (1024 : ℤ) := by
    have e : (2 : ℝ) ^ (1024 : ℤ) = (2 : ℝ) ^ 1024 := zpow_natCast 2 1024
    have p : (0 : ℝ) < 2 ^ 971 := by positivity
    rw [e]
    exact sub_le_self _ p.le
  have h3 := mul_le_mul_of_nonneg_left (h1.trans h2) double.rounding.η_nonneg
  have e3 : (2 : ℝ) ^ (-1075 : ℤ) * (2 : ℝ) ^ (1024 : ℤ) = (2 : ℝ) ^ (-51 : ℤ) := by
    rw [← zpow_add₀ (by norm_num)]
    norm_num
  rw [eη, e3] at h3
  rw [eη, eu]
  refine lt_of_le_of_lt h3 ?_
  norm_num

/-- **C110 (Jacobi in double precision, CRS matrices), partial.** Everything in terms of the matrix: rows of at most `nz`
entries, less than 2^51 unknowns, any schedule of the sums and of the product; `u = 2^-53`, `η = 2^-1075`. -/
theorem C110_double_partial (tree : Nat → RTree) (ht : ∀ n, (tree n).Legal n) (A : Crs (Format.Fp double)) (hA : A.Safe)
    {n : Nat} (hn : n < 2 ^ 51) (hr : A.rowN = n) (hc : A.colN = n) (order zo : List Nat) (ho : Order order A.rowN)
    (nz : Nat) (hnz : ∀ i, i < n → (A.rowEntries i).length ≤ nz)
    {create : Res (List (Format.Fp double) → Res (List (Format.Fp double)))} {x b : List (Format.Fp double)}
    (hb : b.length = n) {cfg : Cfg (Format.Fp double)} (hl : cfg.lib = 0) {out : Out (Format.Fp double)}
    (h : Jacobi.solve (double.num tree) cfg (ofCrs order zo A) create x b = .ok out) (hs : out.status = SUCCESS)
    (fb : double.rounding.Finite ((double.num tree).nrm2 b)) (ft : double.rounding.Finite cfg.tol) :
    ∃ y fr, y.length = n ∧ 1 ≤ out.finalIter ∧
      Jacobi.solve (double.num tree) { cfg with maxiter := out.finalIter - 1 } (ofCrs order zo A) create x b =
        .ok { status := MAXITER, x := y, finalIter := out.finalIter - 1, finalResid := fr } ∧
      euclid (fun i => vals double.rounding n b i - ∑ l, crsVal double.rounding A n i l * vals double.rounding n y l) ≤
        (1 + 2 * double.rounding.u) * atMost double.rounding n
          (passed double.rounding (double.rounding.val cfg.tol) (double.rounding.val ((double.num tree).nrm2 b))) +
          euclid (evalErr double.rounding (crsAbs double.rounding A n) ((1 + double.rounding.u) ^ nz - 1)
            ((1 + double.rounding.u) ^ nz * (nz * double.rounding.η)) (vals double.rounding n y)) := by
  obtain ⟨⟨hN, hR, hu, hε⟩, _⟩ := C103_formats tree ht
  have hQ := (C110_formats tree).1
  have hM := rounded_crs double.rounding A hA hr hc order zo ho nz hnz
  obtain ⟨y, fr, h1, h2, _, h3, h4, _⟩ := C110_jacobi_partial hN hR hQ hu (hε n hn) hM hb hl h hs fb ft (norm_small tree fb)
  exact ⟨y, fr, h1, h2, h3, h4⟩

/-- **C110 (SOR in double precision, CRS matrices, no preconditioner), partial.** The same bound as for Jacobi, and the
reported residual is the computed norm for which it holds. -/
theorem C110_sor_double_partial (tree : Nat → RTree) (ht : ∀ n, (tree n).Legal n) (A : Crs (Format.Fp double)) (hA : A.Safe)
    {n : Nat} (hn : n < 2 ^ 51) (hr : A.rowN = n) (hc : A.colN = n) (order zo : List Nat) (ho : Order order A.rowN)
    (nz : Nat) (hnz : ∀ i, i < n → (A.rowEntries i).length ≤ nz) {x b : List (Format.Fp double)} (hx : x.length = n)
    (hb : b.length = n) {cfg : Cfg (Format.Fp double)} (hl : cfg.lib = 0) {out : Out (Format.Fp double)}
    (h : SOR.solve (double.num tree) cfg (ofCrs order zo A) (crsLower (double.num tree) A) noPrecond x b = .ok out)
    (hs : out.status = SUCCESS)
    (fb : double.rounding.Finite ((double.num tree).nrm2 b)) (ft : double.rounding.Finite cfg.tol) :
    ∃ y fr, 1 ≤ out.finalIter ∧
      SOR.solve (double.num tree) { cfg with maxiter := out.finalIter - 1 } (ofCrs order zo A)
        (crsLower (double.num tree) A) noPrecond x b =
        .ok { status := MAXITER, x := y, finalIter := out.finalIter - 1, finalResid := fr } ∧
      double.rounding.val out.finalResid ≤
        passed double.rounding (double.rounding.val cfg.tol) (double.rounding.val ((double.num tree).nrm2 b)) ∧
      euclid (fun i => vals double.rounding n b i - ∑ l, crsVal double.rounding A n i l * vals double.rounding n y l) ≤
        (1 + 2 * double.rounding.u) * atMost double.rounding n (double.rounding.val out.finalResid) +
          euclid (evalErr double.rounding (crsAbs double.rounding A n) ((1 + double.rounding.u) ^ nz - 1)
            ((1 + double.rounding.u) ^ nz * (nz * double.rounding.η)) (vals double.rounding n y)) := by
  obtain ⟨⟨hN, hR, hu, hε⟩, _⟩ := C103_formats tree ht
  have hQ := (C110_formats tree).1
  have hM := rounded_crs double.rounding A hA hr hc order zo ho nz hnz
  obtain ⟨y, s, fr, h0, h1, _, h3, h4, h5⟩ :=
    C110_sor_partial hN hR hQ hu (hε n hn) hM (fun y z hy e => by cases e; exact hy) hx hb hl h hs fb ft (norm_small tree fb)
  cases h0
  exact ⟨y, fr, h1, h3, h4, h5⟩

/-! ### the hypotheses can be met -/

/-- the matrix (1) -/
noncomputable def unitMat : Crs (Format.Fp double) where
  rowN := 1
  colN := 1
  rowPtr := [0, 1]
  colInd := [0]
  val := [dbl 1]
  nnz := 1
  alloc := 1
  created := true

theorem dbl_sqrt_one : Format.Fp.sqrt (dbl 1) = dbl 1 := by
  obtain ⟨h1, e1⟩ := dbl_num (a := 1) (by norm_num)
  rw [e1]
  unfold Format.Fp.sqrt
  dsimp only
  rw [if_neg (by norm_num)]
  have : √((1 : ℤ) : ℝ) = ((1 : ℤ) : ℝ) := by simp
  rw [this, dbl_of (by norm_num), ← e1]

theorem unit_safe : unitMat.Safe where
  created := rfl
  lenV := rfl
  nnz_le := by decide
  lenP := rfl
  ptr_le := by
    intro i hi
    have : i ≤ 1 := hi
    match i, this with
    | 0, _ => decide
    | 1, _ => decide
  lenC := by decide
  col_lt := by
    intro k h h'
    have h4 : k < 1 := h'
    have e : unitMat.colInd = [0] := rfl
    have e2 : unitMat.colN = 1 := rfl
    simp only [e, e2]
    match k, h4 with
    | 0, _ => simp

/-- tolerance 2 -/
noncomputable def cfg2 : Cfg (Format.Fp double) where
  tol := dbl 2
  maxiter := 10
  omega := dbl 1
  prevResid := dbl 0

theorem one_dbl : (double.num seq).one = dbl 1 := by
  have e2 := dbl_of (a := 1) (by norm_num)
  rw [Int.cast_one] at e2
  exact e2

theorem nrm_one : (double.num seq).nrm2 [dbl 1] = dbl 1 := by
  have h : (double.num seq).nrm2 [dbl 1] = Format.Fp.sqrt (dbl 0 + (dbl 0 + dbl 1 * dbl 1)) := by
    rw [← dbl_zero]
    rfl
  rw [h, dbl_mul (by norm_num) (by norm_num), dbl_add (by norm_num) (by norm_num), dbl_add (by norm_num) (by norm_num)]
  exact dbl_sqrt_one

/-- `1 x = 1` from `x = 0`: one sweep -/
theorem unit_run : Jacobi.solve (double.num seq) cfg2 (ofCrs [0] [0] unitMat) noPrecond [dbl 0] [dbl 1] =
    .ok { status := SUCCESS, x := [dbl 1], finalIter := 1, finalResid := dbl 1 } := by
  have hd : (ofCrs [0] [0] unitMat).diag = .ok [dbl 1] := rfl
  have hmv : (ofCrs [0] [0] unitMat).mv [dbl 0] = .ok [dbl 0] := by
    have : (ofCrs [0] [0] unitMat).mv [dbl 0] = .ok [dbl 0 + dbl 1 * dbl 0] := by rw [← dbl_zero]; rfl
    rw [this, dbl_mul (by norm_num) (by norm_num), dbl_add (by norm_num) (by norm_num)]
    rfl
  have hdiv : (double.num seq).div (dbl 1) (dbl 1) = dbl 1 :=
    dbl_div (a := 1) (b := 1) (c := 1) (by norm_num) (by norm_num) (by norm_num) (by norm_num) (by norm_num)
  have hrec : (double.num seq).reciprocal [dbl 1] = [dbl 1] := by
    show [(double.num seq).div (double.num seq).one (dbl 1)] = _
    rw [one_dbl, hdiv]
  have hax : (double.num seq).axpyz ((double.num seq).neg (double.num seq).one) [dbl 0] [dbl 1] 1 = .ok [dbl 1] := by
    rw [one_dbl]
    show Res.ok [Format.Fp.neg (dbl 1) * dbl 0 + dbl 1] = _
    rw [dbl_neg (by norm_num), dbl_mul (by norm_num) (by norm_num), dbl_add (by norm_num) (by norm_num)]
    rfl
  have hmul : (double.num seq).vmul [dbl 1] [dbl 1] 1 = .ok [dbl 1] := by
    show Res.ok [dbl 1 * dbl 1] = _
    rw [dbl_mul (by norm_num) (by norm_num)]
    rfl
  have hadd : (double.num seq).vadd [dbl 0] [dbl 1] 1 = .ok [dbl 1] := by
    show Res.ok [dbl 0 + dbl 1] = _
    rw [dbl_add (by norm_num) (by norm_num)]
    rfl
  have hlt : (double.num seq).lt ((double.num seq).mul (dbl 1) (dbl 1)) cfg2.tol = true := by
    show Format.Fp.lt (dbl 1 * dbl 1) (dbl 2) = true
    rw [dbl_mul (by norm_num) (by norm_num)]
    obtain ⟨h1, e1⟩ := dbl_num (a := 1 * 1) (by norm_num)
    obtain ⟨h2, e2⟩ := dbl_num (a := 2) (by norm_num)
    rw [e1, e2]
    exact decide_eq_true (by norm_num)
  have hrow : (ofCrs [0] [0] unitMat).row = 1 := rfl
  unfold Jacobi.solve
  rw [if_pos (show cfg2.lib = 0 from rfl)]
  unfold Jacobi.monolish
  rw [if_neg (fun h => h rfl), hd, Res.ok_bind]
  unfold noPrecond
  rw [Res.ok_bind, hrec, nrm_one, one_dbl, hdiv]
  show Jacobi.loop _ _ _ _ _ _ _ (9 + 1) 0 _ _ = _
  unfold Jacobi.loop
  rw [Res.ok_bind]
  have hcopy : Num.copyV [dbl 0] (ofCrs [0] [0] unitMat).row = .ok [dbl 0] := rfl
  rw [hcopy, Res.ok_bind, hmv, Res.ok_bind, hrow, hax, Res.ok_bind]
  dsimp only
  rw [hmul, Res.ok_bind]
  have hadd' : (double.num seq).vadd [dbl 0] [dbl 1] [dbl 0].length = .ok [dbl 1] := hadd
  rw [hadd', Res.ok_bind, nrm_one]
  unfold stopCheck
  rw [hlt]
  show (do
    let o ← (do
      let fr ← getResidual (double.num seq) cfg2 [dbl 1]
      Res.ok (some { status := SUCCESS, x := [dbl 1], finalIter := 0 + 1, finalResid := fr } : Option (Out _)) : Res _)
    _) = _
  have hg : getResidual (double.num seq) cfg2 [dbl 1] = .ok (dbl 1) := by
    show Res.ok ((double.num seq).nrm2 [dbl 1]) = _
    rw [nrm_one]
  rw [hg]
  rfl

/-- this run meets the hypotheses of `C110_double_partial` (and of `C110_jacobi_partial`, from which it follows) -/
example : ∃ y fr, y.length = 1 ∧ 1 ≤ 1 ∧
    Jacobi.solve (double.num seq) { cfg2 with maxiter := 0 } (ofCrs [0] [0] unitMat) noPrecond [dbl 0] [dbl 1] =
      .ok { status := MAXITER, x := y, finalIter := 0, finalResid := fr } :=
  let ⟨y, fr, h1, h2, h3, _⟩ := C110_double_partial (n := 1) seq seq_legal unitMat unit_safe (by norm_num) rfl rfl [0] [0] (by unfold Order; decide) 1
    (by intro i hi; match i, hi with | 0, _ => exact le_rfl) rfl rfl unit_run rfl
    (by rw [nrm_one]; obtain ⟨h, e⟩ := dbl_num (a := 1) (by norm_num); rw [e]; trivial)
    (by show double.rounding.Finite (dbl 2); obtain ⟨h, e⟩ := dbl_num (a := 2) (by norm_num); rw [e]; trivial)
  ⟨y, fr, h1, h2, h3⟩

/-- the SOR solver on the same system -/
theorem unit_run_sor : SOR.solve (double.num seq) cfg2 (ofCrs [0] [0] unitMat) (crsLower (double.num seq) unitMat)
    noPrecond [dbl 0] [dbl 1] = .ok { status := SUCCESS, x := [dbl 1], finalIter := 1, finalResid := dbl 1 } := by
  have hd : (ofCrs [0] [0] unitMat).diag = .ok [dbl 1] := rfl
  have hmv : (ofCrs [0] [0] unitMat).mv [dbl 0] = .ok [dbl 0] := by
    have : (ofCrs [0] [0] unitMat).mv [dbl 0] = .ok [dbl 0 + dbl 1 * dbl 0] := by rw [← dbl_zero]; rfl
    rw [this, dbl_mul (by norm_num) (by norm_num), dbl_add (by norm_num) (by norm_num)]
    rfl
  have hdiv : (double.num seq).div (dbl 1) (dbl 1) = dbl 1 :=
    dbl_div (a := 1) (b := 1) (c := 1) (by norm_num) (by norm_num) (by norm_num) (by norm_num) (by norm_num)
  have hrec : (double.num seq).reciprocal
      ([dbl 1].map ((double.num seq).mul ((double.num seq).div (double.num seq).one cfg2.omega))) = [dbl 1] := by
    show [(double.num seq).div (double.num seq).one
      ((double.num seq).div (double.num seq).one (dbl 1) * dbl 1)] = _
    rw [one_dbl, hdiv, dbl_mul (by norm_num) (by norm_num)]
    exact congrArg (fun t => [t]) hdiv
  have hax : (double.num seq).axpyz ((double.num seq).neg (double.num seq).one) [dbl 0] [dbl 1] 1 = .ok [dbl 1] := by
    rw [one_dbl]
    show Res.ok [Format.Fp.neg (dbl 1) * dbl 0 + dbl 1] = _
    rw [dbl_neg (by norm_num), dbl_mul (by norm_num) (by norm_num), dbl_add (by norm_num) (by norm_num)]
    rfl
  have hlow : crsLower (double.num seq) unitMat [dbl 1] [dbl 0] [dbl 1] = .ok [dbl 1] := by
    show Res.ok [dbl 1 * dbl 1] = _
    rw [dbl_mul (by norm_num) (by norm_num)]
    rfl
  have hadd : (double.num seq).axpy (dbl 1) [dbl 1] [dbl 0] = .ok [dbl 1] := by
    show Res.ok [dbl 1 * dbl 1 + dbl 0] = _
    rw [dbl_mul (by norm_num) (by norm_num), dbl_add (by norm_num) (by norm_num)]
    rfl
  have hlt : (double.num seq).lt ((double.num seq).mul (dbl 1) (dbl 1)) cfg2.tol = true := by
    show Format.Fp.lt (dbl 1 * dbl 1) (dbl 2) = true
    rw [dbl_mul (by norm_num) (by norm_num)]
    obtain ⟨h1, e1⟩ := dbl_num (a := 1 * 1) (by norm_num)
    obtain ⟨h2, e2⟩ := dbl_num (a := 2) (by norm_num)
    rw [e1, e2]
    exact decide_eq_true (by norm_num)
  have hrow : (ofCrs [0] [0] unitMat).row = 1 := rfl
  unfold SOR.solve
  rw [if_pos (show cfg2.lib = 0 from rfl)]
  unfold SOR.monolish
  rw [if_neg (fun h => h rfl), hd, Res.ok_bind]
  dsimp only
  unfold noPrecond
  rw [Res.ok_bind, hrec, nrm_one, one_dbl, hdiv]
  show SOR.loop _ _ _ _ _ _ _ _ (9 + 1) 0 _ _ = _
  unfold SOR.loop
  rw [Res.ok_bind, hmv, Res.ok_bind, hrow, hax, Res.ok_bind]
  dsimp only
  rw [hlow, Res.ok_bind, one_dbl, hadd, Res.ok_bind, nrm_one]
  unfold stopCheck
  rw [hlt]
  show (do
    let o ← (do
      let fr ← getResidual (double.num seq) cfg2 [dbl 1]
      Res.ok (some { status := SUCCESS, x := [dbl 1], finalIter := 0 + 1, finalResid := fr } : Option (Out _)) : Res _)
    _) = _
  have hg : getResidual (double.num seq) cfg2 [dbl 1] = .ok (dbl 1) := by
    show Res.ok ((double.num seq).nrm2 [dbl 1]) = _
    rw [nrm_one]
  rw [hg]
  rfl

/-- it meets the hypotheses of `C110_sor_double_partial` -/
example : ∃ y fr, 1 ≤ 1 ∧
    SOR.solve (double.num seq) { cfg2 with maxiter := 0 } (ofCrs [0] [0] unitMat) (crsLower (double.num seq) unitMat)
      noPrecond [dbl 0] [dbl 1] = .ok { status := MAXITER, x := y, finalIter := 0, finalResid := fr } :=
  let ⟨y, fr, h2, h3, _⟩ := C110_sor_double_partial (n := 1) seq seq_legal unitMat unit_safe (by norm_num) rfl rfl [0] [0]
    (by unfold Order; decide) 1
    (by intro i hi; match i, hi with | 0, _ => exact le_rfl) rfl rfl rfl unit_run_sor rfl
    (by rw [nrm_one]; obtain ⟨h, e⟩ := dbl_num (a := 1) (by norm_num); rw [e]; trivial)
    (by show double.rounding.Finite (dbl 2); obtain ⟨h, e⟩ := dbl_num (a := 2) (by norm_num); rw [e]; trivial)
  ⟨y, fr, h2, h3⟩

/-- the symmetric matrix `[[1, 1000], [1000, 1]]` -/
def steep : Crs ℚ := ⟨2, 2, [0, 2, 4], [0, 1, 0, 1], [1, 1000, 1000, 1], 4, 4, true⟩

/-- **C110 violated (the returned vector).** In exact arithmetic (norms squared), tolerance 10^-6: the initial guess `(1, 0)`
has a relative residual of less than 10^-7; the solver makes one sweep, returns SUCCESS and reports 1/100; the vector it
returns has the residual `(0, -100)`, a relative residual of more than 1/101. -/
theorem C110_returned_violated :
    Jacobi.solve (fieldNum (id : ℚ → ℚ)) { tol := 1 / 1000000, maxiter := 5, omega := 1, prevResid := 0 }
      (ofCrs [0, 1] [0, 1] steep) noPrecond [1, 0] [11 / 10, 1000] =
      .ok { status := SUCCESS, x := [11 / 10, 0], finalIter := 1, finalResid := 1 / 100 } ∧
    (ofCrs [0, 1] [0, 1] steep).mv [1, 0] = .ok [1, 1000] ∧
    (ofCrs [0, 1] [0, 1] steep).mv [11 / 10, 0] = .ok [11 / 10, 1100] ∧
    (fieldNum (id : ℚ → ℚ)).nrm2 [11 / 10 - 1, 1000 - 1000] <
      1 / 10 ^ 7 * (fieldNum (id : ℚ → ℚ)).nrm2 [11 / 10, 1000] ∧
    (1 / 101 : ℚ) * (fieldNum (id : ℚ → ℚ)).nrm2 [11 / 10, 1000] <
      (fieldNum (id : ℚ → ℚ)).nrm2 [11 / 10 - 11 / 10, 1000 - 1100] := by
  refine ⟨?_, ?_, ?_, ?_, ?_⟩ <;> decide +kernel

end Verif.Stat
