import Verif.Props.GapFp

/-!
A run of CG in double precision that meets the hypotheses of C103.
-/

namespace Verif.Gap

open Verif.Spec Verif.Solver Verif.Round

theorem he : double.emin ≤ 0 := by unfold double; norm_num

/-- an integer as a `double` -/
noncomputable def dbl (n : ℤ) : Format.Fp double := ofInt he n

theorem big_ok : (2 : ℝ) ^ double.p ≤ double.big := le_trans (by unfold double; norm_num) double_big

theorem pow_p : (2 : ℤ) ^ double.p = 9007199254740992 := by unfold double; norm_num

theorem dbl_add {a b : ℤ} (ha : |a| ≤ 1000) (hb : |b| ≤ 1000) : dbl a + dbl b = dbl (a + b) :=
  ofInt_add he big_ok (by rw [pow_p]; linarith)

theorem dbl_mul {a b : ℤ} (ha : |a| ≤ 1000) (hb : |b| ≤ 1000) : dbl a * dbl b = dbl (a * b) :=
  ofInt_mul he big_ok (by rw [pow_p]; linarith) (by rw [pow_p]; linarith) (by
    rw [pow_p, abs_mul]
    have := mul_le_mul ha hb (abs_nonneg _) (by norm_num)
    linarith)

theorem dbl_num {a : ℤ} (ha : |a| ≤ 1000000) : ∃ h, dbl a = Format.Fp.num (a : ℝ) h :=
  ⟨_, ofInt_num he (by rw [pow_p]; linarith)⟩

theorem dbl_of {a : ℤ} (ha : |a| ≤ 1000000) : Format.Fp.of double (a : ℝ) = dbl a :=
  of_int he big_ok (by rw [pow_p]; linarith)

theorem dbl_sub {a b : ℤ} (ha : |a| ≤ 1000) (hb : |b| ≤ 1000) : Format.Fp.sub (dbl a) (dbl b) = dbl (a - b) := by
  obtain ⟨h1, e1⟩ := dbl_num (a := a) (by linarith)
  obtain ⟨h2, e2⟩ := dbl_num (a := b) (by linarith)
  rw [e1, e2]
  unfold Format.Fp.sub
  dsimp only
  rw [← Int.cast_sub]
  exact dbl_of ((abs_sub _ _).trans (by linarith))

theorem dbl_neg {a : ℤ} (ha : |a| ≤ 1000) : Format.Fp.neg (dbl a) = dbl (-a) := by
  unfold dbl
  rw [ofInt_num he (n := a) (by rw [pow_p]; linarith), ofInt_num he (n := -a) (by rw [pow_p, abs_neg]; linarith)]
  unfold Format.Fp.neg
  push_cast
  rfl

theorem dbl_div {a b c : ℤ} (ha : |a| ≤ 1000) (hb : |b| ≤ 1000) (hc : |c| ≤ 1000) (h0 : b ≠ 0) (h : a = c * b) :
    Format.Fp.div (dbl a) (dbl b) = dbl c := by
  obtain ⟨h1, e1⟩ := dbl_num (a := a) (by linarith)
  obtain ⟨h2, e2⟩ := dbl_num (a := b) (by linarith)
  rw [e1, e2]
  unfold Format.Fp.div
  dsimp only
  have hb0 : (b : ℝ) ≠ 0 := by exact_mod_cast h0
  rw [if_neg hb0, h]
  push_cast
  rw [mul_div_assoc, div_self hb0, mul_one]
  exact dbl_of (by linarith)

theorem dbl_sqrt_zero : Format.Fp.sqrt (dbl 0) = dbl 0 := by
  obtain ⟨h1, e1⟩ := dbl_num (a := 0) (by norm_num)
  rw [e1]
  unfold Format.Fp.sqrt
  dsimp only
  rw [if_neg (by simp)]
  have : √((0 : ℤ) : ℝ) = ((0 : ℤ) : ℝ) := by simp
  rw [this, dbl_of (by norm_num), ← e1]

theorem num_div (x y : Format.Fp double) (t : Nat → RTree) : (double.num t).div x y = Format.Fp.div x y := rfl

theorem dbl_zero : (0 : Format.Fp double) = dbl 0 := (ofInt_zero he).symm

noncomputable instance : One (Format.Fp double) := ⟨dbl 1⟩

/-- the matrix ((2, 1), (1, 2)) -/
noncomputable def two : Crs (Format.Fp double) where
  rowN := 2
  colN := 2
  rowPtr := [0, 2, 4]
  colInd := [0, 1, 0, 1]
  val := [dbl 2, dbl 1, dbl 1, dbl 2]
  nnz := 4
  alloc := 4
  created := true

/-- one thread -/
def seq (n : Nat) : RTree := .thread (List.range n)

theorem seq_legal (n : Nat) : (seq n).Legal n := List.Perm.refl _

noncomputable def cfg : Cfg (Format.Fp double) where
  tol := dbl 1
  maxiter := 10
  omega := dbl 1
  prevResid := dbl 0

theorem mv_two (a b : ℤ) (ha : |a| ≤ 100) (hb : |b| ≤ 100) :
    (ofCrs [0, 1] [0, 1] two).mv [dbl a, dbl b] = .ok [dbl (2 * a + b), dbl (a + 2 * b)] := by
  have h1 : |2 * a| ≤ 200 := by rw [abs_mul]; norm_num; linarith
  have h2 : |2 * b| ≤ 200 := by rw [abs_mul]; norm_num; linarith
  have c1 : |(1 : ℤ)| ≤ 1000 := by norm_num
  have c2 : |(2 : ℤ)| ≤ 1000 := by norm_num
  have h3 : dbl 0 + dbl 2 * dbl a + dbl 1 * dbl b = dbl (2 * a + b) := by
    rw [dbl_mul c2 (by linarith), dbl_mul c1 (by linarith), one_mul, dbl_add (by norm_num) (by linarith), zero_add,
      dbl_add (by linarith) (by linarith)]
  have h4 : dbl 0 + dbl 1 * dbl a + dbl 2 * dbl b = dbl (a + 2 * b) := by
    rw [dbl_mul c1 (by linarith), dbl_mul c2 (by linarith), one_mul, dbl_add (by norm_num) (by linarith), zero_add,
      dbl_add (by linarith) (by linarith)]
  rw [← h3, ← h4, ← dbl_zero]
  rfl

theorem dot_two (a b c d : ℤ) (ha : |a| ≤ 20) (hb : |b| ≤ 20) (hc : |c| ≤ 20) (hd : |d| ≤ 20) :
    (double.num seq).sum [dbl a * dbl b, dbl c * dbl d] = dbl (a * b + c * d) := by
  have h1 : |a * b| ≤ 400 := by
    rw [abs_mul]
    have := mul_le_mul ha hb (abs_nonneg _) (by norm_num)
    linarith
  have h2 : |c * d| ≤ 400 := by
    rw [abs_mul]
    have := mul_le_mul hc hd (abs_nonneg _) (by norm_num)
    linarith
  have e : dbl 0 + (dbl 0 + dbl a * dbl b + dbl c * dbl d) = dbl (a * b + c * d) := by
    rw [dbl_mul (by linarith) (by linarith), dbl_mul (by linarith) (by linarith), dbl_add (by norm_num) (by linarith),
      zero_add, dbl_add (by linarith) (by linarith), dbl_add (by norm_num) ((abs_add_le _ _).trans (by linarith)), zero_add]
  rw [← e, ← dbl_zero]
  rfl

/-- CG in double precision for the matrix ((2, 1), (1, 2)), right-hand side (3, -3), first guess 0 -/
theorem run : CG.solve (double.num seq) cfg (ofCrs [0, 1] [0, 1] two) (.ok (fun r => .ok r)) [dbl 0, dbl 0]
    [dbl 3, dbl (-3)] = .ok { status := SUCCESS, x := [dbl 3, dbl (-3)], finalIter := 1, finalResid := dbl 0 } := by
  have h0 : CG.init (double.num seq) (ofCrs [0, 1] [0, 1] two) (fun r => .ok r) [dbl 0, dbl 0] [dbl 3, dbl (-3)] =
      .ok { x := [dbl 0, dbl 0], r := [dbl 3, dbl (-3)], z := [dbl 3, dbl (-3)], p := [dbl 3, dbl (-3)] } := by
    unfold CG.init
    rw [mv_two 0 0 (by norm_num) (by norm_num), Res.ok_bind]
    have : (double.num seq).vsub [dbl 3, dbl (-3)] [dbl (2 * 0 + 0), dbl (0 + 2 * 0)] (ofCrs [0, 1] [0, 1] two).row =
        .ok [dbl 3, dbl (-3)] := by
      show Res.ok [Format.Fp.sub (dbl 3) (dbl (2 * 0 + 0)), Format.Fp.sub (dbl (-3)) (dbl (0 + 2 * 0))] = _
      rw [dbl_sub (by norm_num) (by norm_num), dbl_sub (by norm_num) (by norm_num)]
      norm_num
    rw [this]
    rfl
  have dot : ∀ a b c d : ℤ, |a| ≤ 20 → |b| ≤ 20 → |c| ≤ 20 → |d| ≤ 20 →
      (double.num seq).dot [dbl a, dbl b] [dbl c, dbl d] = .ok (dbl (a * c + b * d)) := by
    intro a b c d ha hb hc hd
    rw [← dot_two a c b d ha hc hb hd]
    rfl
  have axpy : ∀ a p q x y : ℤ, |a| ≤ 10 → |p| ≤ 20 → |q| ≤ 20 → |x| ≤ 20 → |y| ≤ 20 →
      (double.num seq).axpy (dbl a) [dbl p, dbl q] [dbl x, dbl y] = .ok [dbl (a * p + x), dbl (a * q + y)] := by
    intro a p q x y ha hp hq hx hy
    have h1 : |a * p| ≤ 200 := by
      rw [abs_mul]
      have := mul_le_mul ha hp (abs_nonneg _) (by norm_num)
      linarith
    have h2 : |a * q| ≤ 200 := by
      rw [abs_mul]
      have := mul_le_mul ha hq (abs_nonneg _) (by norm_num)
      linarith
    show Res.ok [dbl a * dbl p + dbl x, dbl a * dbl q + dbl y] = _
    rw [dbl_mul (by linarith) (by linarith), dbl_mul (by linarith) (by linarith), dbl_add (by linarith) (by linarith),
      dbl_add (by linarith) (by linarith)]
  have h1 : CG.step (double.num seq) (ofCrs [0, 1] [0, 1] two) (fun r => .ok r)
      { x := [dbl 0, dbl 0], r := [dbl 3, dbl (-3)], z := [dbl 3, dbl (-3)], p := [dbl 3, dbl (-3)] } =
      .ok { x := [dbl 3, dbl (-3)], r := [dbl 0, dbl 0], z := [dbl 0, dbl 0], p := [dbl 0, dbl 0] } := by
    unfold CG.step
    rw [mv_two 3 (-3) (by norm_num) (by norm_num), Res.ok_bind]
    norm_num only
    rw [dot 3 (-3) 3 (-3) (by norm_num) (by norm_num) (by norm_num) (by norm_num), Res.ok_bind, Res.ok_bind]
    have e1 : (double.num seq).div (dbl (3 * 3 + -3 * -3)) (dbl (3 * 3 + -3 * -3)) = dbl 1 := by
      rw [num_div]
      exact dbl_div (by norm_num) (by norm_num) (by norm_num) (by norm_num) (by norm_num)
    have e2 : (double.num seq).neg (dbl 1) = dbl (-1) := dbl_neg (a := 1) (by norm_num)
    rw [e1, axpy 1 3 (-3) 0 0 (by norm_num) (by norm_num) (by norm_num) (by norm_num) (by norm_num), Res.ok_bind, e2,
      axpy (-1) 3 (-3) 3 (-3) (by norm_num) (by norm_num) (by norm_num) (by norm_num) (by norm_num), Res.ok_bind,
      Res.ok_bind]
    norm_num only
    rw [dot 0 0 0 0 (by norm_num) (by norm_num) (by norm_num) (by norm_num), Res.ok_bind]
    have e3 : (double.num seq).div (dbl (0 * 0 + 0 * 0)) (dbl 18) = dbl 0 := by
      rw [num_div]
      exact dbl_div (by norm_num) (by norm_num) (by norm_num) (by norm_num) (by norm_num)
    rw [e3]
    have e4 : (double.num seq).xpay (dbl 0) [dbl 0, dbl 0] [dbl 3, dbl (-3)] = .ok [dbl 0, dbl 0] := by
      show Res.ok [dbl 0 + dbl 0 * dbl 3, dbl 0 + dbl 0 * dbl (-3)] = _
      rw [dbl_mul (by norm_num) (by norm_num), dbl_mul (by norm_num) (by norm_num), dbl_add (by norm_num) (by norm_num),
        dbl_add (by norm_num) (by norm_num)]
      norm_num
    rw [e4]
    rfl
  have h2 : (double.num seq).nrm2 [dbl 0, dbl 0] = dbl 0 := by
    have := dot_two 0 0 0 0 (by norm_num) (by norm_num) (by norm_num) (by norm_num)
    show Format.Fp.sqrt ((double.num seq).sum [dbl 0 * dbl 0, dbl 0 * dbl 0]) = _
    rw [this]
    exact dbl_sqrt_zero
  have h3 : (double.num seq).lt (dbl 0) (dbl 1) = true := by
    obtain ⟨_, e1⟩ := dbl_num (a := 0) (by norm_num)
    obtain ⟨_, e2⟩ := dbl_num (a := 1) (by norm_num)
    show Format.Fp.lt (dbl 0) (dbl 1) = true
    rw [e1, e2]
    unfold Format.Fp.lt
    dsimp only
    exact decide_eq_true (by norm_num)
  have h4 : getResidual (double.num seq) cfg [dbl 0, dbl 0] = .ok (dbl 0) := by
    show Res.ok ((double.num seq).nrm2 [dbl 0, dbl 0]) = _
    rw [h2]
  unfold CG.solve
  rw [if_pos (show cfg.lib = 0 from rfl)]
  unfold CG.monolish
  rw [if_neg (by simp [ofCrs, two]), Res.ok_bind, h0, Res.ok_bind]
  show CG.loop _ cfg _ _ 10 0 _ = _
  unfold CG.loop
  rw [h1, Res.ok_bind, h4, Res.ok_bind]
  unfold stopCheck
  rw [show (double.num seq).lt (dbl 0) cfg.tol = true from h3]
  rw [if_pos (by rfl), h4]
  rfl

theorem two_safe : two.Safe where
  created := rfl
  lenV := rfl
  nnz_le := by decide
  lenP := rfl
  ptr_le := by
    intro i hi
    have : i ≤ 2 := hi
    match i, this with
    | 0, _ => decide
    | 1, _ => decide
    | 2, _ => decide
  lenC := by decide
  col_lt := by
    intro k h h'
    have h4 : k < 4 := h'
    have e : two.colInd = [0, 1, 0, 1] := rfl
    have e2 : two.colN = 2 := rfl
    simp only [e, e2]
    match k, h4 with
    | 0, _ => simp
    | 1, _ => simp
    | 2, _ => simp
    | 3, _ => simp

/-- the run meets the hypotheses of `C103_success` -/
example : ∃ s : Nat → CG.St (Format.Fp double),
    CG.init (double.num seq) (ofCrs [0, 1] [0, 1] two) (fun r => .ok r) [dbl 0, dbl 0] [dbl 3, dbl (-3)] = .ok (s 0) := by
  have fin : ∀ a : ℤ, |a| ≤ 1000000 → double.rounding.Finite (dbl a) := by
    intro a ha
    obtain ⟨h, e⟩ := dbl_num ha
    rw [e]
    trivial
  obtain ⟨⟨h1, h2, h3, h4⟩, _⟩ := C103_formats seq seq_legal
  obtain ⟨s, hs, _⟩ := C103_success (n := 2) h1 h2 h3 (h4 2 (by norm_num)) two two_safe rfl rfl [0, 1] [0, 1]
    (by unfold Order; decide) 2 (by
      intro i hi
      match i, hi with
      | 0, _ => rfl
      | 1, _ => rfl) rfl rfl rfl run rfl (by
      intro a ha
      simp only [List.mem_cons, List.not_mem_nil, or_false] at ha
      rcases ha with rfl | rfl
      · exact fin 3 (by norm_num)
      · exact fin (-3) (by norm_num)) (fin 0 (by norm_num)) (fin 1 (by norm_num))
  exact ⟨s, hs⟩

end Verif.Gap
