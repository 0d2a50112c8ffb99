import Verif.Lemmas.Round
import Verif.Spec.Ieee
import Verif.Props.Matvec
import Mathlib.Data.Real.Sqrt
import Mathlib.Tactic.ByContra

/-!
C100: rounding errors. Whatever the number of threads, the distribution of the iterations and the order in which
partial results are combined, a finite result is within the textbook bound of the exact one.
-/

namespace Verif.Round

open Verif.Spec

variable {F : Type} [Zero F] [Add F] [Mul F]

theorem forList_total {f : Nat → F} {body : Nat → F → Res F} {l : List Nat}
    (hb : ∀ i ∈ l, ∀ acc, body i acc = .ok (acc + f i)) (acc : F) : ∃ z, forList l body acc = .ok z := by
  induction l generalizing acc with
  | nil => exact ⟨acc, rfl⟩
  | cons i l ih =>
    unfold forList
    rw [hb i List.mem_cons_self, Res.ok_bind]
    exact ih (fun j hj => hb j (List.mem_cons_of_mem _ hj)) _

theorem eval_total {f : Nat → F} {body : Nat → F → Res F} {t : RTree}
    (hb : ∀ i ∈ t.iters, ∀ acc, body i acc = .ok (acc + f i)) : ∃ z, t.eval 0 (· + ·) body = .ok z := by
  induction t with
  | thread l => exact forList_total hb 0
  | node l r ihl ihr =>
    obtain ⟨x, hx⟩ := ihl (fun i hi => hb i (List.mem_append_left _ hi))
    obtain ⟨y, hy⟩ := ihr (fun i hi => hb i (List.mem_append_right _ hi))
    unfold RTree.eval
    rw [hx, Res.ok_bind, hy, Res.ok_bind]
    exact ⟨_, rfl⟩

theorem reduction_total {f : Nat → F} {body : Nat → F → Res F} {t : RTree} {N : Nat} (ht : t.Legal N)
    (hb : ∀ i, i < N → ∀ acc, body i acc = .ok (acc + f i)) : ∃ z, reduction t 0 0 (· + ·) body = .ok z := by
  obtain ⟨z, hz⟩ := eval_total (t := t) (fun i hi => hb i (by simpa using ht.mem_iff.mp hi))
  unfold reduction
  rw [hz, Res.ok_bind]
  exact ⟨_, rfl⟩

theorem sum_range (f : Nat → ℝ) (N : Nat) : ((List.range N).map f).sum = ∑ i ∈ Finset.range N, f i := rfl

/-- **C100, sum**: for every arithmetic with rounding, `sum` of `N` numbers, computed by any number of threads
in any order, differs from the exact sum by at most `((1 + u)^(N-1) - 1)` times the sum of the absolute values,
provided that the result is finite. -/
theorem C100_sum (R : Rounding F) (t : RTree) (N : Nat) (ht : t.Legal N) (x : List F) (off : Nat) (f : Nat → F)
    (hf : ∀ i, i < N → x[off + i]? = some (f i)) :
    ∃ r, sumCore t x off = .ok r ∧ (R.Finite r →
      |R.val r - ∑ i ∈ Finset.range N, R.val (f i)| ≤
        ((1 + R.u) ^ (N - 1) - 1) * ∑ i ∈ Finset.range N, |R.val (f i)|) := by
  have hb : ∀ i, i < N → ∀ acc : F, (do let u ← rd x (off + i); Res.ok (acc + u)) = .ok (acc + f i) :=
    fun i hi acc => by rw [rd_of_getElem? (hf i hi), Res.ok_bind]
  obtain ⟨r, hr⟩ := reduction_total ht hb
  refine ⟨r, hr, fun hfin => ?_⟩
  have := (reduction_near ht hb hr hfin).2
  unfold NearSum at this
  rwa [List.map_map, List.length_map, List.length_range] at this

/-- **C100, nrm1 and asum** -/
theorem C100_nrm1 (R : Rounding F) (absf : F → F) (ha : ∀ a, R.val (absf a) = |R.val a|) (t : RTree) (N : Nat)
    (ht : t.Legal N) (x : List F) (off : Nat) (f : Nat → F) (hf : ∀ i, i < N → x[off + i]? = some (f i)) :
    ∃ r, nrm1Core absf t x off = .ok r ∧ (R.Finite r →
      |R.val r - (∑ i ∈ Finset.range N, abs (R.val (f i)))| ≤
        ((1 + R.u) ^ (N - 1) - 1) * ∑ i ∈ Finset.range N, |R.val (f i)|) := by
  have hb : ∀ i, i < N → ∀ acc : F, (do let u ← rd x (off + i); Res.ok (acc + absf u)) =
      .ok (acc + (fun i => absf (f i)) i) :=
    fun i hi acc => by rw [rd_of_getElem? (hf i hi), Res.ok_bind]
  obtain ⟨r, hr⟩ := reduction_total ht hb
  refine ⟨r, hr, fun hfin => ?_⟩
  have := (reduction_near ht hb hr hfin).2
  unfold NearSum at this
  rw [List.map_map, List.length_map, List.length_range] at this
  simp only [ha] at this
  have e : (List.map (abs ∘ fun i => |R.val (f i)|) (List.range N)).sum =
      ∑ i ∈ Finset.range N, |R.val (f i)| := by
    rw [← sum_range]
    simp only [Function.comp_def, abs_abs]
  rwa [e] at this

/-- **C100, dot**: relative to the sum of the absolute values of the products; `η` is for underflow -/
theorem C100_dot (R : Rounding F) (t : RTree) (N : Nat) (ht : t.Legal N) (x : List F) (ox : Nat) (y : List F)
    (oy : Nat) (f g : Nat → F) (hf : ∀ i, i < N → x[ox + i]? = some (f i))
    (hg : ∀ i, i < N → y[oy + i]? = some (g i)) :
    ∃ r, dotCore t x ox N y oy N = .ok r ∧ (R.Finite r →
      |R.val r - ∑ i ∈ Finset.range N, R.val (f i) * R.val (g i)| ≤
        ((1 + R.u) ^ N - 1) * ∑ i ∈ Finset.range N, |R.val (f i) * R.val (g i)|
          + (1 + R.u) ^ (N - 1) * (N * R.η)) := by
  have hb : ∀ i, i < N → ∀ acc : F, (do
      let u ← rd x (ox + i)
      let v ← rd y (oy + i)
      Res.ok (acc + u * v)) = .ok (acc + (fun i => f i * g i) i) :=
    fun i hi acc => by rw [rd_of_getElem? (hf i hi), Res.ok_bind, rd_of_getElem? (hg i hi), Res.ok_bind]
  obtain ⟨r, hr⟩ := reduction_total ht hb
  refine ⟨r, ?_, fun hfin => ?_⟩
  · unfold dotCore
    rw [cassert_decide rfl, Res.ok_bind]
    exact hr
  · obtain ⟨h1, h2⟩ := reduction_near ht hb hr hfin
    have := near_dot (R := R) (l := List.range N) (a := f) (b := g) (fun i hi => h1 i (by simpa using hi)) h2
    unfold NearDot at this
    rwa [List.map_map, List.length_map, List.length_range] at this

theorem sqrt_near {S S' g h : ℝ} (hS : 0 ≤ S) (hS' : 0 ≤ S') (hg : 0 ≤ g) (hh : 0 ≤ h)
    (H : |S' - S| ≤ g * S + h) : |√S' - √S| ≤ g * √S + √h := by
  have e1 := Real.sq_sqrt hS
  have e2 := Real.sq_sqrt hS'
  have e3 := Real.sq_sqrt hh
  have p1 := Real.sqrt_nonneg S
  have p2 := Real.sqrt_nonneg S'
  have p3 := Real.sqrt_nonneg h
  obtain ⟨H1, H2⟩ := abs_le.1 H
  generalize √S = a at *
  generalize √S' = b at *
  generalize √h = c at *
  rw [abs_le]
  constructor
  · by_contra hc
    push Not at hc
    have q : b + c < (1 - g) * a := by linarith
    have hga : 0 < 1 - g := by
      by_contra hn
      push Not at hn
      have : (1 - g) * a ≤ 0 := mul_nonpos_of_nonpos_of_nonneg hn p1
      linarith
    have q2 : (b + c) ^ 2 < ((1 - g) * a) ^ 2 := by
      apply pow_lt_pow_left₀ q (by linarith) (by norm_num)
    have q3 : ((1 - g) * a) ^ 2 ≤ (1 - g) * S := by
      rw [mul_pow, e1]
      have : (1 - g) ^ 2 ≤ 1 - g := by nlinarith
      nlinarith
    nlinarith
  · by_contra hc
    push Not at hc
    have q : (1 + g) * a + c < b := by linarith
    have hga : 0 ≤ (1 + g) * a := by positivity
    have q2 : ((1 + g) * a + c) ^ 2 < b ^ 2 := by
      apply pow_lt_pow_left₀ q (by linarith) (by norm_num)
    have q3 : (1 + g) * S ≤ ((1 + g) * a) ^ 2 := by
      rw [mul_pow, e1]
      have : 1 + g ≤ (1 + g) ^ 2 := by nlinarith
      nlinarith
    nlinarith [mul_nonneg hga p3]

/-- **C100, nrm2**: relative to the norm -/
theorem C100_nrm2 (R : Rounding F) (sqrtf : F → F)
    (hsq : ∀ a, R.Finite (sqrtf a) → R.Finite a ∧ 0 ≤ R.val a ∧ |R.val (sqrtf a) - √(R.val a)| ≤ R.u * √(R.val a))
    (t : RTree) (N : Nat) (ht : t.Legal N) (x : List F) (off : Nat) (f : Nat → F)
    (hf : ∀ i, i < N → x[off + i]? = some (f i)) :
    ∃ r, nrm2Core sqrtf t x off N = .ok r ∧ (R.Finite r →
      |R.val r - √(∑ i ∈ Finset.range N, R.val (f i) ^ 2)| ≤
        ((1 + R.u) ^ (N + 1) - 1) * √(∑ i ∈ Finset.range N, R.val (f i) ^ 2)
          + (1 + R.u) * √((1 + R.u) ^ (N - 1) * (N * R.η))) := by
  obtain ⟨d, hd, hd'⟩ := C100_dot R t N ht x off x off f f hf hf
  refine ⟨sqrtf d, by unfold nrm2Core; rw [hd, Res.ok_bind], fun hfin => ?_⟩
  obtain ⟨h1, h2, h3⟩ := hsq d hfin
  have h4 := hd' h1
  have e : ∑ i ∈ Finset.range N, |R.val (f i) * R.val (f i)| = ∑ i ∈ Finset.range N, R.val (f i) ^ 2 :=
    Finset.sum_congr rfl (fun i _ => by rw [abs_mul_self, sq])
  have e' : ∑ i ∈ Finset.range N, R.val (f i) * R.val (f i) = ∑ i ∈ Finset.range N, R.val (f i) ^ 2 :=
    Finset.sum_congr rfl (fun i _ => by rw [sq])
  rw [e, e'] at h4
  have hS : 0 ≤ ∑ i ∈ Finset.range N, R.val (f i) ^ 2 := Finset.sum_nonneg (fun i _ => sq_nonneg _)
  have hu := R.u_nonneg
  have hη := R.η_nonneg
  have hw : 1 ≤ (1 + R.u) ^ N := one_le_pow₀ one_le_w
  have hh : 0 ≤ (1 + R.u) ^ (N - 1) * (N * R.η) := by positivity
  have key := sqrt_near hS h2 (by linarith) hh h4
  have p1 := Real.sqrt_nonneg (∑ i ∈ Finset.range N, R.val (f i) ^ 2)
  have p2 := Real.sqrt_nonneg ((1 + R.u) ^ (N - 1) * (N * R.η))
  rw [pow_succ]
  generalize √(∑ i ∈ Finset.range N, R.val (f i) ^ 2) = a at *
  generalize √(R.val d) = b at *
  generalize √((1 + R.u) ^ (N - 1) * (N * R.η)) = c at *
  generalize (1 + R.u) ^ N = W at *
  have hb : b ≤ W * a + c := by
    have := (abs_le.1 key).2
    linarith
  have t : |R.val (sqrtf d) - a| ≤ |R.val (sqrtf d) - b| + |b - a| := by
    simpa using abs_add_le (R.val (sqrtf d) - b) (b - a)
  have q := mul_le_mul_of_nonneg_left hb hu
  calc |R.val (sqrtf d) - a| ≤ R.u * (W * a + c) + ((W - 1) * a + c) := by linarith
    _ = (W * (1 + R.u) - 1) * a + (1 + R.u) * c := by ring

/-- **C100, two schedules**: two runs of `sum` on the same data differ by at most twice the bound -/
theorem C100_schedules (R : Rounding F) (t t' : RTree) (N : Nat) (ht : t.Legal N) (ht' : t'.Legal N) (x : List F)
    (off : Nat) (f : Nat → F) (hf : ∀ i, i < N → x[off + i]? = some (f i)) {r r' : F}
    (h : sumCore t x off = .ok r) (h' : sumCore t' x off = .ok r') (hr : R.Finite r) (hr' : R.Finite r') :
    |R.val r - R.val r'| ≤ 2 * (((1 + R.u) ^ (N - 1) - 1) * ∑ i ∈ Finset.range N, |R.val (f i)|) := by
  obtain ⟨s, hs, b⟩ := C100_sum R t N ht x off f hf
  obtain ⟨s', hs', b'⟩ := C100_sum R t' N ht' x off f hf
  rw [h] at hs
  rw [h'] at hs'
  cases hs
  cases hs'
  have b := b hr
  have b' := b' hr'
  rw [abs_le] at *
  constructor <;> linarith

/-- **C100, CRS matrix-vector product**: row by row, relative to the sum of the absolute values of the products;
`k` is the number of stored elements of the row -/
theorem C100_matvec [One F] (R : Rounding F) (A : Crs F) (hA : A.Safe) (x y : Win F) (hxs : x.size = A.colN)
    (hys : y.size = A.rowN) (hy : y.Ok) (xs : Nat → F) (hx : ∀ j, j < x.size → x.get j = .ok (xs j))
    (order : List Nat) (ho : Order order A.rowN) :
    ∃ y', A.matvec order x y = .ok y' ∧ y.Updated y' ∧ ∀ i, i < A.rowN → ∃ r, y'.get i = .ok r ∧
      (R.Finite r → ∀ k, k = (A.rowEntries i).length →
        |R.val r - ((A.rowEntries i).map (fun e => R.val e.2.2 * R.val (xs e.2.1))).sum| ≤
          ((1 + R.u) ^ k - 1) * ((A.rowEntries i).map (fun e => |R.val e.2.2 * R.val (xs e.2.1)|)).sum
            + (1 + R.u) ^ (k - 1) * (k * R.η)) := by
  obtain ⟨y', h1, h2, h3⟩ := C16_matvec_exact A hA x y hxs hys hy xs hx order ho
  refine ⟨y', h1, h2, fun i hi => ⟨_, h3 i hi, fun hfin k hk => ?_⟩⟩
  subst hk
  obtain ⟨_, g2, g3⟩ := foldl_app (R := R) (f := fun e : Nat × Nat × F => e.2.2 * xs e.2.1) hfin
  have := near_dot (R := R) g2 (by simpa using (g3 [] App.zero).near)
  unfold NearDot at this
  rwa [List.map_map, List.length_map] at this

/-! ### Schedules give different results -/

/-- **C100: results do not depend on the schedule only up to rounding**: in every binary format with at least
two bits whose range contains `2^(p+1) + 4` there are four numbers whose `sum` by one thread differs from the
`sum` by two threads. -/
theorem C100_reproducible_violated (f : Format) (hp : 2 ≤ f.p) (he : f.emin ≤ 0) (hbig : (2 : ℝ) ^ (f.p + 1) + 4 ≤ f.big) :
    ∃ (x : List (Format.Fp f)) (t t' : RTree) (r r' : Format.Fp f), t.Legal 4 ∧ t'.Legal 4 ∧
      sumCore t x 0 = .ok r ∧ sumCore t' x 0 = .ok r' ∧ r.Finite ∧ r'.Finite ∧
      r.val = 2 ^ (f.p + 1) ∧ r'.val = 2 ^ (f.p + 1) + 4 := by
  have h8 : (8 : ℝ) ≤ 2 ^ (f.p + 1) := by
    have : (2 : ℝ) ^ 3 ≤ 2 ^ (f.p + 1) := pow_le_pow_right₀ (by norm_num) (by omega)
    linarith
  have h4p : (4 : ℤ) ≤ 2 ^ f.p := by
    have : (2 : ℤ) ^ 2 ≤ 2 ^ f.p := pow_le_pow_right₀ (by norm_num) hp
    linarith
  have hL : (2 : ℝ) ^ (f.p + 1) = ((2 ^ f.p : ℤ) : ℝ) * 2 ^ (1 : ℤ) := by
    push_cast; rw [pow_succ, zpow_one]
  have repL : f.Rep (2 ^ (f.p + 1)) := ⟨2 ^ f.p, 1, by omega, by rw [abs_of_nonneg (by positivity)], hL⟩
  have repn : ∀ n : ℤ, |n| ≤ 4 → f.Rep n := fun n hn => ⟨n, 0, he, by omega, by simp⟩
  have rep1 : f.Rep 1 := by simpa using repn 1 (by decide)
  have rep2 : f.Rep 2 := by simpa using repn 2 (by decide)
  have rep3 : f.Rep 3 := by simpa using repn 3 (by decide)
  have hlog : ∀ y : ℝ, 2 ^ (f.p + 1) ≤ y → y < 2 ^ (f.p + 2) → f.lastPlace y = 2 := by
    intro y h1 h2
    have hy : 0 < y := by linarith
    have e1 : ((f.p + 1 : ℕ) : ℤ) ≤ Int.log 2 |y| := by
      rw [abs_of_pos hy]
      refine (Int.zpow_le_iff_le_log (b := 2) (by norm_num) hy).1 ?_
      rw [zpow_natCast]; exact_mod_cast h1
    have e2 : Int.log 2 |y| < ((f.p + 2 : ℕ) : ℤ) := by
      rw [abs_of_pos hy]
      refine (Int.lt_zpow_iff_log_lt (b := 2) (by norm_num) hy).1 ?_
      rw [zpow_natCast]; exact_mod_cast h2
    unfold Format.lastPlace
    push_cast at e1 e2
    omega
  have hroundL : ∀ (y d : ℝ) (n : ℤ), y = 2 ^ (f.p + 1) + d → 0 ≤ d → d < 8 → |d / 4 - n| < 1 / 2 →
      f.round y = 2 ^ (f.p + 1) + 4 * n := by
    intro y d n hy h0 h1 h2
    obtain ⟨q, hq⟩ : ∃ q, f.p = q + 1 := ⟨f.p - 1, by omega⟩
    have hpp : (2 : ℝ) ^ (f.p + 1) = 4 * 2 ^ q := by rw [hq]; ring
    have hpp2 : (2 : ℝ) ^ (f.p + 2) = 8 * 2 ^ q := by rw [hq]; ring
    have hl := hlog y (by linarith) (by rw [hy]; linarith)
    unfold Format.round
    rw [hl]
    have e : y / (2 : ℝ) ^ (2 : ℤ) - ((2 ^ q + n : ℤ) : ℝ) = d / 4 - n := by
      rw [hy, hpp]; push_cast; norm_num; ring
    rw [f.rnd_eq (n := 2 ^ q + n) (by rw [e]; exact h2), hpp]
    push_cast
    norm_num
    ring
  have ofRep : ∀ y : ℝ, (h : f.Rep y) → |y| ≤ f.big → Format.Fp.of f y = .num y h := by
    intro y h hb
    unfold Format.Fp.of
    have e := f.round_of_rep h
    rw [if_pos (by rw [e]; exact hb)]
    congr 1
  have ofRound : ∀ (y z : ℝ) (h : f.Rep z), f.round y = z → |z| ≤ f.big → Format.Fp.of f y = .num z h := by
    intro y z h e hb
    subst e
    unfold Format.Fp.of
    rw [if_pos hb]
  have repL4 : f.Rep (2 ^ (f.p + 1) + 4) := by
    have := f.round_rep (2 ^ (f.p + 1) + 3)
    rw [hroundL _ 3 1 rfl (by norm_num) (by norm_num) (by norm_num [abs_lt])] at this
    simpa using this
  have bL : |(2 : ℝ) ^ (f.p + 1)| ≤ f.big := by rw [abs_of_nonneg (by linarith)]; linarith
  have bs : ∀ n : ℝ, 0 ≤ n → n ≤ 4 → |n| ≤ f.big := fun n h h' => by rw [abs_of_nonneg h]; linarith
  let L : Format.Fp f := .num (2 ^ (f.p + 1)) repL
  let one : Format.Fp f := .num 1 rep1
  have aL : L + one = L := by
    refine ofRound _ _ repL ?_ bL
    rw [hroundL _ 1 0 rfl (by norm_num) (by norm_num) (by norm_num [abs_lt])]
    simp
  have z0 : ∀ (y : ℝ) (h : f.Rep y), |y| ≤ f.big → (0 : Format.Fp f) + .num y h = .num y h := by
    intro y h hb
    show Format.Fp.of f (0 + y) = _
    rw [_root_.zero_add]
    exact ofRep y h hb
  have a11 : one + one = .num 2 rep2 := by
    show Format.Fp.of f (1 + 1) = _
    rw [show (1 : ℝ) + 1 = 2 by norm_num]
    exact ofRep 2 rep2 (bs 2 (by norm_num) (by norm_num))
  have a21 : (Format.Fp.num 2 rep2 : Format.Fp f) + one = .num 3 rep3 := by
    show Format.Fp.of f (2 + 1) = _
    rw [show (2 : ℝ) + 1 = 3 by norm_num]
    exact ofRep 3 rep3 (bs 3 (by norm_num) (by norm_num))
  have aL3 : L + .num 3 rep3 = .num (2 ^ (f.p + 1) + 4) repL4 := by
    refine ofRound _ _ repL4 ?_ (by rw [abs_of_nonneg (by linarith)]; exact hbig)
    rw [hroundL _ 3 1 rfl (by norm_num) (by norm_num) (by norm_num [abs_lt])]
    simp
  have z1 : (0 : Format.Fp f) + one = one := z0 1 rep1 (bs 1 (by norm_num) (by norm_num))
  have zL : (0 : Format.Fp f) + L = L := z0 _ repL bL
  have zL4 : (0 : Format.Fp f) + .num (2 ^ (f.p + 1) + 4) repL4 = .num (2 ^ (f.p + 1) + 4) repL4 :=
    z0 _ repL4 (by rw [abs_of_nonneg (by linarith)]; exact hbig)
  refine ⟨[L, one, one, one], .thread [0, 1, 2, 3], .node (.thread [0]) (.thread [1, 2, 3]), L,
    .num (2 ^ (f.p + 1) + 4) repL4, by unfold RTree.Legal RTree.iters; decide,
    by unfold RTree.Legal RTree.iters RTree.iters; decide, ?_, ?_, trivial, trivial, rfl, rfl⟩
  · show Res.ok (0 + ((((0 + L) + one) + one) + one)) = _
    rw [zL, aL, aL, aL, zL]
  · show Res.ok (0 + ((0 + L) + (((0 + one) + one) + one))) = _
    rw [zL, z1, a11, a21, aL3, zL4]

end Verif.Round
