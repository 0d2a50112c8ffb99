import Verif.Props.Round
import Mathlib.Algebra.Order.Round

/-!
C100, continued: the transposed product, exact cases, and the formats `float` and `double`.
-/

namespace Verif.Round

open Verif.Spec

section
variable {F : Type} [Zero F] [Add F] [Mul F]

/-- the result of `matvec_T` in any arithmetic -/
theorem matvecT_exact [One F] (A : Crs F) (hA : A.Safe) (x y : Win F)
    (hxs : x.size = A.rowN) (hys : y.size = A.colN) (hy : y.Ok) (xs : Nat → F)
    (hx : ∀ j, j < x.size → x.get j = .ok (xs j)) (zorder : List Nat) (ho : Order zorder A.colN) :
    ∃ y', A.matvecT zorder x y = .ok y' ∧ y.Updated y' ∧ ∀ j, j < A.colN →
      y'.get j = .ok ((A.entries.filter (fun e => e.2.1 == j)).foldl (fun acc e => acc + e.2.2 * xs e.1) 0) := by
  unfold Win.Ok at hy
  unfold Crs.matvecT Crs.matvecCore
  simp only [if_true]
  rw [cassert_decide hxs.symm, Res.ok_bind, cassert_decide hys.symm, Res.ok_bind]
  obtain ⟨r, hr, hl, h1, h2⟩ := forList_update zorder A.colN y.off (fun _ _ => (0 : F)) ho
    (body := fun i b => wr b (y.off + i) 0) y.buf (by omega) (by intros; rfl)
  rw [hr, Res.ok_bind]
  have hloop := hA.loop_sat (body := fun i j b => do
        let c ← rd A.colInd j
        let u ← rd b (y.off + c)
        let v ← rd A.val j
        let xv ← rd x.buf (x.off + i)
        wr b (y.off + c) (u + v * xv)) (s := r)
    (fun L b => b.length = y.buf.length ∧
      (∀ j, j < A.colN → b[y.off + j]? =
        some ((L.filter (fun e => e.2.1 == j)).foldl (fun acc e => acc + e.2.2 * xs e.1) 0)) ∧
      (∀ k, k < y.off ∨ y.off + A.colN ≤ k → b[k]? = y.buf[k]?))
    ⟨hl, by
      intro j hj
      simpa using h1 j _ hj (List.getElem?_eq_getElem (by omega)), h2⟩
    (by
      rintro L e R b k hE he hk ⟨hbl, hb1, hb2⟩
      have hcol := (Crs.pairs_col_lt hA hk).1
      obtain ⟨g1, g2⟩ := Crs.rd_col_of_pair hk
      have gx := hx e.1 (by omega)
      unfold Win.get at gx
      simp only [g1, Res.ok_bind, rd_of_getElem? (hb1 _ hcol), g2, gx]
      rw [wr_ok (by omega), Res.sat_ok]
      refine ⟨by simpa using hbl, ?_, ?_⟩
      · intro j hj
        rw [List.getElem?_set, List.filter_append, List.foldl_append]
        by_cases hje : e.2.1 = j
        · subst hje
          rw [if_pos rfl, if_pos (by omega)]
          simp
        · rw [if_neg (by omega), hb1 j hj]
          simp [hje]
      · intro k' hk'
        rw [List.getElem?_set, if_neg (by omega)]
        exact hb2 k' hk')
  obtain ⟨b, hb, hbl, hb1, hb2⟩ := hloop
  rw [hb, Res.ok_bind]
  refine ⟨_, rfl, ⟨rfl, rfl, hbl, fun k hk => hb2 k (by omega)⟩, ?_⟩
  intro j hj
  unfold Win.get
  rw [rd_eq_ok]
  exact hb1 j hj

/-- **C100, transposed CRS matrix-vector product**: column by column -/
theorem C100_matvec_T [One F] (R : Rounding F) (A : Crs F) (hA : A.Safe) (x y : Win F) (hxs : x.size = A.rowN)
    (hys : y.size = A.colN) (hy : y.Ok) (xs : Nat → F) (hx : ∀ j, j < x.size → x.get j = .ok (xs j))
    (zorder : List Nat) (ho : Order zorder A.colN) :
    ∃ y', A.matvecT zorder x y = .ok y' ∧ y.Updated y' ∧ ∀ j, j < A.colN → ∃ r, y'.get j = .ok r ∧
      (R.Finite r → ∀ E, E = A.entries.filter (fun e => e.2.1 == j) →
        |R.val r - (E.map (fun e => R.val e.2.2 * R.val (xs e.1))).sum| ≤
          ((1 + R.u) ^ E.length - 1) * (E.map (fun e => |R.val e.2.2 * R.val (xs e.1)|)).sum
            + (1 + R.u) ^ (E.length - 1) * (E.length * R.η)) := by
  obtain ⟨y', h1, h2, h3⟩ := matvecT_exact A hA x y hxs hys hy xs hx zorder ho
  refine ⟨y', h1, h2, fun i hi => ⟨_, h3 i hi, fun hfin E hE => ?_⟩⟩
  subst hE
  obtain ⟨_, g2, g3⟩ := foldl_app (R := R) (f := fun e : Nat × Nat × F => e.2.2 * xs e.1) hfin
  have := near_dot (R := R) g2 (by simpa using (g3 [] App.zero).near)
  unfold NearDot at this
  rwa [List.map_map, List.length_map] at this

end

/-! ### Small integers are added exactly -/

section
variable {f : Format}

theorem rep_int (he : f.emin ≤ 0) {n : ℤ} (h : |n| ≤ 2 ^ f.p) : f.Rep n := ⟨n, 0, he, h, by simp⟩

/-- the integer `n` in the format -/
noncomputable def ofInt (he : f.emin ≤ 0) (n : ℤ) : Format.Fp f :=
  if h : |n| ≤ 2 ^ f.p then .num n (rep_int he h) else .other

theorem ofInt_num (he : f.emin ≤ 0) {n : ℤ} (h : |n| ≤ 2 ^ f.p) : ofInt he n = .num n (rep_int he h) := by
  unfold ofInt; rw [dif_pos h]

theorem of_int (he : f.emin ≤ 0) (hbig : (2 : ℝ) ^ f.p ≤ f.big) {n : ℤ} (h : |n| ≤ 2 ^ f.p) :
    Format.Fp.of f n = ofInt he n := by
  have hr := rep_int he h
  have e := f.round_of_rep hr
  rw [ofInt_num he h]
  unfold Format.Fp.of
  have hb : |f.round (n : ℝ)| ≤ f.big := by
    rw [e, ← Int.cast_abs]
    have : ((|n| : ℤ) : ℝ) ≤ ((2 ^ f.p : ℤ) : ℝ) := by exact_mod_cast h
    push_cast at this ⊢
    linarith
  rw [if_pos hb]
  congr 1

theorem ofInt_add (he : f.emin ≤ 0) (hbig : (2 : ℝ) ^ f.p ≤ f.big) {a b : ℤ} (h : |a| + |b| ≤ 2 ^ f.p) :
    ofInt he a + ofInt he b = (ofInt he (a + b) : Format.Fp f) := by
  have ha := abs_nonneg a
  have hb := abs_nonneg b
  rw [ofInt_num he (n := a) (by linarith), ofInt_num he (n := b) (by linarith), Format.Fp.add_num,
    ← Int.cast_add]
  exact of_int he hbig ((abs_add_le _ _).trans h)

theorem ofInt_mul (he : f.emin ≤ 0) (hbig : (2 : ℝ) ^ f.p ≤ f.big) {a b : ℤ} (ha : |a| ≤ 2 ^ f.p)
    (hb : |b| ≤ 2 ^ f.p) (h : |a * b| ≤ 2 ^ f.p) :
    ofInt he a * ofInt he b = (ofInt he (a * b) : Format.Fp f) := by
  rw [ofInt_num he ha, ofInt_num he hb, Format.Fp.mul_num, ← Int.cast_mul]
  exact of_int he hbig h

theorem ofInt_zero (he : f.emin ≤ 0) : ofInt he 0 = (0 : Format.Fp f) := by
  rw [ofInt_num he (n := 0) (by simp)]
  show Format.Fp.num _ _ = Format.Fp.num _ _
  congr 1
  simp

theorem abs_isum_le (L : List ℤ) : |L.sum| ≤ (L.map abs).sum := by
  induction L with
  | nil => simp
  | cons a L ih =>
    simp only [List.sum_cons, List.map_cons]
    exact (abs_add_le _ _).trans (by linarith)

theorem abs_isum_nonneg (L : List ℤ) : 0 ≤ (L.map abs).sum := (abs_nonneg _).trans (abs_isum_le L)

theorem forList_int (he : f.emin ≤ 0) (hbig : (2 : ℝ) ^ f.p ≤ f.big) {n : Nat → ℤ}
    {body : Nat → Format.Fp f → Res (Format.Fp f)} (l : List Nat)
    (hb : ∀ i ∈ l, ∀ acc, body i acc = .ok (acc + ofInt he (n i))) (a : ℤ)
    (h : |a| + ((l.map n).map abs).sum ≤ 2 ^ f.p) :
    forList l body (ofInt he a) = .ok (ofInt he (a + (l.map n).sum)) := by
  induction l generalizing a with
  | nil => simp [forList]
  | cons i l ih =>
    unfold forList
    simp only [List.map_cons, List.sum_cons] at h ⊢
    have hn := abs_isum_nonneg (l.map n)
    rw [hb i List.mem_cons_self, Res.ok_bind, ofInt_add he hbig (by linarith),
      ih (fun j hj => hb j (List.mem_cons_of_mem _ hj)), add_assoc]
    have := abs_add_le a (n i)
    linarith

theorem eval_int (he : f.emin ≤ 0) (hbig : (2 : ℝ) ^ f.p ≤ f.big) {n : Nat → ℤ}
    {body : Nat → Format.Fp f → Res (Format.Fp f)} (t : RTree)
    (hb : ∀ i ∈ t.iters, ∀ acc, body i acc = .ok (acc + ofInt he (n i)))
    (h : ((t.iters.map n).map abs).sum ≤ 2 ^ f.p) :
    t.eval 0 (· + ·) body = .ok (ofInt he ((t.iters.map n).sum)) := by
  induction t with
  | thread l =>
    unfold RTree.eval
    rw [← ofInt_zero he, forList_int he hbig l hb 0 (by simpa [RTree.iters] using h)]
    simp [RTree.iters]
  | node l r ihl ihr =>
    simp only [RTree.iters, List.map_append, List.sum_append] at h ⊢
    have h1 := abs_isum_nonneg (l.iters.map n)
    have h2 := abs_isum_nonneg (r.iters.map n)
    unfold RTree.eval
    rw [ihl (fun i hi => hb i (List.mem_append_left _ hi)) (by linarith), Res.ok_bind,
      ihr (fun i hi => hb i (List.mem_append_right _ hi)) (by linarith), Res.ok_bind]
    have a1 := abs_isum_le (l.iters.map n)
    have a2 := abs_isum_le (r.iters.map n)
    rw [ofInt_add he hbig (by linarith)]

theorem reduction_int (he : f.emin ≤ 0) (hbig : (2 : ℝ) ^ f.p ≤ f.big) {n : Nat → ℤ}
    {body : Nat → Format.Fp f → Res (Format.Fp f)} {t : RTree} {N : Nat} (ht : t.Legal N)
    (hb : ∀ i, i < N → ∀ acc, body i acc = .ok (acc + ofInt he (n i)))
    (h : ∑ i ∈ Finset.range N, |n i| ≤ 2 ^ f.p) :
    reduction t 0 0 (· + ·) body = .ok (ofInt he (∑ i ∈ Finset.range N, n i)) := by
  have hp : ((t.iters.map n).map abs).sum ≤ 2 ^ f.p := by
    rw [((ht.map n).map abs).sum_eq, List.map_map]
    exact h
  have e : (t.iters.map n).sum = ∑ i ∈ Finset.range N, n i := (ht.map n).sum_eq
  unfold reduction
  rw [eval_int he hbig t (fun i hi => hb i (by simpa using ht.mem_iff.mp hi)) hp, Res.ok_bind, e]
  have h2 : |(0 : ℤ)| + |∑ i ∈ Finset.range N, n i| ≤ 2 ^ f.p := by
    have := abs_isum_le (t.iters.map n)
    rw [e] at this
    simpa using this.trans hp
  have := ofInt_add he hbig h2
  rw [ofInt_zero, _root_.zero_add] at this
  exact congrArg Res.ok this

/-- the value `a` of the format is the integer `n` -/
def IsInt (a : Format.Fp f) (n : ℤ) : Prop := a.Finite ∧ a.val = n

theorem isInt_ofInt (he : f.emin ≤ 0) {n : ℤ} (h : |n| ≤ 2 ^ f.p) : IsInt (ofInt he n : Format.Fp f) n := by
  rw [ofInt_num he h]; exact ⟨trivial, rfl⟩

theorem IsInt.eq (he : f.emin ≤ 0) {a : Format.Fp f} {n : ℤ} (h : IsInt a n) (hn : |n| ≤ 2 ^ f.p) :
    a = ofInt he n := by
  rw [ofInt_num he hn]
  cases a with
  | other => exact h.1.elim
  | num x hx =>
    have : x = n := h.2
    subst this
    rfl

/-- **C100, integers, sum**: if the numbers are integers whose absolute values sum up to at most `2^p` (2^53 in
`double`), `sum` is exact for every number of threads, distribution and order. -/
theorem C100_integer_sum (he : f.emin ≤ 0) (hbig : (2 : ℝ) ^ f.p ≤ f.big) (t : RTree) (N : Nat) (ht : t.Legal N)
    (x : List (Format.Fp f)) (off : Nat) (n : Nat → ℤ)
    (hx : ∀ i, i < N → ∃ a, x[off + i]? = some a ∧ IsInt a (n i))
    (h : ∑ i ∈ Finset.range N, |n i| ≤ 2 ^ f.p) :
    ∃ r, sumCore t x off = .ok r ∧ IsInt r (∑ i ∈ Finset.range N, n i) := by
  have hn : ∀ i, i < N → |n i| ≤ 2 ^ f.p := fun i hi =>
    (Finset.single_le_sum (f := fun i => |n i|) (fun j _ => abs_nonneg (n j)) (Finset.mem_range.2 hi)).trans h
  refine ⟨_, reduction_int he hbig ht (n := n) ?_ h, isInt_ofInt he ((Finset.abs_sum_le_sum_abs _ _).trans h)⟩
  intro i hi acc
  obtain ⟨a, ha, hia⟩ := hx i hi
  rw [rd_of_getElem? ha, Res.ok_bind, hia.eq he (hn i hi)]

/-- **C100, integers, dot** -/
theorem C100_integer_dot (he : f.emin ≤ 0) (hbig : (2 : ℝ) ^ f.p ≤ f.big) (t : RTree) (N : Nat) (ht : t.Legal N)
    (x : List (Format.Fp f)) (ox : Nat) (y : List (Format.Fp f)) (oy : Nat) (n m : Nat → ℤ)
    (hx : ∀ i, i < N → ∃ a, x[ox + i]? = some a ∧ IsInt a (n i) ∧ |n i| ≤ 2 ^ f.p)
    (hy : ∀ i, i < N → ∃ a, y[oy + i]? = some a ∧ IsInt a (m i) ∧ |m i| ≤ 2 ^ f.p)
    (h : ∑ i ∈ Finset.range N, |n i * m i| ≤ 2 ^ f.p) :
    ∃ r, dotCore t x ox N y oy N = .ok r ∧ IsInt r (∑ i ∈ Finset.range N, n i * m i) := by
  have hn : ∀ i, i < N → |n i * m i| ≤ 2 ^ f.p := fun i hi =>
    (Finset.single_le_sum (f := fun i => |n i * m i|) (fun j _ => abs_nonneg (n j * m j))
      (Finset.mem_range.2 hi)).trans h
  refine ⟨_, ?_, isInt_ofInt he ((Finset.abs_sum_le_sum_abs _ _).trans h)⟩
  unfold dotCore
  rw [cassert_decide rfl, Res.ok_bind]
  refine reduction_int he hbig ht (n := fun i => n i * m i) ?_ h
  intro i hi acc
  obtain ⟨a, ha, hia, ha'⟩ := hx i hi
  obtain ⟨b, hb, hib, hb'⟩ := hy i hi
  rw [rd_of_getElem? ha, Res.ok_bind, rd_of_getElem? hb, Res.ok_bind, hia.eq he ha', hib.eq he hb',
    ofInt_mul he hbig ha' hb' (hn i hi)]

end

/-! ### `double` and `float` -/

/-- **C100, formats**: the arithmetic of every binary format (round to nearest, any rule for ties, gradual
underflow, overflow to infinity) is an arithmetic to which the bounds apply, with unit roundoff `2^-p` and
underflow error `2^(emin-1)` -/
theorem C100_ieee (f : Format) : ∃ R : Rounding (Format.Fp f), R.val = Format.Fp.val ∧
    R.Finite = Format.Fp.Finite ∧ R.u = (2 : ℝ) ^ (-(f.p : ℤ)) ∧ R.η = (2 : ℝ) ^ (f.emin - 1) :=
  ⟨f.rounding, rfl, rfl, rfl, rfl⟩

theorem double_big : (2 : ℝ) ^ 60 ≤ 2 ^ 1024 - 2 ^ 971 := by
  have h1 : (2 : ℝ) ^ 971 ≤ 2 ^ 1023 := pow_le_pow_right₀ (by norm_num) (by norm_num)
  have h2 : (2 : ℝ) ^ 60 ≤ 2 ^ 1023 := pow_le_pow_right₀ (by norm_num) (by norm_num)
  have h3 : (2 : ℝ) ^ 1024 = 2 * 2 ^ 1023 := pow_succ' 2 1023
  rw [h3]
  generalize (2 : ℝ) ^ 1023 = a at *
  generalize (2 : ℝ) ^ 971 = b at *
  generalize (2 : ℝ) ^ 60 = c at *
  linarith

/-- `double`; ties are rounded up here (the theorems hold for every rule) -/
noncomputable def double : Format where
  p := 53
  p_pos := by norm_num
  emin := -1074
  big := 2 ^ 1024 - 2 ^ 971
  big_nonneg := le_trans (by norm_num) double_big
  rnd := _root_.round
  rnd_near := fun x => by rw [abs_sub_comm]; exact abs_sub_round x

/-- `float` -/
noncomputable def single : Format where
  p := 24
  p_pos := by norm_num
  emin := -149
  big := 2 ^ 128 - 2 ^ 104
  big_nonneg := by norm_num
  rnd := _root_.round
  rnd_near := fun x => by rw [abs_sub_comm]; exact abs_sub_round x

/-- `C100_sum` for `double`: three numbers, two threads; `u = 2^-53` -/
example (a b c : Format.Fp double) : ∃ r, sumCore (.node (.thread [2, 0]) (.thread [1])) [a, b, c] 0 = .ok r ∧
    (r.Finite → |r.val - (a.val + b.val + c.val)| ≤
      ((1 + (2 : ℝ) ^ (-53 : ℤ)) ^ 2 - 1) * (|a.val| + |b.val| + |c.val|)) := by
  obtain ⟨r, h1, h2⟩ := C100_sum double.rounding (.node (.thread [2, 0]) (.thread [1])) 3
    (by unfold RTree.Legal RTree.iters RTree.iters; decide) [a, b, c] 0 (fun i => [a, b, c].getD i 0)
    (by intro i hi; match i, hi with | 0, _ => rfl | 1, _ => rfl | 2, _ => rfl)
  refine ⟨r, h1, fun hr => ?_⟩
  have := h2 hr
  have e : (double.rounding.u : ℝ) = (2 : ℝ) ^ (-53 : ℤ) := by simp [Format.rounding, double]
  rw [e] at this
  simp only [Finset.sum_range_succ, Finset.sum_range_zero, zero_add] at this
  exact this

/-- `C100_reproducible_violated` applies to `double` and `float` -/
example : 2 ≤ double.p ∧ double.emin ≤ 0 ∧ (2 : ℝ) ^ (double.p + 1) + 4 ≤ double.big :=
  ⟨by unfold double; norm_num, by unfold double; norm_num, le_trans (by unfold double; norm_num) double_big⟩

example : 2 ≤ single.p ∧ single.emin ≤ 0 ∧ (2 : ℝ) ^ (single.p + 1) + 4 ≤ single.big := by
  unfold single; norm_num

/-- `C100_integer_sum` applies to `double` -/
example : double.emin ≤ 0 ∧ (2 : ℝ) ^ double.p ≤ double.big :=
  ⟨by unfold double; norm_num, le_trans (by unfold double; norm_num) double_big⟩

end Verif.Round
