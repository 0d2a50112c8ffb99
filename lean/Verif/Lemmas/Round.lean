import Verif.Spec.RoundSpec
import Verif.Model.Reduce
import Mathlib.Tactic.Linarith
import Mathlib.Tactic.Ring
import Mathlib.Tactic.Positivity
import Mathlib.Tactic.GCongr

/-!
Error analysis of sums in any order and grouping.
-/

namespace Verif.Round

open Verif.Spec

variable {F : Type} [Zero F] [Add F] [Mul F] (R : Rounding F)

/-- invariant of partial sums -/
structure App (L : List ℝ) (z : F) : Prop where
  empty : L = [] → R.val z = 0
  near : NearSum R L z

theorem abs_sum_le (L : List ℝ) : |L.sum| ≤ (L.map abs).sum := by
  induction L with
  | nil => simp
  | cons a L ih =>
    simp only [List.sum_cons, List.map_cons]
    exact (abs_add_le _ _).trans (by linarith)

theorem abs_sum_nonneg (L : List ℝ) : 0 ≤ (L.map abs).sum :=
  (abs_nonneg _).trans (abs_sum_le L)

variable {R}

theorem one_le_w : 1 ≤ 1 + R.u := by have := R.u_nonneg; linarith

theorem App.zero : App R [] 0 := by
  refine ⟨fun _ => R.zero_val, ?_⟩
  unfold NearSum
  simp [R.zero_val]

theorem App.single (z : F) : App R [R.val z] z := by
  refine ⟨fun h => by simp at h, ?_⟩
  unfold NearSum
  simp

theorem App.add {L M : List ℝ} {x y : F} (hx : App R L x) (hy : App R M y) (hf : R.Finite (x + y)) :
    App R (L ++ M) (x + y) := by
  by_cases hL : L = []
  · subst hL
    have e := R.zero_add x y hf (hx.empty rfl)
    refine ⟨fun h => ?_, ?_⟩
    · rw [e]; exact hy.empty (by simpa using h)
    · have := hy.near
      unfold NearSum at this ⊢
      rwa [e]
  by_cases hM : M = []
  · subst hM
    have e := R.add_zero x y hf (hy.empty rfl)
    refine ⟨fun h => absurd (by simpa using h) hL, ?_⟩
    have := hx.near
    unfold NearSum at this ⊢
    rw [e, List.append_nil]
    exact this
  refine ⟨fun h => absurd (List.append_eq_nil_iff.1 h).1 hL, ?_⟩
  have h1 := hx.near
  have h2 := hy.near
  have h3 := R.add_err x y hf
  unfold NearSum at h1 h2 ⊢
  have lL : 1 ≤ L.length := List.length_pos_iff.2 hL
  have lM : 1 ≤ M.length := List.length_pos_iff.2 hM
  obtain ⟨k, hk⟩ : ∃ k, L.length + M.length = k + 2 := ⟨L.length + M.length - 2, by omega⟩
  have hw : 1 ≤ 1 + R.u := one_le_w
  have hu := R.u_nonneg
  have p1 : (1 + R.u) ^ (L.length - 1) ≤ (1 + R.u) ^ k := pow_le_pow_right₀ hw (by omega)
  have p2 : (1 + R.u) ^ (M.length - 1) ≤ (1 + R.u) ^ k := pow_le_pow_right₀ hw (by omega)
  have a1 := abs_sum_nonneg L
  have a2 := abs_sum_nonneg M
  have s1 := abs_sum_le L
  have s2 := abs_sum_le M
  rw [List.length_append, hk, show k + 2 - 1 = k + 1 from rfl, List.sum_append, List.map_append, List.sum_append,
    pow_succ]
  generalize (L.map abs).sum = A at *
  generalize (M.map abs).sum = B at *
  generalize L.sum = S at *
  generalize M.sum = T at *
  generalize (1 + R.u) ^ k = W at *
  generalize (1 + R.u) ^ (L.length - 1) = W1 at *
  generalize (1 + R.u) ^ (M.length - 1) = W2 at *
  generalize R.val (x + y) = v at *
  generalize R.val x = vx at *
  generalize R.val y = vy at *
  generalize R.u = u at *
  have g1 : |vx - S| ≤ (W - 1) * A := h1.trans (by nlinarith)
  have g2 : |vy - T| ≤ (W - 1) * B := h2.trans (by nlinarith)
  have b1 : |vx| ≤ W * A := by
    have : |vx| ≤ |vx - S| + |S| := by simpa using abs_add_le (vx - S) S
    linarith
  have b2 : |vy| ≤ W * B := by
    have : |vy| ≤ |vy - T| + |T| := by simpa using abs_add_le (vy - T) T
    linarith
  have t : |v - (S + T)| ≤ |v - (vx + vy)| + |vx - S| + |vy - T| := by
    have e : v - (S + T) = (v - (vx + vy)) + ((vx - S) + (vy - T)) := by ring
    rw [e]
    have := abs_add_le (v - (vx + vy)) ((vx - S) + (vy - T))
    have := abs_add_le (vx - S) (vy - T)
    linarith
  have q : u * |vx + vy| ≤ u * (W * A + W * B) :=
    mul_le_mul_of_nonneg_left ((abs_add_le _ _).trans (by linarith)) hu
  calc |v - (S + T)| ≤ u * (W * A + W * B) + (W - 1) * A + (W - 1) * B := by linarith
    _ = (W * (1 + u) - 1) * (A + B) := by ring

/-- a loop that adds terms -/
theorem forList_app {f : Nat → F} {body : Nat → F → Res F} {l : List Nat}
    (hb : ∀ i ∈ l, ∀ acc, body i acc = .ok (acc + f i)) {acc z : F} (h : forList l body acc = .ok z)
    (hz : R.Finite z) :
    R.Finite acc ∧ (∀ i ∈ l, R.Finite (f i)) ∧
      ∀ L, App R L acc → App R (L ++ l.map (fun i => R.val (f i))) z := by
  induction l generalizing acc with
  | nil => cases h; exact ⟨hz, by simp, fun L hL => by simpa using hL⟩
  | cons i l ih =>
    unfold forList at h
    rw [hb i List.mem_cons_self, Res.ok_bind] at h
    obtain ⟨h1, h2, h3⟩ := ih (fun j hj => hb j (List.mem_cons_of_mem _ hj)) h
    have hf := R.add_finite _ _ h1
    refine ⟨hf.1, ?_, fun L hL => ?_⟩
    · intro j hj
      rcases List.mem_cons.1 hj with rfl | hj
      · exact hf.2
      · exact h2 j hj
    · have := h3 _ (hL.add (App.single (f i)) h1)
      simpa using this

theorem foldl_app {ι : Type} {f : ι → F} {l : List ι} {acc : F}
    (hz : R.Finite (l.foldl (fun a i => a + f i) acc)) :
    R.Finite acc ∧ (∀ i ∈ l, R.Finite (f i)) ∧
      ∀ L, App R L acc → App R (L ++ l.map (fun i => R.val (f i))) (l.foldl (fun a i => a + f i) acc) := by
  induction l generalizing acc with
  | nil => exact ⟨hz, by simp, fun L hL => by simpa using hL⟩
  | cons i l ih =>
    rw [List.foldl_cons] at hz ⊢
    obtain ⟨h1, h2, h3⟩ := ih hz
    have hf := R.add_finite _ _ h1
    refine ⟨hf.1, ?_, fun L hL => ?_⟩
    · intro j hj
      rcases List.mem_cons.1 hj with rfl | hj
      · exact hf.2
      · exact h2 j hj
    · have := h3 _ (hL.add (App.single (f i)) h1)
      simpa using this

theorem eval_app {f : Nat → F} {body : Nat → F → Res F} {t : RTree}
    (hb : ∀ i ∈ t.iters, ∀ acc, body i acc = .ok (acc + f i)) {z : F}
    (h : t.eval 0 (· + ·) body = .ok z) (hz : R.Finite z) :
    (∀ i ∈ t.iters, R.Finite (f i)) ∧ App R (t.iters.map (fun i => R.val (f i))) z := by
  induction t generalizing z with
  | thread l =>
    obtain ⟨_, h2, h3⟩ := forList_app hb h hz
    exact ⟨h2, by simpa using h3 [] App.zero⟩
  | node l r ihl ihr =>
    unfold RTree.eval at h
    obtain ⟨x, hx, h⟩ := Res.bind_eq_ok.1 h
    obtain ⟨y, hy, h⟩ := Res.bind_eq_ok.1 h
    cases h
    have hf := R.add_finite _ _ hz
    obtain ⟨l1, l2⟩ := ihl (fun i hi => hb i (List.mem_append_left _ hi)) hx hf.1
    obtain ⟨r1, r2⟩ := ihr (fun i hi => hb i (List.mem_append_right _ hi)) hy hf.2
    refine ⟨fun i hi => ?_, ?_⟩
    · rcases List.mem_append.1 hi with hi | hi
      · exact l1 i hi
      · exact r1 i hi
    · have := l2.add r2 hz
      rwa [← List.map_append] at this

theorem NearSum.perm {L M : List ℝ} (h : L.Perm M) {z : F} (hz : NearSum R L z) : NearSum R M z := by
  unfold NearSum at *
  rwa [h.sum_eq, h.length_eq, (h.map abs).sum_eq] at hz

theorem reduction_near {f : Nat → F} {body : Nat → F → Res F} {t : RTree} {N : Nat} (ht : t.Legal N)
    (hb : ∀ i, i < N → ∀ acc, body i acc = .ok (acc + f i)) {z : F}
    (h : reduction t 0 0 (· + ·) body = .ok z) (hz : R.Finite z) :
    (∀ i, i < N → R.Finite (f i)) ∧ NearSum R ((List.range N).map (fun i => R.val (f i))) z := by
  unfold reduction at h
  obtain ⟨x, hx, h⟩ := Res.bind_eq_ok.1 h
  cases h
  have hf := R.add_finite _ _ hz
  obtain ⟨h1, h2⟩ := eval_app (fun i hi => hb i (by simpa using ht.mem_iff.mp hi)) hx hf.2
  refine ⟨fun i hi => h1 i (ht.mem_iff.2 (by simpa using hi)), ?_⟩
  have := (App.zero.add h2 hz).near
  rw [List.nil_append] at this
  exact NearSum.perm (ht.map _) this

/-- sums of rounded products -/
theorem near_dot {ι : Type} {l : List ι} {a b : ι → F} (hf : ∀ i ∈ l, R.Finite (a i * b i)) {z : F}
    (h : NearSum R (l.map (fun i => R.val (a i * b i))) z) :
    NearDot R (l.map (fun i => R.val (a i) * R.val (b i))) z := by
  have key : |(l.map (fun i => R.val (a i * b i))).sum - (l.map (fun i => R.val (a i) * R.val (b i))).sum| ≤
      R.u * ((l.map (fun i => R.val (a i) * R.val (b i))).map abs).sum + l.length * R.η ∧
      ((l.map (fun i => R.val (a i * b i))).map abs).sum ≤
        (1 + R.u) * ((l.map (fun i => R.val (a i) * R.val (b i))).map abs).sum + l.length * R.η := by
    clear h
    induction l with
    | nil => simp
    | cons i l ih =>
      obtain ⟨i1, i2⟩ := ih (fun j hj => hf j (List.mem_cons_of_mem _ hj))
      have e := R.mul_err _ _ (hf i List.mem_cons_self)
      simp only [List.map_cons, List.sum_cons, List.length_cons, Nat.cast_add, Nat.cast_one]
      generalize R.val (a i * b i) = p at *
      generalize R.val (a i) * R.val (b i) = q at *
      generalize (l.map (fun i => R.val (a i * b i))).sum = S at *
      generalize (l.map (fun i => R.val (a i) * R.val (b i))).sum = T at *
      have hp : |p| ≤ |p - q| + |q| := by simpa using abs_add_le (p - q) q
      constructor
      · rw [show p + S - (q + T) = (p - q) + (S - T) by ring]
        have := abs_add_le (p - q) (S - T)
        linarith
      · linarith
  by_cases hl : l.length = 0
  · have : l = [] := List.eq_nil_of_length_eq_zero hl
    subst this
    unfold NearSum at h
    unfold NearDot
    simpa using h
  obtain ⟨k1, k2⟩ := key
  have hη := R.η_nonneg
  have hu := R.u_nonneg
  unfold NearSum at h
  unfold NearDot
  rw [List.length_map] at h ⊢
  have hA := abs_sum_nonneg (l.map (fun i => R.val (a i) * R.val (b i)))
  generalize (l.map (fun i => R.val (a i * b i))).sum = S at *
  generalize ((l.map (fun i => R.val (a i * b i))).map abs).sum = P at *
  generalize (l.map (fun i => R.val (a i) * R.val (b i))).sum = T at *
  generalize ((l.map (fun i => R.val (a i) * R.val (b i))).map abs).sum = A at *
  have hw : 1 ≤ (1 + R.u) ^ (l.length - 1) := one_le_pow₀ one_le_w
  have t : |R.val z - T| ≤ |R.val z - S| + |S - T| := by
    simpa using abs_add_le (R.val z - S) (S - T)
  have hn : (0 : ℝ) ≤ l.length * R.η := by positivity
  have e : (1 + R.u) ^ l.length = (1 + R.u) ^ (l.length - 1) * (1 + R.u) := by
    rw [← pow_succ]; congr 1; omega
  rw [e]
  generalize (1 + R.u) ^ (l.length - 1) = W at *
  generalize (l.length : ℝ) * R.η = N at *
  have := mul_le_mul_of_nonneg_left k2 (by linarith : 0 ≤ W - 1)
  calc |R.val z - T| ≤ (W - 1) * ((1 + R.u) * A + N) + (R.u * A + N) := by linarith
    _ = (W * (1 + R.u) - 1) * A + W * N := by ring

end Verif.Round
