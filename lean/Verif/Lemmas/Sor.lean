import Verif.Model.Sor
import Verif.Spec.SorSpec
import Verif.Props.SolverMat
import Mathlib.Algebra.BigOperators.Fin

/-! The triangular kernels of the SOR solver. -/

set_option linter.unusedSectionVars false

namespace Verif.Solver

open Verif.Spec Matrix

variable {α K : Type} {n : Nat} [Field K] [LinearOrder K]

/-- forward substitution -/
def fwd (f : Nat → Nat → K) (d r : Nat → K) (i : Nat) : K :=
  (r i - ∑ j : Fin i, f i j * fwd f d r j) * d i
termination_by i
decreasing_by exact j.2

theorem lower_exists (A : Matrix (Fin n) (Fin n) K) (d r : Fin n → K) : ∃ t, LowerSolve A d r t := by
  refine ⟨fun i => fwd (fun i j => if h : i < n ∧ j < n then A ⟨i, h.1⟩ ⟨j, h.2⟩ else 0)
    (ext d) (ext r) i, fun i => ?_⟩
  dsimp only
  rw [fwd]
  have h1 : ext d i = d i := by simp [ext]
  have h2 : ext r i = r i := by simp [ext]
  rw [h1, h2]
  congr 2
  rw [Finset.sum_fin_eq_sum_range]
  set F := fwd (fun i j => if h : i < n ∧ j < n then A ⟨i, h.1⟩ ⟨j, h.2⟩ else 0) (ext d) (ext r) with hF
  have h3 : ∑ j : Fin n, strictLower A i j * F j =
      ∑ j ∈ Finset.range n, if h : j < n then strictLower A i ⟨j, h⟩ * F j else 0 := by
    rw [Finset.sum_fin_eq_sum_range]
  rw [h3]
  have hsub : Finset.range (i : Nat) ⊆ Finset.range n := by
    intro j hj; simp at hj ⊢; have := i.2; omega
  rw [← Finset.sum_subset hsub]
  · apply Finset.sum_congr rfl
    intro j hj
    have hj : j < (i : Nat) := by simpa using hj
    have hjn : j < n := by have := i.2; omega
    rw [dif_pos hj, dif_pos hjn, dif_pos ⟨i.2, hjn⟩]
    congr 1
    simp only [strictLower, Matrix.of_apply]
    rw [if_pos (by exact hj)]
  · intro j h4 h5
    have h4 : j < n := by simpa using h4
    have h5 : ¬ j < (i : Nat) := by simpa using h5
    rw [dif_pos h4]
    simp only [strictLower, Matrix.of_apply]
    rw [if_neg (by exact h5), zero_mul]

theorem strictLower_mulVec (A : Matrix (Fin n) (Fin n) K) (t : Fin n → K) (i : Fin n) :
    (strictLower A *ᵥ t) i = ∑ j, strictLower A i j * t j := rfl

/-- with `d = w / a_ii`, the triangular system is `(D/w + L) t = r` -/
theorem lowerSolve_iff {A : Matrix (Fin n) (Fin n) K} {w : K} (hw : w ≠ 0) (hd : ∀ i, A i i ≠ 0)
    (r t : Fin n → K) :
    LowerSolve A (fun i => 1 / (1 / w * A i i)) r t ↔
      (Matrix.diagonal (fun i => A i i / w) + strictLower A) *ᵥ t = r := by
  constructor
  · intro h
    funext i
    rw [Matrix.add_mulVec, Pi.add_apply, Matrix.mulVec_diagonal, strictLower_mulVec]
    have := h i
    have hdi := hd i
    rw [this]
    field_simp
    ring
  · intro h i
    have := congrFun h i
    rw [Matrix.add_mulVec, Pi.add_apply, Matrix.mulVec_diagonal, strictLower_mulVec] at this
    have hdi := hd i
    rw [← this]
    field_simp
    ring

/-- the first `m` elements are those of `t` -/
def Filled (ι : K → α) (t : Fin n → K) (m : Nat) (x : List α) : Prop :=
  x.length = n ∧ ∀ j, j < m → x[j]? = some (ι (ext t j))

theorem Filled.eq {ι : K → α} {t : Fin n → K} {x : List α} (h : Filled ι t n x) : x = vec ι t := by
  apply List.ext_getElem
  · rw [h.1, vec_length]
  · intro i h1 h2
    have hi : i < n := by rw [← h.1]; exact h1
    have := h.2 i hi
    rw [List.getElem?_eq_getElem h1] at this
    injection this with this
    rw [this]; simp [vec, ext, hi]

theorem rd_vec (ι : K → α) (v : Fin n → K) {i : Nat} (hi : i < n) :
    rd (vec ι v) i = .ok (ι (ext v i)) := by
  rw [rd_eq_ok, List.getElem?_eq_getElem (by rw [vec_length]; exact hi)]
  simp [vec, ext, hi]

theorem Filled.step {ι : K → α} {t : Fin n → K} {m : Nat} {x : List α} (h : Filled ι t m x)
    (hm : m < n) : (wr x m (ι (ext t m))).Sat (Filled ι t (m + 1)) := by
  rw [wr_ok (by rw [h.1]; exact hm), Res.sat_ok]
  refine ⟨by simp [h.1], fun j hj => ?_⟩
  rw [List.getElem?_set]
  by_cases hjm : m = j
  · subst hjm; simp [h.1, hm]
  · rw [if_neg hjm]; exact h.2 j (by omega)

theorem foldl_sub {N : Num α} {ι : K → α} {sq : K → K} (h : Exact N ι sq) (f : Nat → K)
    (L : List (Entry K)) (a : K) :
    L.foldl (fun tmp e => N.sub tmp (N.mul (ι e.2.2) (ι (f e.2.1)))) (ι a) =
      ι (a - (L.map (fun e => e.2.2 * f e.2.1)).sum) := by
  induction L generalizing a with
  | nil => simp
  | cons e L ih =>
    rw [List.foldl_cons, h.mul, h.sub, ih]
    congr 1
    simp only [List.map_cons, List.sum_cons]
    ring

theorem sum_filter_map (L : List (Entry K)) (p : Nat → Bool) (f : Nat → K) :
    ((L.filter (fun e => p e.2.1)).map (fun e => e.2.2 * f e.2.1)).sum =
      (L.map (fun e => e.2.2 * (if p e.2.1 then f e.2.1 else 0))).sum := by
  induction L with
  | nil => rfl
  | cons e L ih =>
    rw [List.filter_cons]
    by_cases he : p e.2.1 = true
    · rw [if_pos he]
      simp only [List.map_cons, List.sum_cons, ih, he, if_true]
    · rw [if_neg he]
      simp only [List.map_cons, List.sum_cons, ih]
      simp [he]

/-- the entries of row `i` left of the diagonal, times `t` -/
theorem row_lower_sum {A : Crs K} (hA : A.Safe) (hr : A.rowN = n) (hc : A.colN = n) (t : Fin n → K)
    (i : Fin n) :
    (((A.rowEntries i).filter (fun e => decide (e.2.1 < (i : Nat)))).map
      (fun e => e.2.2 * ext t e.2.1)).sum =
    ∑ j, strictLower (Matrix.of (fun i j : Fin n => crsAt A i j)) i j * t j := by
  have hi : (i : Nat) < A.rowN := by rw [hr]; exact i.2
  rw [sum_filter_map _ (fun c => decide (c < (i : Nat)))]
  rw [row_sum_eq (A.rowEntries i) i A.colN
    (fun c => if decide (c < (i : Nat)) = true then ext t c else 0) (A.rowEntries_fst i)
    (hA.rowEntries_col hi), hc, Finset.sum_range]
  apply Finset.sum_congr rfl
  intro j _
  rw [← A.sumAt_entries hi]
  simp only [strictLower, Matrix.of_apply, crsAt, decide_eq_true_eq, ext, Fin.is_lt, dite_true,
    Fin.eta]
  by_cases hji : j < i
  · rw [if_pos (show (j : Nat) < i from hji), if_pos hji]
  · rw [if_neg (show ¬ (j : Nat) < i from hji), if_neg hji]; ring

theorem row_upper_sum {A : Crs K} (hA : A.Safe) (hr : A.rowN = n) (hc : A.colN = n) (t : Fin n → K)
    (i : Fin n) :
    (((A.rowEntries i).filter (fun e => decide ((i : Nat) < e.2.1))).map
      (fun e => e.2.2 * ext t e.2.1)).sum =
    ∑ j, strictUpper (Matrix.of (fun i j : Fin n => crsAt A i j)) i j * t j := by
  have hi : (i : Nat) < A.rowN := by rw [hr]; exact i.2
  rw [sum_filter_map _ (fun c => decide ((i : Nat) < c))]
  rw [row_sum_eq (A.rowEntries i) i A.colN
    (fun c => if decide ((i : Nat) < c) = true then ext t c else 0) (A.rowEntries_fst i)
    (hA.rowEntries_col hi), hc, Finset.sum_range]
  apply Finset.sum_congr rfl
  intro j _
  rw [← A.sumAt_entries hi]
  simp only [strictUpper, Matrix.of_apply, crsAt, decide_eq_true_eq, ext, Fin.is_lt, dite_true,
    Fin.eta]
  by_cases hji : i < j
  · rw [if_pos (show (i : Nat) < j from hji), if_pos hji]
  · rw [if_neg (show ¬ (i : Nat) < j from hji), if_neg hji]; ring

/-- the inner loop with `break` -/
theorem crsLowerRow_eq (N : Num α) {A : Crs α} (hA : A.Safe) {i : Nat} (hi : i < A.rowN)
    {x : List α} {xf : Nat → α} (hx : ∀ c, c < i → x[c]? = some (xf c)) (m k : Nat)
    (hkm : k + m = (A.rowEntries i).length) (tmp : α) :
    crsLowerRow N A x i m (A.ptr i + k) tmp =
      .ok ((((A.rowEntries i).drop k).takeWhile (fun e => decide (e.2.1 < i))).foldl
        (fun tmp e => N.sub tmp (N.mul e.2.2 (xf e.2.1))) tmp) := by
  induction m generalizing k tmp with
  | zero =>
    rw [List.drop_of_length_le (by omega)]
    rfl
  | succ m ih =>
    have hk : k < (A.rowEntries i).length := by omega
    obtain ⟨_, he⟩ := hA.getElem_rowEntries hi (List.getElem?_eq_getElem hk)
    obtain ⟨h1, h2⟩ := Crs.rd_col_of_pair he
    rw [List.drop_eq_getElem_cons hk, List.takeWhile_cons, crsLowerRow]
    simp only [h1, Res.ok_bind]
    by_cases hc : (A.rowEntries i)[k].2.1 < i
    · rw [if_pos hc, if_pos (by simpa using hc)]
      simp only [h2, Res.ok_bind]
      rw [rd_of_getElem? (hx _ hc), Res.ok_bind]
      rw [show A.ptr i + k + 1 = A.ptr i + (k + 1) by omega, ih (k + 1) (by omega)]
      rfl
    · rw [if_neg hc, if_neg (by simpa using hc)]
      rfl

theorem takeWhile_sorted {L : List (Entry K)} (hs : (L.map (·.2.1)).Pairwise (· ≤ ·)) (i : Nat) :
    L.takeWhile (fun e => decide (e.2.1 < i)) = L.filter (fun e => decide (e.2.1 < i)) := by
  induction L with
  | nil => rfl
  | cons e L ih =>
    rw [List.map_cons, List.pairwise_cons] at hs
    rw [List.takeWhile_cons, List.filter_cons]
    by_cases he : e.2.1 < i
    · rw [if_pos (by simpa using he), if_pos (by simpa using he), ih hs.2]
    · rw [if_neg (by simpa using he), if_neg (by simpa using he)]
      symm
      rw [List.filter_eq_nil_iff]
      intro e' he'
      have := hs.1 e'.2.1 (List.mem_map_of_mem he')
      simp; omega

theorem Crs.crsMap_length_row (ι : K → α) (A : Crs K) (i : Nat) :
    ((crsMap ι A).rowEntries i).length = (A.rowEntries i).length := by
  rw [crsMap_rowEntries, List.length_map]

theorem takeWhile_map' {β γ : Type} (f : β → γ) (p : γ → Bool) (L : List β) :
    (L.map f).takeWhile p = (L.takeWhile (fun b => p (f b))).map f := by
  induction L with
  | nil => rfl
  | cons b L ih =>
    rw [List.map_cons, List.takeWhile_cons, List.takeWhile_cons]
    by_cases h : p (f b) = true
    · rw [if_pos h, if_pos h, ih]; rfl
    · rw [if_neg h, if_neg h]; rfl

/-- **CRS, lower triangular solve.** -/
theorem crsLower_exact {N : Num α} {ι : K → α} {sq : K → K} (h : Exact N ι sq) {A : Crs K}
    (hA : A.Safe) (hr : A.rowN = n) (hc : A.colN = n)
    (hs : ∀ i, i < n → ((A.rowEntries i).map (·.2.1)).Pairwise (· ≤ ·)) :
    IsLower (crsLower N (crsMap ι A)) ι (Matrix.of (fun i j : Fin n => crsAt A i j)) := by
  intro d r t t0 ht0 hsol
  have hA' := crsMap_safe ι hA
  have key : (crsLower N (crsMap ι A) (vec ι d) t0 (vec ι r)).Sat (Filled ι t n) := by
    unfold crsLower
    have hrow : (crsMap ι A).rowN = n := hr
    rw [hrow]
    refine forN_sat (fun m x => Filled ι t m x) ⟨ht0, fun j hj => absurd hj (by omega)⟩ ?_
    intro i x hi hx
    have hi' : i < (crsMap ι A).rowN := by rw [hrow]; exact hi
    rw [rd_vec ι r hi, Res.ok_bind, rd_ptr hA'.lenP (by omega), Res.ok_bind,
      rd_ptr hA'.lenP (by omega), Res.ok_bind]
    have hlen : (crsMap ι A).ptr (i + 1) - (crsMap ι A).ptr i = ((crsMap ι A).rowEntries i).length := by
      rw [hA'.length_rowEntries hi']
    rw [hlen]
    have := crsLowerRow_eq N hA' hi' (xf := fun c => ι (ext t c)) hx.2 _ 0 (Nat.zero_add _) (ι (ext r i))
    rw [Nat.add_zero, List.drop_zero] at this
    rw [this, Res.ok_bind, rd_vec ι d hi, Res.ok_bind]
    rw [crsMap_rowEntries, takeWhile_map', List.foldl_map]
    dsimp only
    rw [foldl_sub h, h.mul, takeWhile_sorted (hs i hi), row_lower_sum hA hr hc t ⟨i, hi⟩]
    have hti : (ext r i - ∑ j, strictLower (Matrix.of (fun i j : Fin n => crsAt A i j)) ⟨i, hi⟩ j * t j) *
        ext d i = ext t i := by
      have := hsol ⟨i, hi⟩
      simp only [ext, hi, dite_true]
      rw [this]
    rw [hti]
    exact hx.step hi
  obtain ⟨x, hx, hfill⟩ := key
  rw [hx, hfill.eq]

/-- **Dense, lower triangular solve.** -/
theorem denseLower_exact {N : Num α} {ι : K → α} {sq : K → K} (h : Exact N ι sq) {A : Dense α}
    (hr : A.rowN = n) (hc : A.colN = n) {M : Matrix (Fin n) (Fin n) K}
    (hM : ∀ i j : Fin n, A.val[(i : Nat) * n + j]? = some (ι (M i j))) :
    IsLower (denseLower N A) ι M := by
  intro d r t t0 ht0 hsol
  have key : (denseLower N A (vec ι d) t0 (vec ι r)).Sat (Filled ι t n) := by
    unfold denseLower
    rw [hr, hc]
    refine forN_sat (fun m x => Filled ι t m x) ⟨ht0, fun j hj => absurd hj (by omega)⟩ ?_
    intro i x hi hx
    rw [rd_vec ι r hi, Res.ok_bind]
    have hin : (forN i (fun j tmp => do
        let v ← rd A.val (i * n + j)
        let xv ← rd x j
        Res.ok (N.sub tmp (N.mul v xv))) (ι (ext r i))).Sat
        (fun tmp => tmp = ι (ext r i -
          ∑ j ∈ Finset.range i, (if hj : j < n then M ⟨i, hi⟩ ⟨j, hj⟩ * t ⟨j, hj⟩ else 0))) := by
      refine forN_sat (fun m tmp => tmp = ι (ext r i -
        ∑ j ∈ Finset.range m, (if hj : j < n then M ⟨i, hi⟩ ⟨j, hj⟩ * t ⟨j, hj⟩ else 0)))
        (by simp) ?_
      rintro j tmp hj rfl
      have hjn : j < n := by omega
      rw [rd_of_getElem? (hM ⟨i, hi⟩ ⟨j, hjn⟩), Res.ok_bind, rd_of_getElem? (hx.2 j hj), Res.ok_bind,
        Res.sat_ok, h.mul, h.sub, Finset.sum_range_succ, dif_pos hjn]
      congr 1
      simp only [ext, hjn, dite_true]
      ring
    obtain ⟨tmp, h1, h2⟩ := hin
    rw [h1, Res.ok_bind, rd_vec ι d hi, Res.ok_bind, h2, h.mul]
    have hti : (ext r i - ∑ j ∈ Finset.range i,
        (if hj : j < n then M ⟨i, hi⟩ ⟨j, hj⟩ * t ⟨j, hj⟩ else 0)) * ext d i = ext t i := by
      have := hsol ⟨i, hi⟩
      simp only [ext, hi, dite_true]
      rw [this]
      congr 2
      rw [Finset.sum_fin_eq_sum_range]
      have hsub : Finset.range i ⊆ Finset.range n := by
        intro j hj; simp at hj ⊢; omega
      rw [← Finset.sum_subset hsub]
      · apply Finset.sum_congr rfl
        intro j hj
        have hj : j < i := by simpa using hj
        have hjn : j < n := by omega
        rw [dif_pos hjn, dif_pos hjn]
        congr 1
        simp only [strictLower, Matrix.of_apply]
        rw [if_pos (by exact hj)]
      · intro j h4 h5
        have h4 : j < n := by simpa using h4
        have h5 : ¬ j < i := by simpa using h5
        rw [dif_pos h4]
        simp only [strictLower, Matrix.of_apply]
        rw [if_neg (by exact h5), zero_mul]
    rw [hti]
    exact hx.step hi
  obtain ⟨x, hx, hfill⟩ := key
  rw [hx, hfill.eq]

/-! ### The preconditioner kernel -/

theorem forDown_sat {σ : Type} {n : Nat} {body : Nat → σ → Res σ} {s : σ} (P : Nat → σ → Prop)
    (h0 : P n s) (hstep : ∀ i s, i < n → P (i + 1) s → (body i s).Sat (P i)) :
    (forDown n body s).Sat (P 0) := by
  induction n generalizing s with
  | zero => exact (Res.sat_ok).2 h0
  | succ n ih =>
    unfold forDown
    exact (hstep n s (by omega) h0).bind (fun s' hs' => ih hs' (fun i s hi => hstep i s (by omega)))

theorem foldl_sub_if {N : Num α} {ι : K → α} {sq : K → K} (h : Exact N ι sq) (f : Nat → K)
    (p : Nat → Prop) [DecidablePred p] (L : List (Entry K)) (a : K) :
    L.foldl (fun tmp e => if p e.2.1 then N.sub tmp (N.mul (ι e.2.2) (ι (f e.2.1))) else tmp) (ι a) =
      ι (a - ((L.filter (fun e => decide (p e.2.1))).map (fun e => e.2.2 * f e.2.1)).sum) := by
  induction L generalizing a with
  | nil => simp
  | cons e L ih =>
    rw [List.foldl_cons, List.filter_cons]
    by_cases hp : p e.2.1
    · rw [if_pos hp, if_pos (by simpa using hp), h.mul, h.sub, ih]
      congr 1
      simp only [List.map_cons, List.sum_cons]
      ring
    · rw [if_neg hp, if_neg (by simpa using hp), ih]

theorem foldl_add_if {N : Num α} {ι : K → α} {sq : K → K} (h : Exact N ι sq) (f : Nat → K)
    (p : Nat → Prop) [DecidablePred p] (L : List (Entry K)) (a : K) :
    L.foldl (fun tmp e => if p e.2.1 then N.add tmp (N.mul (ι e.2.2) (ι (f e.2.1))) else tmp) (ι a) =
      ι (a + ((L.filter (fun e => decide (p e.2.1))).map (fun e => e.2.2 * f e.2.1)).sum) := by
  induction L generalizing a with
  | nil => simp
  | cons e L ih =>
    rw [List.foldl_cons, List.filter_cons]
    by_cases hp : p e.2.1
    · rw [if_pos hp, if_pos (by simpa using hp), h.mul, h.add, ih]
      congr 1
      simp only [List.map_cons, List.sum_cons]
      ring
    · rw [if_neg hp, if_neg (by simpa using hp), ih]

theorem crsForward_exact {N : Num α} {ι : K → α} {sq : K → K} (h : Exact N ι sq) {A : Crs K}
    (hA : A.Safe) (hr : A.rowN = n) (hc : A.colN = n) :
    IsLower (crsForward N (crsMap ι A)) ι (Matrix.of (fun i j : Fin n => crsAt A i j)) := by
  intro d r t t0 ht0 hsol
  have hA' := crsMap_safe ι hA
  have key : (crsForward N (crsMap ι A) (vec ι d) t0 (vec ι r)).Sat (Filled ι t n) := by
    unfold crsForward
    have hrow : (crsMap ι A).rowN = n := hr
    rw [hrow]
    refine forN_sat (fun m x => Filled ι t m x) ⟨ht0, fun j hj => absurd hj (by omega)⟩ ?_
    intro i x hi hx
    have hi' : i < (crsMap ι A).rowN := by rw [hrow]; exact hi
    rw [rd_vec ι r hi, Res.ok_bind]
    rw [hA'.row_fold hi' (fun tmp e => if e.2.1 < i then
        N.sub tmp (N.mul e.2.2 (ι (ext t e.2.1))) else tmp) (ι (ext r i)) (by
      intro k p s hk hp
      obtain ⟨h1, h2⟩ := Crs.rd_col_of_pair hk
      simp only [h1, Res.ok_bind]
      by_cases hlt : p.1 < i
      · rw [if_pos hlt, if_pos hlt, h2, Res.ok_bind, rd_of_getElem? (hx.2 _ hlt), Res.ok_bind]
      · rw [if_neg hlt, if_neg hlt]), Res.ok_bind, rd_vec ι d hi, Res.ok_bind]
    rw [crsMap_rowEntries, List.foldl_map]
    dsimp only
    rw [foldl_sub_if h (ext t) (fun c => c < i), h.mul, row_lower_sum hA hr hc t ⟨i, hi⟩]
    have hti : (ext r i - ∑ j, strictLower (Matrix.of (fun i j : Fin n => crsAt A i j)) ⟨i, hi⟩ j * t j) *
        ext d i = ext t i := by
      have := hsol ⟨i, hi⟩
      simp only [ext, hi, dite_true]
      rw [this]
    rw [hti]
    exact hx.step hi
  obtain ⟨x, hx, hfill⟩ := key
  rw [hx, hfill.eq]

/-- backward substitution -/
def bwd (n : Nat) (f : Nat → Nat → K) (d y : Nat → K) (i : Nat) : K :=
  y i - (∑ j : Fin (n - (i + 1)), f i (i + 1 + j) * bwd n f d y (i + 1 + j)) * d i
termination_by n - i
decreasing_by have := j.2; omega

theorem upper_exists (A : Matrix (Fin n) (Fin n) K) (d y : Fin n → K) :
    ∃ s : Fin n → K, ∀ i, s i = y i - (∑ j, strictUpper A i j * s j) * d i := by
  refine ⟨fun i => bwd n (fun i j => if h : i < n ∧ j < n then A ⟨i, h.1⟩ ⟨j, h.2⟩ else 0)
    (ext d) (ext y) i, fun i => ?_⟩
  dsimp only
  rw [bwd]
  have h1 : ext d i = d i := by simp [ext]
  have h2 : ext y i = y i := by simp [ext]
  rw [h1, h2]
  congr 2
  set F := bwd n (fun i j => if h : i < n ∧ j < n then A ⟨i, h.1⟩ ⟨j, h.2⟩ else 0) (ext d) (ext y) with hF
  have hi := i.2
  have h3 : ∑ j : Fin n, strictUpper A i j * F j =
      ∑ j ∈ Finset.range n, if h : j < n then strictUpper A i ⟨j, h⟩ * F j else 0 := by
    rw [Finset.sum_fin_eq_sum_range]
  rw [h3, Finset.sum_fin_eq_sum_range]
  rw [← Finset.sum_range_add_sum_Ico _ (show (i : Nat) + 1 ≤ n by omega)]
  rw [Finset.sum_eq_zero (s := Finset.range ((i : Nat) + 1)), zero_add,
    Finset.sum_Ico_eq_sum_range]
  · apply Finset.sum_congr rfl
    intro j hj
    have hj : j < n - ((i : Nat) + 1) := by simpa using hj
    have hjn : (i : Nat) + 1 + j < n := by omega
    rw [dif_pos hj, dif_pos hjn, dif_pos ⟨i.2, hjn⟩]
    congr 1
    simp only [strictUpper, Matrix.of_apply]
    exact (if_pos (Fin.lt_def.2 (show (i : Nat) < i + 1 + j by omega))).symm
  · intro j hj
    have hj : j < (i : Nat) + 1 := by simpa using hj
    rw [dif_pos (show j < n by omega)]
    simp only [strictUpper, Matrix.of_apply]
    rw [if_neg (fun hlt => absurd (Fin.lt_def.1 hlt) (show ¬ (i : Nat) < j by omega)), zero_mul]

theorem crsBackward_exact {N : Num α} {ι : K → α} {sq : K → K} (h : Exact N ι sq) {A : Crs K}
    (hA : A.Safe) (hr : A.rowN = n) (hc : A.colN = n) (d y s : Fin n → K)
    (hs : ∀ i, s i = y i -
      (∑ j, strictUpper (Matrix.of (fun i j : Fin n => crsAt A i j)) i j * s j) * d i) :
    crsBackward N (crsMap ι A) (vec ι d) (vec ι y) = .ok (vec ι s) := by
  have hA' := crsMap_safe ι hA
  have key : (crsBackward N (crsMap ι A) (vec ι d) (vec ι y)).Sat (fun x => x.length = n ∧
      ∀ j, j < n → x[j]? = some (ι (if 0 ≤ j then ext s j else ext y j))) := by
    unfold crsBackward
    have hrow : (crsMap ι A).rowN = n := hr
    rw [hrow]
    refine forDown_sat (fun m (x : List α) => x.length = n ∧
      ∀ j, j < n → x[j]? = some (ι (if m ≤ j then ext s j else ext y j))) ?_ ?_
    · refine ⟨vec_length _ _, fun j hj => ?_⟩
      rw [if_neg (by omega)]
      exact rd_eq_ok.1 (rd_vec ι y hj)
    · rintro i x hi ⟨hxl, hx⟩
      have hi' : i < (crsMap ι A).rowN := by rw [hrow]; exact hi
      rw [hA'.row_fold hi' (fun tmp e => if i < e.2.1 then
          N.add tmp (N.mul e.2.2 (ι (ext s e.2.1))) else tmp) N.zero (by
        intro k p q hk hp
        obtain ⟨h1, h2⟩ := Crs.rd_col_of_pair hk
        simp only [h1, Res.ok_bind]
        by_cases hlt : i < p.1
        · have hxp := hx p.1 (by rw [← hc]; exact hp)
          rw [if_pos (by omega)] at hxp
          rw [if_pos hlt, if_pos hlt, h2, Res.ok_bind, rd_of_getElem? hxp, Res.ok_bind]
        · rw [if_neg hlt, if_neg hlt]), Res.ok_bind, rd_vec ι d hi, Res.ok_bind]
      have hxi := hx i hi
      rw [if_neg (by omega)] at hxi
      rw [rd_of_getElem? hxi, Res.ok_bind]
      rw [crsMap_rowEntries, List.foldl_map, h.zero]
      dsimp only
      rw [foldl_add_if h (ext s) (fun c => i < c), h.mul, h.sub, zero_add,
        row_upper_sum hA hr hc s ⟨i, hi⟩]
      have hsi : ext y i - (∑ j, strictUpper (Matrix.of (fun i j : Fin n => crsAt A i j)) ⟨i, hi⟩ j * s j) *
          ext d i = ext s i := by
        have := hs ⟨i, hi⟩
        simp only [ext, hi, dite_true]
        rw [this]
      rw [hsi, wr_ok (by rw [hxl]; exact hi), Res.sat_ok]
      refine ⟨by simp [hxl], fun j hj => ?_⟩
      rw [List.getElem?_set]
      by_cases hij : i = j
      · subst hij; simp [hxl, hi]
      · rw [if_neg hij, hx j hj]
        by_cases hle : i ≤ j
        · rw [if_pos hle, if_pos (by omega)]
        · rw [if_neg hle, if_neg (by omega)]
  obtain ⟨x, hx, hl, hfill⟩ := key
  rw [hx]
  congr 1
  exact Filled.eq ⟨hl, fun j hj => by simpa using hfill j hj⟩

end Verif.Solver
