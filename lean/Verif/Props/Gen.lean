import Verif.Lemmas.Gen
import Mathlib.Algebra.Ring.Int.Defs

/-!
C26: every matrix generator returns exactly the documented matrix.

`IsMatrix A M N S f` (Spec/GenSpec.lean) says which positions are stored (`S`), with which value (`f`);
`C26_at` turns it into the value returned by `at(i, j)`. Sizes are those of a C++ `int`.
-/

namespace Verif
namespace Gen

open Spec

variable {α : Type}

/-- one more than the largest C++ `int` -/
local notation "intMax" => 2147483648

/-- What the description of a generated matrix means for `at`. -/
theorem C26_at [Zero α] {A : Coo α} {M N : Nat} {S : Nat → Nat → Prop} {f : Nat → Nat → α}
    [∀ i j, Decidable (S i j)] (h : IsMatrix A M N S f) {i j : Nat} (hi : i < M) (hj : j < N) :
    A.at_ i j = .ok (if S i j then f i j else 0) := h.at_ hi hj

/-- `eye(M)`: ones on the diagonal, nothing else. -/
theorem C26_eye [Ring α] (M : Nat) (hM : M < intMax) :
    ∃ A : Coo α, eye M = .ok A ∧ IsMatrix A M M (fun i j => i = j) (fun _ _ => 1) := by
  unfold eye
  obtain ⟨A, hA, h⟩ := forN_sat (fun i (A : Coo α) => Built A M M (fun i j => i = j) (fun _ _ => 1) i 0)
    (n := M) (body := fun i A => insertI A i i 1) (s := Coo.new M M) Built.new (by
      intro i A hi h
      refine (h.insert (j' := i) (by omega) (by omega) rfl rfl hi hi rfl rfl (by omega)
        (by omega)).mono ?_
      intro A' h'
      exact h'.newRow (by omega) (by omega))
  exact ⟨A, hA, h.done⟩

/-- `frank_matrix(M)`: element `(i, j)` is `M - max(i, j)`. -/
theorem C26_frank [Ring α] (M : Nat) (hM : M < intMax) :
    ∃ A : Coo α, frank M = .ok A ∧
      IsMatrix A M M (fun _ _ => True) (fun i j => ((M - max i j : Nat) : α)) := by
  unfold frank
  obtain ⟨A, hA, h⟩ := forN_sat (fun i (A : Coo α) => Built A M M (fun _ _ => True)
      (fun i j => ((M - max i j : Nat) : α)) i 0)
    (n := M) (s := Coo.new M M) (body := fun i A =>
      forN M (fun j A => insertI A i j (((M : Int) - max (i : Int) (j : Int) : Int) : α)) A)
    Built.new (by
      intro i A hi h
      refine (forN_sat (fun j (A : Coo α) => Built A M M (fun _ _ => True)
        (fun i j => ((M - max i j : Nat) : α)) i j) h ?_).mono ?_
      · intro j A hj h
        refine h.insert (Nat.le_refl _) (by omega) trivial ?_ hi hj rfl rfl (by omega) (by omega)
        have : ((M : Int) - max (i : Int) (j : Int)) = ((M - max i j : Nat) : Int) := by omega
        rw [this, Int.cast_natCast]
      · intro A' h'
        exact h'.newRow (by omega) (by omega))
  exact ⟨A, hA, h.done⟩

/-- The two band generators share their loops; `g i j` is what the body inserts, if not zero. -/
theorem band_loops [Ring α] [DecidableEq α] {M N W : Nat} {g : Nat → Nat → α}
    {body : Nat → Nat → Coo α → Res (Coo α)}
    (hb : ∀ i j A, body i j A = if g i j ≠ 0 then insertI A i j (g i j) else .ok A)
    (hM : M < intMax) (hN : N < intMax) :
    ∃ A : Coo α, forN M (fun i A => forRange (bandStart W i) (bandEnd N W i) (body i) A)
        (Coo.new M N) = .ok A ∧
      IsMatrix A M N (fun i j => InBand W i j ∧ g i j ≠ 0) g := by
  have key := forN_sat (fun i (A : Coo α) => Built A M N (fun i j => InBand W i j ∧ g i j ≠ 0) g i 0)
    (n := M) (s := Coo.new M N)
    (body := fun i A => forRange (bandStart W i) (bandEnd N W i) (body i) A)
    Built.new (by
      intro i A hi h
      by_cases hle : bandStart W i ≤ bandEnd N W i
      · refine (forRange_sat (fun j (A : Coo α) => Built A M N
          (fun i j => InBand W i j ∧ g i j ≠ 0) g i j) hle
          (h.skip (Nat.zero_le _) ?_) ?_).mono ?_
        · rintro k - hk ⟨⟨h1, h2⟩, -⟩
          unfold bandStart at hk
          split at hk <;> omega
        · intro j A h1 h2 h
          have hb' : InBand W i j ∧ j < N := by
            unfold bandStart at h1
            unfold bandEnd at h2
            unfold InBand
            split at h1 <;> split at h2 <;> omega
          rw [hb]
          split
          · next hc =>
            exact h.insert (Nat.le_refl _) (by omega) ⟨hb'.1, hc⟩ rfl hi hb'.2 rfl rfl (by omega) (by omega)
          · next hc =>
            refine Res.Sat.ok (h.skip (Nat.le_succ j) ?_)
            intro k hk1 hk2
            have : k = j := by omega
            subst this
            rintro ⟨-, h5⟩
            exact hc h5
        · intro A' h'
          have hend : bandEnd N W i ≤ N := by unfold bandEnd; split <;> omega
          refine h'.newRow hend ?_
          rintro k hk1 hk2 ⟨⟨h1, h2⟩, -⟩
          unfold bandEnd at hk1
          split at hk1 <;> omega
      · rw [forRange_empty _ _ (by omega)]
        refine Res.Sat.ok (h.newRow (Nat.zero_le _) ?_)
        rintro k - hk2 ⟨⟨h1, h2⟩, -⟩
        apply hle
        unfold bandStart bandEnd
        split <;> split <;> omega)
  obtain ⟨A, hA, h⟩ := key
  exact ⟨A, hA, h.done⟩

/-- `asym_band_matrix(M, N, W, diag, U, L)`: inside the band the diagonal holds `diag`, the part above
it `U`, the part below it `L`; values equal to zero are not stored. -/
theorem C26_asym_band [Ring α] [DecidableEq α] (M N W : Nat) (d u l : α) (hW : W < N)
    (hM : M < intMax) (hN : N < intMax) :
    ∃ A : Coo α, asymBand M N W d u l = .ok A ∧
      IsMatrix A M N
        (fun i j => InBand W i j ∧ (if i = j then d else if i < j then u else l) ≠ 0)
        (fun i j => if i = j then d else if i < j then u else l) := by
  unfold asymBand
  rw [if_neg (by omega)]
  refine band_loops (fun i j A => ?_) hM hN
  rcases Nat.lt_trichotomy i j with h | h | h
  · have : i ≠ j := by omega
    have h' : ¬ i > j := by omega
    simp [this, h, h']
  · subst h; simp
  · have : i ≠ j := by omega
    have h' : ¬ i < j := by omega
    simp [this, h, h']

/-- `band_matrix(M, N, W, diag, val)` for all values: a zero `diag` is replaced by `val`. -/
theorem C26_band_actual [Ring α] [DecidableEq α] (M N W : Nat) (d v : α) (hW : W < N)
    (hM : M < intMax) (hN : N < intMax) :
    ∃ A : Coo α, band M N W d v = .ok A ∧
      IsMatrix A M N
        (fun i j => InBand W i j ∧ (if i = j ∧ d ≠ 0 then d else v) ≠ 0)
        (fun i j => if i = j ∧ d ≠ 0 then d else v) := by
  unfold band
  rw [if_neg (by omega)]
  refine band_loops (fun i j A => ?_) hM hN
  by_cases h : i = j ∧ d ≠ 0
  · simp [h]
  · simp [h]

/-- `band_matrix(M, N, W, diag, val)` as documented: inside the band the diagonal holds `diag` and the
rest `val`. For `diag = 0` with `val ≠ 0` it is false (`C26_band_zero_diag_violated`). -/
theorem C26_band [Ring α] [DecidableEq α] (M N W : Nat) (d v : α) (hW : W < N)
    (hM : M < intMax) (hN : N < intMax) (hd : d ≠ 0 ∨ v = 0) :
    ∃ A : Coo α, band M N W d v = .ok A ∧
      IsMatrix A M N (fun i j => InBand W i j ∧ (if i = j then d else v) ≠ 0)
        (fun i j => if i = j then d else v) := by
  obtain ⟨A, hA, h⟩ := C26_band_actual M N W d v hW hM hN
  have e : (fun i j : Nat => if i = j ∧ d ≠ 0 then d else v) = fun i j => if i = j then d else v := by
    funext i j
    by_cases h0 : d = 0
    · have : v = 0 := by rcases hd with h1 | h1; exact absurd h0 h1; exact h1
      simp [h0, this]
    · simp [h0]
  refine ⟨A, hA, h.wf, h.rows, h.cols, h.order, fun i j w => ?_⟩
  have e' := congrFun (congrFun e i) j
  rw [h.stored, e']

/-- With a zero diagonal value and a non-zero band value, every diagonal element of `band_matrix` is
the band value instead of the documented zero. -/
theorem C26_band_zero_diag_violated [Ring α] [DecidableEq α] (M N W : Nat) (v : α) (hW : W < N)
    (hM : M < intMax) (hN : N < intMax) (hv : v ≠ 0) :
    ∃ A : Coo α, band M N W 0 v = .ok A ∧
      ∀ i, i < M → i < N → A.at_ i i = .ok v ∧ A.at_ i i ≠ .ok 0 := by
  obtain ⟨A, hA, h⟩ := C26_band_actual M N W 0 v hW hM hN
  refine ⟨A, hA, fun i hi hj => ?_⟩
  have hat := h.at_ hi hj
  have hb : InBand W i i := ⟨by omega, by omega⟩
  simp only [hb, hv, ne_eq, not_true_eq_false, and_false, if_false, not_false_eq_true, and_self,
    if_true] at hat
  rw [hat]
  exact ⟨rfl, fun h' => hv (by injection h')⟩

/-- `band_matrix` and `asym_band_matrix` refuse exactly a half width of at least the number of
columns. -/
theorem C26_band_reject [Ring α] [DecidableEq α] (M N W : Nat) (d u l : α)
    (hM : M < intMax) (hN : N < intMax) :
    ((∃ e, band M N W d u = .throw e) ↔ N ≤ W) ∧ ((∃ e, asymBand M N W d u l = .throw e) ↔ N ≤ W) := by
  by_cases h : N ≤ W
  · simp [band, asymBand, h]
  · obtain ⟨A, hA, -⟩ := C26_band_actual M N W d u (by omega) hM hN
    obtain ⟨B, hB, -⟩ := C26_asym_band M N W d u l (by omega) hM hN
    rw [hA, hB]
    simp [h]

/-! ### Tridiagonal, Laplacian, Toeplitz-plus-Hankel -/

/-- `tridiagonal_toeplitz_matrix(M, a, b)` for `M ≥ 2`: `a` on the diagonal, `b` next to it. -/
theorem C26_tridiagonal [Ring α] (M : Nat) (a b : α) (h2 : 2 ≤ M) (hM : M < intMax) :
    ∃ A : Coo α, tridiagonal M a b = .ok A ∧
      IsMatrix A M M (InBand 1) (fun i j => if i = j then a else b) := by
  have key : (tridiagonal M a b).Sat
      (fun A => Built A M M (InBand 1) (fun i j => if i = j then a else b) M 0) := by
    unfold tridiagonal
    have h0 := Built.new (M := M) (N := M) (S := InBand 1) (f := fun i j => if i = j then a else b)
    refine Res.Sat.bind (h0.insert (j' := 0) (by omega) (by omega) ⟨by omega, by omega⟩ (by simp)
      (by omega) (by omega) rfl rfl (by omega) (by omega)) fun A h => ?_
    refine Res.Sat.bind (h.insert (j' := 1) (by omega) (by omega) ⟨by omega, by omega⟩ (by simp)
      (by omega) (by omega) rfl rfl (by omega) (by omega)) fun A h => ?_
    have h := h.newRow (by omega) (by rintro k h1 h2 ⟨h3, h4⟩; omega)
    refine Res.Sat.bind (forRange_sat (fun i (A : Coo α) => Built A M M (InBand 1)
      (fun i j => if i = j then a else b) i 0) (by omega) h ?_) fun A h => ?_
    · intro i A h1 h2 h
      refine Res.Sat.bind (h.insert (j' := i - 1) (by omega)
        (by rintro k - h4 ⟨h5, h6⟩; omega) ⟨by omega, by omega⟩
        (by rw [if_neg (by omega)]) (by omega) (by omega) rfl (by omega) (by omega) (by omega)) fun A h => ?_
      refine Res.Sat.bind (h.insert (j' := i) (by omega)
        (by rintro k h3 h4 ⟨h5, h6⟩; omega) ⟨by omega, by omega⟩
        (by rw [if_pos rfl]) (by omega) (by omega) rfl rfl (by omega) (by omega)) fun A h => ?_
      refine (h.insert (j' := i + 1) (by omega)
        (by rintro k h3 h4 ⟨h5, h6⟩; omega) ⟨by omega, by omega⟩
        (by rw [if_neg (by omega)]) (by omega) (by omega) rfl (by omega) (by omega) (by omega)).mono
        fun A h => ?_
      exact h.newRow (by omega) (by rintro k h3 h4 ⟨h5, h6⟩; omega)
    · refine Res.Sat.bind (h.insert (j' := M - 2) (by omega)
        (by rintro k h3 h4 ⟨h5, h6⟩; omega) ⟨by omega, by omega⟩
        (by rw [if_neg (by omega)]) (by omega) (by omega) (by omega) (by omega) (by omega) (by omega))
        fun A h => ?_
      refine (h.insert (j' := M - 1) (by omega)
        (by rintro k h3 h4 ⟨h5, h6⟩; omega) ⟨by omega, by omega⟩
        (by rw [if_pos rfl]) (by omega) (by omega) (by omega) (by omega) (by omega) (by omega)).mono
        fun A h => ?_
      have := h.newRow (by omega) (by rintro k h3 h4 ⟨h5, h6⟩; omega)
      rwa [show M - 1 + 1 = M by omega] at this
  obtain ⟨A, hA, h⟩ := key
  exact ⟨A, hA, h.done⟩

/-- `laplacian_matrix_1D(M)` for `M ≥ 2`: `2` on the diagonal, `-1` next to it. -/
theorem C26_laplacian_1D [Ring α] (M : Nat) (h2 : 2 ≤ M) (hM : M < intMax) :
    ∃ A : Coo α, laplacian1D M = .ok A ∧
      IsMatrix A M M (InBand 1) (fun i j => if i = j then 2 else -1) := by
  have := C26_tridiagonal (α := α) M 2 (-1) h2 hM
  simpa [laplacian1D] using this

/-- Neighbours of a grid point in terms of its number. -/
theorem grid_iff {m p q : Nat} (hm : 0 < m) : GridNeighbours m p q ↔
    (q + m = p) ∨ (q + 1 = p ∧ 0 < p % m) ∨ (q = p + 1 ∧ p % m + 1 < m) ∨ q = p + m := by
  unfold GridNeighbours
  have hp := Nat.div_add_mod p m
  have hq := Nat.div_add_mod q m
  have hp' := Nat.mod_lt p hm
  have hq' := Nat.mod_lt q hm
  constructor
  · rintro (⟨h1, h2 | h2⟩ | ⟨h1, h2 | h2⟩)
    · rw [← h1] at hq
      right; right; left; omega
    · rw [← h1] at hq
      right; left; omega
    · rw [← h2, Nat.mul_add, ← h1] at hq
      right; right; right; omega
    · rw [← h2, Nat.mul_add, h1] at hp
      left; omega
  · rintro (h | ⟨h, h0⟩ | ⟨h, h0⟩ | h)
    · right
      subst h
      simp [Nat.add_div_right _ hm]
    · left
      have h1 : p / m = q / m := by
        have h2 : m * (p / m) + (p % m - 1) = q := by omega
        have h3 := Nat.mul_add_div hm (p / m) (p % m - 1)
        rw [Nat.div_eq_of_lt (show p % m - 1 < m by omega), h2] at h3
        omega
      refine ⟨h1, .inr ?_⟩
      rw [h1] at hp; omega
    · left
      have h1 : p / m = q / m := by
        have h2 : m * (p / m) + (p % m + 1) = q := by omega
        have h3 := Nat.mul_add_div hm (p / m) (p % m + 1)
        rw [Nat.div_eq_of_lt (show p % m + 1 < m by omega), h2] at h3
        omega
      refine ⟨h1, .inl ?_⟩
      rw [h1] at hp; omega
    · right
      subst h
      simp [Nat.add_div_right _ hm]

theorem Built.insertIf [Zero α] {A : Coo α} {M N : Nat} {S : Nat → Nat → Prop} {f : Nat → Nat → α}
    {i j j' : Nat} {zi zj : Int} {v : α} {c : Bool} (next : Nat)
    (h : Built A M N S f i j)
    (hc : c = true → j ≤ j' ∧ (∀ k, j ≤ k → k < j' → ¬ S i k) ∧ S i j' ∧ v = f i j' ∧ j' < N ∧ zj = j' ∧
      j' + 1 ≤ next ∧ ∀ k, j' + 1 ≤ k → k < next → ¬ S i k)
    (hc' : c = false → j ≤ next ∧ ∀ k, j ≤ k → k < next → ¬ S i k)
    (hi : i < M) (zi_eq : zi = i) (hM : M < 18446744073709551616)
    (hN : N < 18446744073709551616) :
    (Gen.insertIf c A zi zj v).Sat (fun A' => Built A' M N S f i next) := by
  unfold Gen.insertIf
  cases c with
  | true =>
    obtain ⟨h0, hs, h1, h2, h3, h4, h5, h6⟩ := hc rfl
    exact (h.insert h0 hs h1 h2 hi h3 zi_eq h4 hM hN).mono fun A' h' => h'.skip h5 h6
  | false => exact Res.Sat.ok (h.skip (hc' rfl).1 (hc' rfl).2)

/-- `laplacian_matrix_2D_5p(m, n)`: the five-point Laplacian of the grid of `n` rows of `m` points
numbered row by row: `4` on the diagonal, `-1` for neighbouring points, nothing else. -/
theorem C26_laplacian_2D [Ring α] (m n : Nat) (hM : m * n < intMax) :
    ∃ A : Coo α, laplacian2D m n = .ok A ∧
      IsMatrix A (m * n) (m * n) (fun p q => p = q ∨ GridNeighbours m p q)
        (fun p q => if p = q then 4 else -1) := by
  have key : (laplacian2D m n).Sat (fun A : Coo α => Built A (m * n) (m * n)
      (fun p q => p = q ∨ GridNeighbours m p q) (fun p q => if p = q then 4 else -1) (m * n) 0) := by
    unfold laplacian2D
    refine forN_sat (fun p (A : Coo α) => Built A (m * n) (m * n)
      (fun p q => p = q ∨ GridNeighbours m p q) (fun p q => if p = q then 4 else -1) p 0) Built.new ?_
    intro p A hp h
    have hm : 0 < m := by
      rcases Nat.eq_zero_or_pos m with h0 | h0
      · subst h0; simp at hp
      · exact h0
    have hj : ((p : Int) - (p / m : Nat) * m) = ((p % m : Nat) : Int) := by
      have : ((p % m + m * (p / m) : Nat) : Int) = (p : Int) := by rw [Nat.mod_add_div]
      push_cast at this ⊢
      rw [mul_comm] at this
      omega
    have hdm := Nat.div_add_mod p m
    have hlt := Nat.mod_lt p hm
    have hi0 : p / m > 0 ↔ m ≤ p := by rw [gt_iff_lt, Nat.div_pos_iff]; simp [hm]
    have hin : p / m + 1 < n ↔ p + m < m * n := by
      rw [← Nat.add_div_right p hm, Nat.div_lt_iff_lt_mul hm, Nat.mul_comm]
    have hpm : 0 < p % m → 1 ≤ p := fun h => by
      have := Nat.mod_le p m
      omega
    have hright : p % m + 1 < m → p + 1 < m * n := by
      intro h1
      have h2 : p / m < n := by rwa [Nat.div_lt_iff_lt_mul hm, Nat.mul_comm]
      have h3 : m * (p / m + 1) ≤ m * n := Nat.mul_le_mul_left _ h2
      rw [Nat.mul_add] at h3
      omega
    simp only [hj]
    have hS : ∀ q, (p = q ∨ GridNeighbours m p q) ↔ p = q ∨ (q + m = p) ∨ (q + 1 = p ∧ 0 < p % m) ∨
        (q = p + 1 ∧ p % m + 1 < m) ∨ q = p + m := fun q => by rw [grid_iff hm]
    refine Res.Sat.bind (h.insertIf (j' := p - m) (next := p + 1 - m) ?_ ?_ hp rfl (by omega) (by omega))
      fun A h => ?_
    · intro hc
      have hc : m ≤ p := by simpa [hi0] using hc
      refine ⟨by omega, ?_, ?_, ?_, by omega, by omega, by omega, by omega⟩
      · intro k _ h2; rw [hS]; omega
      · rw [hS]; omega
      · rw [if_neg (by omega)]
    · intro hc
      have hc : ¬ m ≤ p := fun h' => of_decide_eq_false hc (hi0.2 h')
      refine ⟨by omega, ?_⟩
      intro k _ h2; rw [hS]; omega
    refine Res.Sat.bind (h.insertIf (j' := p - 1) (next := p) ?_ ?_ hp rfl (by omega) (by omega))
      fun A h => ?_
    · intro hc
      have hc : 0 < p % m := by
        have := of_decide_eq_true hc
        omega
      have := hpm hc
      refine ⟨by omega, ?_, ?_, ?_, by omega, by omega, by omega, by omega⟩
      · intro k _ h2; rw [hS]; omega
      · rw [hS]; omega
      · rw [if_neg (by omega)]
    · intro hc
      have hc : ¬ 0 < p % m := by
        have := of_decide_eq_false hc
        omega
      refine ⟨by omega, ?_⟩
      intro k _ h2; rw [hS]; omega
    refine Res.Sat.bind (h.insert (j' := p) (by omega) (by omega) (.inl rfl) (by simp) hp hp rfl rfl
      (by omega) (by omega)) fun A h => ?_
    refine Res.Sat.bind (h.insertIf (j' := p + 1) (next := min (p + m) (m * n)) ?_ ?_ hp rfl (by omega)
      (by omega)) fun A h => ?_
    · intro hc
      have hc : p % m + 1 < m := by
        have := of_decide_eq_true hc
        omega
      have := hright hc
      refine ⟨by omega, ?_, ?_, ?_, by omega, by omega, by omega, ?_⟩
      · intro k _ h2; rw [hS]; omega
      · rw [hS]; omega
      · rw [if_neg (by omega)]
      · intro k _ h2; rw [hS]; omega
    · intro hc
      have hc : ¬ p % m + 1 < m := by
        have := of_decide_eq_false hc
        omega
      refine ⟨by omega, ?_⟩
      intro k _ h2; rw [hS]; omega
    refine (h.insertIf (j' := p + m) (next := m * n) ?_ ?_ hp rfl (by omega) (by omega)).mono
      fun A h => h.newRow (Nat.le_refl _) (by omega)
    · intro hc
      have hc : p + m < m * n := by
        have := of_decide_eq_true hc
        omega
      refine ⟨by omega, ?_, ?_, ?_, by omega, by omega, by omega, ?_⟩
      · intro k _ h2; rw [hS]; omega
      · rw [hS]; omega
      · rw [if_neg (by omega)]
      · intro k _ h2; rw [hS]; omega
    · intro hc
      have hc : ¬ p + m < m * n := by
        have := of_decide_eq_false hc
        omega
      refine ⟨by omega, ?_⟩
      intro k _ h2; rw [hS]; omega
  obtain ⟨A, hA, h⟩ := key
  exact ⟨A, hA, h.done⟩

/-- the documented pentadiagonal matrix: `a0` on the diagonal except `a0 - a2` in the first and the last
position, `a1` and `a2` on the next two diagonals -/
def thVal [Ring α] (M : Nat) (a0 a1 a2 : α) (i j : Nat) : α :=
  if i = j then (if i = 0 ∨ i = M - 1 then a0 - a2 else a0)
  else if i = j + 1 ∨ j = i + 1 then a1 else a2

/-- `toeplitz_plus_hankel_matrix(M, a0, a1, a2)` for `M ≥ 4`. -/
theorem C26_toeplitz_plus_hankel [Ring α] (M : Nat) (a0 a1 a2 : α) (h4 : 4 ≤ M) (hM : M < intMax) :
    ∃ A : Coo α, toeplitzHankel M a0 a1 a2 = .ok A ∧
      IsMatrix A M M (InBand 2) (thVal M a0 a1 a2) := by
  have key : (toeplitzHankel M a0 a1 a2).Sat
      (fun A => Built A M M (InBand 2) (thVal M a0 a1 a2) M 0) := by
    unfold toeplitzHankel
    have h := Built.new (M := M) (N := M) (S := InBand 2) (f := thVal M a0 a1 a2)
    refine Res.Sat.bind (h.insert (j' := 0) (by omega) (by rintro k h3 h4 ⟨h5, h6⟩; omega)
      ⟨by omega, by omega⟩ (by rw [thVal, if_pos rfl, if_pos (by omega)]) (by omega) (by omega)
      (by omega) (by omega) (by omega) (by omega)) fun A h => ?_
    refine Res.Sat.bind (h.insert (j' := 1) (by omega) (by rintro k h3 h4 ⟨h5, h6⟩; omega)
      ⟨by omega, by omega⟩ (by rw [thVal, if_neg (by omega), if_pos (by omega)]) (by omega) (by omega)
      (by omega) (by omega) (by omega) (by omega)) fun A h => ?_
    refine Res.Sat.bind (h.insert (j' := 2) (by omega) (by rintro k h3 h4 ⟨h5, h6⟩; omega)
      ⟨by omega, by omega⟩ (by rw [thVal, if_neg (by omega), if_neg (by omega)]) (by omega) (by omega)
      (by omega) (by omega) (by omega) (by omega)) fun A h => ?_
    have h := h.newRow (by omega) (by rintro k h1 h2 ⟨h3, h4⟩; omega)
    refine Res.Sat.bind (h.insert (j' := 0) (by omega) (by rintro k h3 h4 ⟨h5, h6⟩; omega)
      ⟨by omega, by omega⟩ (by rw [thVal, if_neg (by omega), if_pos (by omega)]) (by omega) (by omega)
      (by omega) (by omega) (by omega) (by omega)) fun A h => ?_
    refine Res.Sat.bind (h.insert (j' := 1) (by omega) (by rintro k h3 h4 ⟨h5, h6⟩; omega)
      ⟨by omega, by omega⟩ (by rw [thVal, if_pos rfl, if_neg (by omega)]) (by omega) (by omega)
      (by omega) (by omega) (by omega) (by omega)) fun A h => ?_
    refine Res.Sat.bind (h.insert (j' := 2) (by omega) (by rintro k h3 h4 ⟨h5, h6⟩; omega)
      ⟨by omega, by omega⟩ (by rw [thVal, if_neg (by omega), if_pos (by omega)]) (by omega) (by omega)
      (by omega) (by omega) (by omega) (by omega)) fun A h => ?_
    refine Res.Sat.bind (h.insert (j' := 3) (by omega) (by rintro k h3 h4 ⟨h5, h6⟩; omega)
      ⟨by omega, by omega⟩ (by rw [thVal, if_neg (by omega), if_neg (by omega)]) (by omega) (by omega)
      (by omega) (by omega) (by omega) (by omega)) fun A h => ?_
    have h := h.newRow (by omega) (by rintro k h1 h2 ⟨h3, h4⟩; omega)
    refine Res.Sat.bind (forRange_sat (fun i (A : Coo α) => Built A M M (InBand 2)
      (thVal M a0 a1 a2) i 0) (by omega) h ?_) fun A h => ?_
    · intro i A h1 h2 h
      refine Res.Sat.bind (h.insert (j' := i - 2) (by omega) (by rintro k h3 h4 ⟨h5, h6⟩; omega)
        ⟨by omega, by omega⟩ (by rw [thVal, if_neg (by omega), if_neg (by omega)]) (by omega) (by omega)
        (by omega) (by omega) (by omega) (by omega)) fun A h => ?_
      refine Res.Sat.bind (h.insert (j' := i - 1) (by omega) (by rintro k h3 h4 ⟨h5, h6⟩; omega)
        ⟨by omega, by omega⟩ (by rw [thVal, if_neg (by omega), if_pos (by omega)]) (by omega) (by omega)
        (by omega) (by omega) (by omega) (by omega)) fun A h => ?_
      refine Res.Sat.bind (h.insert (j' := i) (by omega) (by rintro k h3 h4 ⟨h5, h6⟩; omega)
        ⟨by omega, by omega⟩ (by rw [thVal, if_pos rfl, if_neg (by omega)]) (by omega) (by omega)
        (by omega) (by omega) (by omega) (by omega)) fun A h => ?_
      refine Res.Sat.bind (h.insert (j' := i + 1) (by omega) (by rintro k h3 h4 ⟨h5, h6⟩; omega)
        ⟨by omega, by omega⟩ (by rw [thVal, if_neg (by omega), if_pos (by omega)]) (by omega) (by omega)
        (by omega) (by omega) (by omega) (by omega)) fun A h => ?_
      refine (h.insert (j' := i + 2) (by omega) (by rintro k h3 h4 ⟨h5, h6⟩; omega)
        ⟨by omega, by omega⟩ (by rw [thVal, if_neg (by omega), if_neg (by omega)]) (by omega) (by omega)
        (by omega) (by omega) (by omega) (by omega)).mono fun A h => ?_
      exact h.newRow (by omega) (by rintro k h3 h4 ⟨h5, h6⟩; omega)
    refine Res.Sat.bind (h.insert (j' := M - 4) (by omega) (by rintro k h3 h4 ⟨h5, h6⟩; omega)
      ⟨by omega, by omega⟩ (by rw [thVal, if_neg (by omega), if_neg (by omega)]) (by omega) (by omega)
      (by omega) (by omega) (by omega) (by omega)) fun A h => ?_
    refine Res.Sat.bind (h.insert (j' := M - 3) (by omega) (by rintro k h3 h4 ⟨h5, h6⟩; omega)
      ⟨by omega, by omega⟩ (by rw [thVal, if_neg (by omega), if_pos (by omega)]) (by omega) (by omega)
      (by omega) (by omega) (by omega) (by omega)) fun A h => ?_
    refine Res.Sat.bind (h.insert (j' := M - 2) (by omega) (by rintro k h3 h4 ⟨h5, h6⟩; omega)
      ⟨by omega, by omega⟩ (by rw [thVal, if_pos rfl, if_neg (by omega)]) (by omega) (by omega)
      (by omega) (by omega) (by omega) (by omega)) fun A h => ?_
    refine Res.Sat.bind (h.insert (j' := M - 1) (by omega) (by rintro k h3 h4 ⟨h5, h6⟩; omega)
      ⟨by omega, by omega⟩ (by rw [thVal, if_neg (by omega), if_pos (by omega)]) (by omega) (by omega)
      (by omega) (by omega) (by omega) (by omega)) fun A h => ?_
    have h := h.newRow (by omega) (by rintro k h1 h2 ⟨h3, h4⟩; omega)
    rw [show M - 2 + 1 = M - 1 by omega] at h
    refine Res.Sat.bind (h.insert (j' := M - 3) (by omega) (by rintro k h3 h4 ⟨h5, h6⟩; omega)
      ⟨by omega, by omega⟩ (by rw [thVal, if_neg (by omega), if_neg (by omega)]) (by omega) (by omega)
      (by omega) (by omega) (by omega) (by omega)) fun A h => ?_
    refine Res.Sat.bind (h.insert (j' := M - 2) (by omega) (by rintro k h3 h4 ⟨h5, h6⟩; omega)
      ⟨by omega, by omega⟩ (by rw [thVal, if_neg (by omega), if_pos (by omega)]) (by omega) (by omega)
      (by omega) (by omega) (by omega) (by omega)) fun A h => ?_
    refine (h.insert (j' := M - 1) (by omega) (by rintro k h3 h4 ⟨h5, h6⟩; omega)
      ⟨by omega, by omega⟩ (by rw [thVal, if_pos rfl, if_pos (by omega)]) (by omega) (by omega)
      (by omega) (by omega) (by omega) (by omega)).mono fun A h => ?_
    have := h.newRow (by omega) (by rintro k h3 h4 ⟨h5, h6⟩; omega)
    rwa [show M - 1 + 1 = M by omega] at this
  obtain ⟨A, hA, h⟩ := key
  exact ⟨A, hA, h.done⟩

set_option maxRecDepth 4000 in
/-- Sizes below the documented minimum are refused by an assertion of `insert`, after positions
outside the matrix have been stored. -/
theorem C26_small_abort [Ring α] (a b a0 a1 a2 : α) :
    (∃ e, tridiagonal 0 a b = .abort e) ∧ (∃ e, tridiagonal 1 a b = .abort e) ∧
    ∀ M, M < 4 → ∃ e, toeplitzHankel M a0 a1 a2 = .abort e := by
  refine ⟨⟨_, rfl⟩, ⟨_, rfl⟩, fun M hM => ?_⟩
  match M, hM with
  | 0, _ => exact ⟨_, rfl⟩
  | 1, _ => exact ⟨_, rfl⟩
  | 2, _ =>
    refine ⟨"assert", ?_⟩
    simp [toeplitzHankel, insertI, toSize, Coo.insert, Coo.new, Coo.resize, reallocCopy, cassert, wr,
      stdResize, readN, bind, Res.bind, pure]
  | 3, _ =>
    refine ⟨"assert", ?_⟩
    simp [toeplitzHankel, insertI, toSize, Coo.insert, Coo.new, Coo.resize, reallocCopy, cassert, wr,
      forRange, stdResize, readN, bind, Res.bind, pure]

/-! Concrete cases (the hypotheses of the theorems above are met by them) -/

example : ∃ A : Coo Int, tridiagonal 3 7 5 = .ok A ∧ A.entries =
    [(0, 0, 7), (0, 1, 5), (1, 0, 5), (1, 1, 7), (1, 2, 5), (2, 1, 5), (2, 2, 7)] := ⟨_, rfl, rfl⟩

example : ∃ A : Coo Int, band 3 4 1 9 2 = .ok A ∧ A.entries =
    [(0, 0, 9), (0, 1, 2), (1, 0, 2), (1, 1, 9), (1, 2, 2), (2, 1, 2), (2, 2, 9), (2, 3, 2)] :=
  ⟨_, rfl, rfl⟩

example : ∃ A : Coo Int, laplacian2D 2 2 = .ok A ∧ A.entries =
    [(0, 0, 4), (0, 1, -1), (0, 2, -1), (1, 0, -1), (1, 1, 4), (1, 3, -1),
     (2, 0, -1), (2, 2, 4), (2, 3, -1), (3, 1, -1), (3, 2, -1), (3, 3, 4)] := ⟨_, rfl, rfl⟩

example : ∃ A : Coo Int, frank 2 = .ok A ∧ A.entries =
    [(0, 0, 2), (0, 1, 1), (1, 0, 1), (1, 1, 1)] := ⟨_, rfl, rfl⟩

/-- a band matrix without a documented zero diagonal: the diagonal is stored -/
example : ∃ A : Coo Int, band 2 2 1 0 2 = .ok A ∧ A.at_ 0 0 = .ok 2 := ⟨_, rfl, rfl⟩

end Gen
end Verif
