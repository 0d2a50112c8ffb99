import Verif.Lemmas.Eig
import Verif.Model.GenEig

/-!
C60: the closed-form eigenvalue functions agree with the generated matrices (exact real arithmetic).
-/

namespace Verif
namespace Gen

open Spec Real

theorem elem_of {A : Coo ℝ} {M : Nat} {S : Nat → Nat → Prop} [∀ i j, Decidable (S i j)]
    {f : Nat → Nat → ℝ} (h : IsMatrix A M M S f) {i j : Nat} (hi : i < M) (hj : j < M) :
    elem A i j = if S i j then f i j else 0 := by
  unfold elem
  rw [h.at_ hi hj]

/-- the angle `π k / (M + 1)` -/
noncomputable def ang (M k : Nat) : ℝ := π * k / (M + 1)

theorem ang_sn {M k : Nat} : sn (ang M k) (M + 1) = 0 := by
  unfold sn ang
  have : (((M : Int) + 1 : Int) : ℝ) * (π * k / (M + 1)) = k * π := by
    push_cast
    have : (M : ℝ) + 1 ≠ 0 := by positivity
    field_simp
  rw [this]
  exact sin_nat_mul_pi k

theorem ang_pos {M k : Nat} (h1 : 1 ≤ k) : 0 < ang M k := by
  unfold ang
  have : (0 : ℝ) < k := by exact_mod_cast h1
  have := pi_pos
  positivity

theorem ang_lt {M k l : Nat} (h : k < l) : ang M k < ang M l := by
  unfold ang
  have h' : (k : ℝ) < l := by exact_mod_cast h
  have := pi_pos
  have : (0 : ℝ) < M + 1 := by positivity
  gcongr

theorem ang_lt_pi {M k : Nat} (h : k ≤ M) : ang M k < π := by
  have h1 : ang M (M + 1) = π := by
    unfold ang
    have : (M : ℝ) + 1 ≠ 0 := by positivity
    push_cast
    field_simp
  rw [← h1]
  exact ang_lt (by omega)

theorem ang_v_ne {M k : Nat} (h1 : 1 ≤ k) (h2 : k ≤ M) : sn (ang M k) ((0 : Nat) + 1) ≠ 0 := by
  unfold sn
  have : sin (ang M k) > 0 := sin_pos_of_pos_of_lt_pi (ang_pos h1) (ang_lt_pi h2)
  simp only [Nat.cast_zero, zero_add, Int.cast_one, one_mul]
  exact this.ne'

/-- every `M × M` pentadiagonal Toeplitz-plus-Hankel matrix has these eigenvalues -/
theorem penta_eig {M : Nat} (h2 : 2 ≤ M) (a0 a1 a2 : ℝ) {g : Nat → Nat → ℝ}
    (hg : ∀ i j, i < M → j < M → g i j = if InBand 2 i j then thVal M a0 a1 a2 i j else 0) (k : Nat)
    {i : Nat} (hi : i < M) :
    ∑ j ∈ Finset.range M, g i j * sn (ang M k) (j + 1) =
      (a0 + 2 * (a1 * cos (ang M k) + a2 * cos (2 * ang M k))) * sn (ang M k) (i + 1) := by
  rw [← penta_row h2 a0 a1 a2 ang_sn hi]
  exact Finset.sum_congr rfl fun j hj => by rw [hg i j hi (Finset.mem_range.1 hj)]

theorem tridiag_elem {A : Coo ℝ} {M : Nat} {a b : ℝ} (h2 : 2 ≤ M) (hM : M < 2147483648)
    (hA : tridiagonal M a b = .ok A) {i j : Nat} (hi : i < M) (hj : j < M) :
    elem A i j = if InBand 2 i j then thVal M a b 0 i j else 0 := by
  obtain ⟨A', hA', h⟩ := C26_tridiagonal M a b h2 hM
  rw [hA] at hA'
  cases hA'
  rw [elem_of h hi hj]
  unfold thVal
  by_cases h1 : i = j
  · rw [if_pos ⟨by omega, by omega⟩, if_pos h1, if_pos ⟨by omega, by omega⟩, if_pos h1]
    simp
  · by_cases h3 : i = j + 1 ∨ j = i + 1
    · rw [if_pos ⟨by omega, by omega⟩, if_neg h1, if_pos ⟨by omega, by omega⟩, if_neg h1, if_pos h3]
    · rw [if_neg (fun hh => by have := hh.1; have := hh.2; omega), if_neg h1, if_neg h3]
      simp

/-- the angle index used for eigenvalue `N`: from the other end when `b > 0` -/
noncomputable def angIdx (M N : Nat) (b : ℝ) : Nat := if 0 < b then M - N else N + 1

theorem tridiagonalEig_eq {M N : Nat} (hN : N < M) (a b : ℝ) :
    tridiagonalEig M N a b = a + 2 * (b * cos (ang M (angIdx M N b))) := by
  unfold tridiagonalEig angIdx
  split
  · next hb =>
    rw [abs_of_pos hb]
    have : ang M (M - N) = π - π * (((N : Int) : ℝ) + 1) / (((M : Int) : ℝ) + 1) := by
      unfold ang
      have h : (M : ℝ) + 1 ≠ 0 := by positivity
      rw [Nat.cast_sub hN.le]
      push_cast
      field_simp
      ring
    rw [this, cos_pi_sub]
    ring
  · next hb =>
    rw [abs_of_nonpos (not_lt.1 hb)]
    have : ang M (N + 1) = π * (((N : Int) : ℝ) + 1) / (((M : Int) : ℝ) + 1) := by
      unfold ang; push_cast; rfl
    rw [this]
    ring

/-- **C60, tridiagonal.** `tridiagonal_toeplitz_matrix_eigenvalue(M, N, a, b)`, `N = 0, ..., M - 1`, is
the `N`-th smallest eigenvalue of `tridiagonal_toeplitz_matrix(M, a, b)`: the values are exactly the
eigenvalues, in increasing order (strictly when `b ≠ 0`). -/
theorem C60_tridiagonal (M : Nat) (a b : ℝ) (h2 : 2 ≤ M) (hM : M < 2147483648) :
    ∃ A : Coo ℝ, tridiagonal M a b = .ok A ∧
      (∀ lam, IsEigenvalue M (elem A) lam ↔ ∃ N : Nat, N < M ∧ lam = tridiagonalEig M N a b) ∧
      (∀ N N' : Nat, N < N' → N' < M → tridiagonalEig M N a b ≤ tridiagonalEig M N' a b) ∧
      (b ≠ 0 → ∀ N N' : Nat, N < N' → N' < M → tridiagonalEig M N a b < tridiagonalEig M N' a b) := by
  obtain ⟨A, hA, h⟩ := C26_tridiagonal M a b h2 hM
  have hcos : ∀ N N' : Nat, N < N' → N' < M →
      cos (π * (((N' : Int) : ℝ) + 1) / (((M : Int) : ℝ) + 1)) <
        cos (π * (((N : Int) : ℝ) + 1) / (((M : Int) : ℝ) + 1)) := by
    intro N N' h1 h2
    have e : ∀ n : Nat, π * (((n : Int) : ℝ) + 1) / (((M : Int) : ℝ) + 1) = ang M (n + 1) := by
      intro n; unfold ang; push_cast; rfl
    rw [e, e]
    exact cos_lt_cos_of_nonneg_of_le_pi (ang_pos (by omega)).le (ang_lt_pi (by omega)).le (ang_lt (by omega))
  have hstrict : b ≠ 0 → ∀ N N' : Nat, N < N' → N' < M →
      tridiagonalEig M N a b < tridiagonalEig M N' a b := by
    intro hb N N' h1 h2
    have := hcos N N' h1 h2
    have hb' : 0 < |b| := abs_pos.2 hb
    unfold tridiagonalEig
    nlinarith
  have hval : ∀ N : Nat, N < M → IsEigenvalue M (elem A) (tridiagonalEig M N a b) := by
    intro N hN
    refine ⟨fun j => sn (ang M (angIdx M N b)) (j + 1), ⟨0, by omega, ?_⟩, ?_⟩
    · apply ang_v_ne <;> unfold angIdx <;> split <;> omega
    · intro i hi
      have := penta_eig h2 a b 0 (fun i j hi hj => tridiag_elem h2 hM hA hi hj) (angIdx M N b) hi
      rw [this, tridiagonalEig_eq hN]
      ring
  refine ⟨A, hA, ?_, ?_, hstrict⟩
  · intro lam
    constructor
    · intro hl
      by_cases hb : b = 0
      · refine ⟨0, by omega, ?_⟩
        obtain ⟨v, ⟨i, hi, hne⟩, hv⟩ := hl
        have h1 := hv i hi
        have h2 : ∑ j ∈ Finset.range M, elem A i j * v j = a * v i := by
          rw [Finset.sum_eq_single i]
          · rw [elem_of h hi hi, if_pos ⟨by omega, by omega⟩, if_pos rfl]
          · intro j hj hji
            rw [elem_of h hi (Finset.mem_range.1 hj), if_neg (Ne.symm hji), hb]
            simp
          · intro hh; exact absurd (Finset.mem_range.2 hi) hh
        rw [h2] at h1
        have := mul_right_cancel₀ hne h1
        unfold tridiagonalEig
        rw [hb, ← this]; simp
      · refine eigenvalues_complete (lam := fun N => tridiagonalEig M N a b) hval ?_ hl
        intro k l hk hl' e
        rcases Nat.lt_trichotomy k l with hh | hh | hh
        · have := hstrict hb k l hh hl'; linarith
        · exact hh
        · have := hstrict hb l k hh hk; linarith
    · rintro ⟨N, hN, rfl⟩
      exact hval N hN
  · intro N N' h1 h2
    by_cases hb : b = 0
    · unfold tridiagonalEig; rw [hb]; simp
    · exact (hstrict hb N N' h1 h2).le

/-- **C60, 1D Laplacian.** The same for `laplacian_matrix_1D`; all eigenvalues are positive and below
4. -/
theorem C60_laplacian_1D (M : Nat) (h2 : 2 ≤ M) (hM : M < 2147483648) :
    ∃ A : Coo ℝ, laplacian1D M = .ok A ∧
      (∀ lam, IsEigenvalue M (elem A) lam ↔ ∃ N : Nat, N < M ∧ lam = laplacian1DEig M N) ∧
      (∀ N N' : Nat, N < N' → N' < M → laplacian1DEig M N < laplacian1DEig M N') ∧
      (∀ N : Nat, N < M → 0 < laplacian1DEig M N ∧ laplacian1DEig M N < 4) := by
  obtain ⟨A, hA, h1, -, h3⟩ := C60_tridiagonal M 2 (-1) h2 hM
  refine ⟨A, by simpa [laplacian1D] using hA, h1, h3 (by norm_num), ?_⟩
  intro N hN
  have e : π * (((N : Int) : ℝ) + 1) / (((M : Int) : ℝ) + 1) = ang M (N + 1) := by
    unfold ang; push_cast; rfl
  unfold laplacian1DEig tridiagonalEig
  rw [e, abs_neg, abs_one]
  have c1 : cos (ang M (N + 1)) < 1 := by
    have := cos_lt_cos_of_nonneg_of_le_pi (le_refl 0) (ang_lt_pi (M := M) (k := N + 1) (by omega)).le
      (ang_pos (by omega))
    simpa using this
  have c2 : -1 < cos (ang M (N + 1)) := by
    have := cos_lt_cos_of_nonneg_of_le_pi (ang_pos (M := M) (k := N + 1) (by omega)).le (le_refl π)
      (ang_lt_pi (by omega))
    simpa using this
  constructor <;> linarith

/-- **C60, Toeplitz-plus-Hankel pencil.** For every `N < M` with a non-zero denominator the formula is
an eigenvalue of the generalized problem `A x = lam B x` of the two generated matrices. Missing: that
it is the `N`-th *smallest*, which is false (`C60_toeplitz_plus_hankel_order_violated`). -/
theorem C60_toeplitz_plus_hankel_partial (M : Nat) (a0 a1 a2 b0 b1 b2 : ℝ) (h4 : 4 ≤ M)
    (hM : M < 2147483648) :
    ∃ A B : Coo ℝ, toeplitzHankel M a0 a1 a2 = .ok A ∧ toeplitzHankel M b0 b1 b2 = .ok B ∧
      ∀ N : Nat, N < M →
        b0 + 2 * (b1 * cos (ang M (N + 1)) + b2 * cos (2 * ang M (N + 1))) ≠ 0 →
        ∃ v, EigenPair M (elem A) (elem B) (toeplitzHankelEig M N a0 a1 a2 b0 b1 b2) v := by
  obtain ⟨A, hA, hA'⟩ := C26_toeplitz_plus_hankel M a0 a1 a2 h4 hM
  obtain ⟨B, hB, hB'⟩ := C26_toeplitz_plus_hankel M b0 b1 b2 h4 hM
  refine ⟨A, B, hA, hB, fun N hN hden => ?_⟩
  have e1 : π * 1 * (((N : Int) : ℝ) + 1) / (((M : Int) : ℝ) + 1) = ang M (N + 1) := by
    unfold ang; push_cast; rw [mul_one]
  have e2 : π * 2 * (((N : Int) : ℝ) + 1) / (((M : Int) : ℝ) + 1) = 2 * ang M (N + 1) := by
    unfold ang; push_cast; ring
  refine ⟨fun j => sn (ang M (N + 1)) (j + 1), ⟨0, by omega, ang_v_ne (by omega) (by omega)⟩, ?_⟩
  intro i hi
  have p1 := penta_eig (by omega) a0 a1 a2 (fun i j hi hj => elem_of hA' hi hj) (N + 1) hi
  have p2 := penta_eig (by omega) b0 b1 b2 (fun i j hi hj => elem_of hB' hi hj) (N + 1) hi
  rw [p1, p2]
  unfold toeplitzHankelEig
  rw [e1, e2, ← mul_assoc, div_mul_cancel₀ _ hden]

/-- **C60 (violated: order).** With `a1 > 0` and `B` the identity the formula lists the eigenvalues
from the largest to the smallest, not "N-th smallest". -/
theorem C60_toeplitz_plus_hankel_order_violated :
    ¬ ∀ (M : Nat) (a0 a1 a2 b0 b1 b2 : ℝ), 4 ≤ M → ∀ N N' : Nat, N < N' → N' < M →
      toeplitzHankelEig M N a0 a1 a2 b0 b1 b2 ≤ toeplitzHankelEig M N' a0 a1 a2 b0 b1 b2 := by
  intro h
  have := h 4 0 1 0 1 0 0 (le_refl _) 0 1 (by omega) (by omega)
  unfold toeplitzHankelEig at this
  have e : ∀ n : Nat, π * 1 * (((n : Int) : ℝ) + 1) / ((((4 : Nat) : Int) : ℝ) + 1) = ang 4 (n + 1) := by
    intro n; unfold ang; push_cast; rw [mul_one]
  rw [e, e] at this
  have hc := cos_lt_cos_of_nonneg_of_le_pi (ang_pos (M := 4) (k := 0 + 1) (by omega)).le
    (ang_lt_pi (M := 4) (k := 1 + 1) (by omega)).le (ang_lt (by omega))
  simp only [zero_mul, mul_zero, add_zero, zero_add, one_mul, div_one] at this hc
  linarith

/-! ### Frank matrix -/

/-- the angle `π (2 m + 1) / (2 M + 1)` -/
noncomputable def fang (M : Nat) (m : Nat) : ℝ := π * (2 * m + 1) / (2 * M + 1)

/-- the spectrum of the Frank matrix, largest eigenvalue first (`m = 0, ..., M - 1`) -/
noncomputable def frankSpec (M m : Nat) : ℝ := 1 / (2 * (1 - cos (fang M m)))

theorem fang_pos {M m : Nat} : 0 < fang M m := by
  unfold fang
  have := pi_pos
  positivity

theorem fang_lt {M k l : Nat} (h : k < l) : fang M k < fang M l := by
  unfold fang
  have h' : (k : ℝ) < l := by exact_mod_cast h
  have := pi_pos
  gcongr

theorem fang_lt_pi {M k : Nat} (h : k < M) : fang M k < π := by
  have h1 : fang M M = π := by
    unfold fang
    have : (2 * (M : ℝ)) + 1 ≠ 0 := by positivity
    field_simp
  rw [← h1]
  exact fang_lt h

theorem fang_cos_lt_one {M m : Nat} (h : m < M) : cos (fang M m) < 1 := by
  have := cos_lt_cos_of_nonneg_of_le_pi (le_refl 0) (fang_lt_pi h).le fang_pos
  simpa using this

theorem fang_reflect (M m : Nat) : sn (fang M m) ((M : Int) + 1) = sn (fang M m) M := by
  unfold sn
  have hc : cos ((M + 1 / 2) * fang M m) = 0 := by
    have e : ((M : ℝ) + 1 / 2) * fang M m = m * π + π / 2 := by
      unfold fang
      have : (2 * (M : ℝ)) + 1 ≠ 0 := by positivity
      field_simp
    rw [e, cos_add_pi_div_two, sin_nat_mul_pi, neg_zero]
  have e1 : (((M : Int) + 1 : Int) : ℝ) * fang M m = (M + 1 / 2) * fang M m + fang M m / 2 := by
    push_cast; ring
  have e2 : (((M : Int)) : ℝ) * fang M m = (M + 1 / 2) * fang M m - fang M m / 2 := by
    push_cast; ring
  rw [e1, e2, sin_add, sin_sub, hc]
  ring

theorem frank_partial_sum (M m : Nat) (i : Nat) :
    2 * (1 - cos (fang M m)) * ∑ j ∈ Finset.range (i + 1), sn (fang M m) ((M : Int) - j) =
      sn (fang M m) ((M : Int) - i) - sn (fang M m) ((M : Int) - i - 1) := by
  have step : ∀ k : Int, 2 * (1 - cos (fang M m)) * sn (fang M m) k =
      2 * sn (fang M m) k - sn (fang M m) (k - 1) - sn (fang M m) (k + 1) := by
    intro k
    have := sn_rec (fang M m) k 1
    rw [show ((1 : Int) : ℝ) * fang M m = fang M m by simp] at this
    linear_combination this
  induction i with
  | zero =>
    rw [zero_add, Finset.sum_range_one]
    have := step ((M : Int) - (0 : Nat))
    rw [this]
    have hr := fang_reflect M m
    simp only [Nat.cast_zero, sub_zero]
    rw [hr]; ring
  | succ i ih =>
    rw [Finset.sum_range_succ, mul_add, ih, step]
    rw [show (M : Int) - ((i + 1 : Nat) : Int) + 1 = M - i by push_cast; ring,
      show (M : Int) - i - 1 = (M : Int) - ((i + 1 : Nat) : Int) by push_cast; ring]
    ring

theorem frank_row (M m : Nat) : ∀ d i, i + d = M →
    2 * (1 - cos (fang M m)) *
      ∑ j ∈ Finset.range M, ((M - max i j : Nat) : ℝ) * sn (fang M m) ((M : Int) - j) =
      sn (fang M m) ((M : Int) - i) := by
  intro d
  induction d with
  | zero =>
    intro i hi
    have : ∑ j ∈ Finset.range M, ((M - max i j : Nat) : ℝ) * sn (fang M m) ((M : Int) - j) = 0 := by
      apply Finset.sum_eq_zero
      intro j _
      rw [show M - max i j = 0 by omega]; simp
    rw [this, show (M : Int) - i = 0 by omega, sn_zero]; ring
  | succ d ih =>
    intro i hi
    have h1 := ih (i + 1) (by omega)
    have h2 := frank_partial_sum M m i
    have h3 : ∑ j ∈ Finset.range M, ((M - max i j : Nat) : ℝ) * sn (fang M m) ((M : Int) - j) =
        ∑ j ∈ Finset.range M, ((M - max (i + 1) j : Nat) : ℝ) * sn (fang M m) ((M : Int) - j) +
        ∑ j ∈ Finset.range (i + 1), sn (fang M m) ((M : Int) - j) := by
      have : ∑ j ∈ Finset.range (i + 1), sn (fang M m) ((M : Int) - j) =
          ∑ j ∈ Finset.range M, if j ≤ i then sn (fang M m) ((M : Int) - j) else 0 := by
        rw [← Finset.sum_filter]
        apply Finset.sum_congr _ fun _ _ => rfl
        ext j
        simp only [Finset.mem_range, Finset.mem_filter]
        omega
      rw [this, ← Finset.sum_add_distrib]
      apply Finset.sum_congr rfl
      intro j _
      split
      · rw [show M - max i j = (M - max (i + 1) j) + 1 by omega]
        push_cast; ring
      · rw [show M - max i j = M - max (i + 1) j by omega]; ring
    rw [h3, mul_add, h1, h2, show (M : Int) - ((i + 1 : Nat) : Int) = M - i - 1 by push_cast; ring]
    ring

/-- **C60, Frank matrix: the true spectrum** of the matrix returned by `frank_matrix(M)`: the `M`
numbers `1 / (2 (1 - cos (π (2 m + 1) / (2 M + 1))))`, decreasing in `m`. -/
theorem C60_frank_spectrum (M : Nat) (hM : M < 2147483648) :
    ∃ A : Coo ℝ, frank M = .ok A ∧
      (∀ lam, IsEigenvalue M (elem A) lam ↔ ∃ m, m < M ∧ lam = frankSpec M m) ∧
      (∀ m m', m < m' → m' < M → frankSpec M m' < frankSpec M m) := by
  obtain ⟨A, hA, h⟩ := C26_frank (α := ℝ) M hM
  have hstrict : ∀ m m', m < m' → m' < M → frankSpec M m' < frankSpec M m := by
    intro m m' h1 h2
    have hc := cos_lt_cos_of_nonneg_of_le_pi (fang_pos (M := M) (m := m)).le
      (fang_lt_pi h2).le (fang_lt h1)
    have h3 := fang_cos_lt_one (M := M) (m := m) (by omega)
    unfold frankSpec
    apply one_div_lt_one_div_of_lt <;> linarith
  have hval : ∀ m, m < M → IsEigenvalue M (elem A) (frankSpec M m) := by
    intro m hm
    refine ⟨fun j => sn (fang M m) ((M : Int) - j), ⟨M - 1, by omega, ?_⟩, ?_⟩
    · simp only
      rw [show (M : Int) - ((M - 1 : Nat) : Int) = 1 by omega]
      unfold sn
      have : sin (fang M m) > 0 := sin_pos_of_pos_of_lt_pi fang_pos (fang_lt_pi hm)
      simp only [Int.cast_one, one_mul]
      exact this.ne'
    · intro i hi
      have hr := frank_row M m (M - i) i (by omega)
      have hc := fang_cos_lt_one hm
      have hne : (2 * (1 - cos (fang M m))) ≠ 0 := by
        have : 0 < 2 * (1 - cos (fang M m)) := by linarith
        exact this.ne'
      have he : ∑ j ∈ Finset.range M, elem A i j * sn (fang M m) ((M : Int) - j) =
          ∑ j ∈ Finset.range M, ((M - max i j : Nat) : ℝ) * sn (fang M m) ((M : Int) - j) :=
        Finset.sum_congr rfl fun j hj => by
          rw [elem_of h hi (Finset.mem_range.1 hj), if_pos trivial]
      simp only
      rw [he, ← hr]
      unfold frankSpec
      rw [← mul_assoc, one_div, inv_mul_cancel₀ hne, one_mul]
  refine ⟨A, hA, ?_, hstrict⟩
  intro lam
  constructor
  · intro hl
    refine eigenvalues_complete (lam := fun m => frankSpec M m) hval ?_ hl
    intro k l hk hl' e
    rcases Nat.lt_trichotomy k l with hh | hh | hh
    · have := hstrict k l hh hl'; linarith
    · exact hh
    · have := hstrict l k hh hk; linarith
  · rintro ⟨m, hm, rfl⟩
    exact hval m hm

/-- `frank_matrix_eigenvalue(M, N)` for `2 ≤ N ≤ M + 1` is the `(N - 1)`-th smallest eigenvalue counted
from 1 (so it is an eigenvalue, one place off the documented `N`-th). -/
theorem C60_frank_partial (M N : Nat) (h2 : 2 ≤ N) (hN : N ≤ M + 1) :
    frankEig M N = frankSpec M (M - (N - 1)) := by
  unfold frankEig frankSpec fang
  have e : (M - (N - 1) : Nat) = ((M : Int) - N + 1) := by omega
  have e' : ((M - (N - 1) : Nat) : ℝ) = (M : ℝ) - N + 1 := by exact_mod_cast congrArg (Int.cast (R := ℝ)) e
  rw [e']
  push_cast
  rfl

/-- **C60 (violated: Frank).** `frank_matrix_eigenvalue(M, 1)` is `1/4` for every size, and `1/4` is
never an eigenvalue of the Frank matrix. -/
theorem C60_frank_violated (M : Nat) (hM : M < 2147483648) :
    frankEig M 1 = 1 / 4 ∧
    ∃ A : Coo ℝ, frank M = .ok A ∧ ¬ IsEigenvalue M (elem A) (frankEig M 1) := by
  have h1 : frankEig M 1 = 1 / 4 := by
    unfold frankEig
    have : π * (((2 * ((M : Int) - 1 + 1) + 1 : Int)) : ℝ) / ((2 * (M : Int) + 1 : Int) : ℝ) = π := by
      push_cast
      have : (2 * (M : ℝ)) + 1 ≠ 0 := by positivity
      field_simp
      ring
    rw [this, cos_pi]
    norm_num
  refine ⟨h1, ?_⟩
  obtain ⟨A, hA, hiff, -⟩ := C60_frank_spectrum M hM
  refine ⟨A, hA, ?_⟩
  rw [hiff, h1]
  rintro ⟨m, hm, he⟩
  have c2 : -1 < cos (fang M m) := by
    have := cos_lt_cos_of_nonneg_of_le_pi (fang_pos (M := M) (m := m)).le (le_refl π) (fang_lt_pi hm)
    simpa using this
  have c1 := fang_cos_lt_one hm
  unfold frankSpec at he
  have : 0 < 2 * (1 - cos (fang M m)) := by linarith
  rw [eq_div_iff this.ne'] at he
  linarith

end Gen
end Verif
