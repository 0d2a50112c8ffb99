import Verif.Lemmas.CooMerge

/-!
C01 - C05: COO insertion, lookup, sorting and merging.
-/

namespace Verif

open Spec

variable {α : Type}

/-- **C01.** Starting from `COO(M, N)`, any sequence of in-range `insert` calls completes without
out-of-bounds access, `get_nnz()` is the number of inserts, the stored triples are exactly the
inserted ones in order, and `at(i, j)` is the value of the last insert at `(i, j)` (0 if none). -/
theorem C01_insert_at [Zero α] (M N : Nat) (L : List (Entry α)) (hL : Within M N L) :
    ∃ A, Coo.insertAll L (Coo.new M N) = .ok A ∧ A.nnz = L.length ∧ A.entries = L ∧
      A.rowN = M ∧ A.colN = N ∧
      ∀ i j, i < M → j < N → A.at_ i j = .ok (lastAt L i j) := by
  obtain ⟨A, hA, hwf, hr, hc, he⟩ := Coo.insertAll_ok L (Coo.new_wf M N)
    (fun e he => ⟨Nat.le_of_lt (hL e he).1, Nat.le_of_lt (hL e he).2⟩)
  have he' : A.entries = L := by simpa using he
  have hr' : A.rowN = M := hr
  have hc' : A.colN = N := hc
  refine ⟨A, hA, ?_, he', hr', hc', ?_⟩
  · rw [← hwf.length_entries, he']
  · intro i j hi hj
    rw [Coo.at_ok hwf (by omega) (by omega), he']

example : Within 2 3 [(1, 2, (5 : Int)), (0, 0, 7), (1, 2, 8)] := by decide

example : lastAt [(1, 2, (5 : Int)), (0, 0, 7), (1, 2, 8)] 1 2 = 8 := rfl

/-- Every matrix built by inserts satisfies the storage invariant used as hypothesis below. -/
theorem C01_reachable_wf [Zero α] (M N : Nat) (L : List (Entry α)) (hL : Within M N L) :
    ∃ A, Coo.insertAll L (Coo.new M N) = .ok A ∧ A.WF ∧ A.entries = L := by
  obtain ⟨A, hA, hwf, _, _, he⟩ := Coo.insertAll_ok L (Coo.new_wf M N)
    (fun e he => ⟨Nat.le_of_lt (hL e he).1, Nat.le_of_lt (hL e he).2⟩)
  exact ⟨A, hA, hwf, by simpa using he⟩

theorem unique_of_atMostOnce {L : List (Entry α)} {i j : Nat} (h : AtMostOnce L i j) :
    ∀ x ∈ L, ∀ y ∈ L, x.1 = i → x.2.1 = j → y.1 = i → y.2.1 = j → x = y := by
  intro x hx y hy a b c d
  have hx' : x ∈ L.filter (fun e => e.1 == i && e.2.1 == j) := by simp [hx, a, b]
  have hy' : y ∈ L.filter (fun e => e.1 == i && e.2.1 == j) := by simp [hy, c, d]
  unfold AtMostOnce at h
  match hl : L.filter (fun e => e.1 == i && e.2.1 == j) with
  | [] => rw [hl] at hx'; simp at hx'
  | [z] => rw [hl] at hx' hy'; simp at hx' hy'; rw [hx', hy']
  | _ :: _ :: _ => rw [hl] at h; simp at h

/-- **C02.** `sort(false)` terminates without out-of-bounds access; the stored triples become a
permutation of the previous ones in non-decreasing (row, column) order; `get_nnz()` and the
dimensions are unchanged, and so is `at(i, j)` at every position stored at most once. -/
theorem C02_sort_permutes [Zero α] (A : Coo α) (hA : A.WF) :
    ∃ A', A.sort false = .ok A' ∧ A'.WF ∧ A'.nnz = A.nnz ∧ A'.rowN = A.rowN ∧ A'.colN = A.colN ∧
      A'.entries.Perm A.entries ∧ SortedLex A'.entries ∧
      ∀ i j, i < A.rowN → j < A.colN → AtMostOnce A.entries i j → A'.at_ i j = A.at_ i j := by
  obtain ⟨A', h, hwf, hr, hc, hn, hp, hs⟩ := Coo.sort_false_ok hA
  refine ⟨A', h, hwf, hn, hr, hc, hp, hs, ?_⟩
  intro i j hi hj hone
  rw [Coo.at_ok hwf (by omega) (by omega), Coo.at_ok hA (by omega) (by omega),
    lastAt_perm_of_unique hp.symm (unique_of_atMostOnce hone)]

/-- a matrix meeting the hypothesis of C02 (and C03), unsorted and with a repeated position -/
example : ∃ A : Coo Int, Coo.insertAll [(1, 1, 9), (0, 0, 1), (0, 0, 2)] (Coo.new 2 2) = .ok A ∧
    A.WF ∧ 1 ≤ A.nnz :=
  ⟨_, rfl, ⟨rfl, rfl, rfl, rfl, by decide⟩, by decide⟩

/-- **C03.** `sort(true)` on a non-empty matrix completes without out-of-bounds access and leaves
strictly increasing positions; they are exactly the positions stored before, every kept value had
been stored at that position, and if no position was repeated `at` is unchanged everywhere. -/
theorem C03_sort_merge [Zero α] (A : Coo α) (hA : A.WF) (hne : 1 ≤ A.nnz) :
    ∃ A', A.sort true = .ok A' ∧ A'.WF ∧ A'.rowN = A.rowN ∧ A'.colN = A.colN ∧
      StrictLex A'.entries ∧
      (∀ e ∈ A'.entries, e ∈ A.entries) ∧
      (∀ e ∈ A.entries, ∃ e' ∈ A'.entries, e'.1 = e.1 ∧ e'.2.1 = e.2.1) ∧
      (DistinctPos A.entries → A'.entries.Perm A.entries ∧
        ∀ i j, i < A.rowN → j < A.colN → A'.at_ i j = A.at_ i j) := by
  obtain ⟨A', h, hwf, hr, hc, hn, S, hp, hs, he⟩ := Coo.sort_true_ok hA hne
  refine ⟨A', h, hwf, hr, hc, ?_, ?_, ?_, ?_⟩
  · rw [he]; exact Coo.keepLast_strict hs
  · intro e h'; rw [he] at h'; exact hp.mem_iff.1 (Coo.keepLast_mem h')
  · intro e h'; rw [he]; exact Coo.keepLast_pos (hp.mem_iff.2 h')
  · intro hd
    have hS : DistinctPos S := hd.perm hp.symm
    rw [Coo.keepLast_distinct hS] at he
    rw [he]
    refine ⟨hp, ?_⟩
    intro i j hi hj
    rw [Coo.at_ok hwf (by omega) (by omega), Coo.at_ok hA (by omega) (by omega), he,
      lastAt_perm_of_unique hp.symm]
    intro x hx y hy a b c d
    exact hd.eq hx hy (by omega) (by omega)

/-- **C04 (violated).** It is not true that after `sort(true)` the value at a position is the one
`at` returned before (last insert wins) or the sum of the inserted values. -/
theorem C04_merge_value_violated :
    ¬ ∀ (M N : Nat) (L : List (Entry Int)), Within M N L → ∀ A A' : Coo Int,
        Coo.insertAll L (Coo.new M N) = .ok A → A.sort true = .ok A' →
        ∀ i j, i < M → j < N →
          A'.at_ i j = A.at_ i j ∨ A'.at_ i j = .ok (sumAt L i j) := by
  intro h
  have := h 2 2 [(1, 1, 9), (0, 0, 1), (0, 0, 2)]
    (by decide) _ _ rfl rfl 0 0
    (by decide) (by decide)
  revert this
  decide

/-- **C04 (what holds).** After `sort(true)`, `at` at a stored position returns one of the values
stored there. Missing: which one. -/
theorem C04_merge_value_partial [Zero α] (A : Coo α) (hA : A.WF) (hne : 1 ≤ A.nnz) :
    ∃ A', A.sort true = .ok A' ∧
      ∀ e ∈ A.entries, e.1 < A.rowN → e.2.1 < A.colN →
        ∃ v, A'.at_ e.1 e.2.1 = .ok v ∧ (e.1, e.2.1, v) ∈ A.entries := by
  obtain ⟨A', h, hwf, hr, hc, _, hsub, hsup, _⟩ := C03_sort_merge A hA hne
  refine ⟨A', h, ?_⟩
  intro e he h1 h2
  rw [Coo.at_ok hwf (by omega) (by omega)]
  refine ⟨_, rfl, hsub _ (lastAt_mem ?_)⟩
  exact hsup e he

/-- **C05 (violated).** `sort(true)` on an empty matrix of any size leaves it claiming one stored
element that no buffer backs, and the next in-range `at` reads out of bounds. -/
theorem C05_sort_empty_violated [Zero α] (M N : Nat) :
    ∃ A', (Coo.new M N : Coo α).sort true = .ok A' ∧ A'.nnz = 1 ∧ A'.val = [] ∧
      ∀ i j, i < M → j < N → ∃ m, A'.at_ i j = .ub m := by
  refine ⟨_, rfl, rfl, rfl, ?_⟩
  intro i j hi hj
  refine ⟨"read out of bounds", ?_⟩
  simp only [Coo.at_]
  rw [cassert_decide (show i ≤ (Coo.new M N : Coo α).rowN from Nat.le_of_lt hi), Res.ok_bind,
    cassert_decide (show j ≤ (Coo.new M N : Coo α).colN from Nat.le_of_lt hj), Res.ok_bind]
  rfl

/-- **C05 (what holds).** `sort(false)` on a matrix with no stored element changes nothing
observable. Missing: `sort(true)`. -/
theorem C05_sort_empty_partial [Zero α] (A : Coo α) (hA : A.WF) (h0 : A.nnz = 0) :
    ∃ A', A.sort false = .ok A' ∧ A'.nnz = 0 ∧ A'.rowN = A.rowN ∧ A'.colN = A.colN ∧
      ∀ i j, i < A.rowN → j < A.colN → A'.at_ i j = .ok 0 := by
  obtain ⟨A', h, hwf, hn, hr, hc, _, _, _⟩ := C02_sort_permutes A hA
  refine ⟨A', h, by omega, hr, hc, ?_⟩
  intro i j hi hj
  rw [Coo.at_ok hwf (by omega) (by omega)]
  have : A'.entries = [] := by
    rw [← List.length_eq_zero_iff, hwf.length_entries]; omega
  rw [this]; rfl

example : (Coo.new 3 4 : Coo Int).WF ∧ (Coo.new 3 4 : Coo Int).nnz = 0 :=
  ⟨Coo.new_wf 3 4, rfl⟩

end Verif
