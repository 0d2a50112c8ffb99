import Verif.Spec.CooSpec
import Verif.Lemmas.CooSort
import Verif.Lemmas.Entries

/-! Representation lemmas for COO: the three buffers as one list of triples. -/

namespace Verif.Coo

variable {α : Type}

/-- the buffers as one list of triples (whole allocation) -/
def zip3 (A : Coo α) : List (Entry α) := A.rowIdx.zip (A.colIdx.zip A.val)

@[simp] theorem length_rows (Z : List (Entry α)) : (rows Z).length = Z.length := by simp [rows]
@[simp] theorem length_cols (Z : List (Entry α)) : (cols Z).length = Z.length := by simp [cols]
@[simp] theorem length_vals (Z : List (Entry α)) : (vals Z).length = Z.length := by simp [vals]

theorem zip_proj (Z : List (Entry α)) : (rows Z).zip ((cols Z).zip (vals Z)) = Z := by
  induction Z with
  | nil => rfl
  | cons z Z ih => simpa [rows, cols, vals] using ih

theorem rows_zip {R C : List Nat} {V : List α} (h1 : R.length = C.length)
    (h2 : C.length = V.length) : rows (R.zip (C.zip V)) = R := by
  rw [rows]; exact List.map_fst_zip (by simp; omega)

theorem cols_zip {R C : List Nat} {V : List α} (h1 : R.length = C.length)
    (h2 : C.length = V.length) : cols (R.zip (C.zip V)) = C := by
  have : cols (R.zip (C.zip V)) = ((R.zip (C.zip V)).map Prod.snd).map Prod.fst := by
    simp [cols]
  rw [this, List.map_snd_zip (by simp; omega), List.map_fst_zip (by omega)]

theorem vals_zip {R C : List Nat} {V : List α} (h1 : R.length = C.length)
    (h2 : C.length = V.length) : vals (R.zip (C.zip V)) = V := by
  have : vals (R.zip (C.zip V)) = ((R.zip (C.zip V)).map Prod.snd).map Prod.snd := by
    simp [vals]
  rw [this, List.map_snd_zip (by simp; omega), List.map_snd_zip (by omega)]

/-- a COO whose buffers are the projections of `Z` -/
def ofZ (M N : Nat) (Z : List (Entry α)) (nnz : Nat) : Coo α :=
  { rowN := M, colN := N, rowIdx := rows Z, colIdx := cols Z, val := vals Z, nnz := nnz,
    alloc := Z.length, created := true }

theorem WF.eq_ofZ {A : Coo α} (h : A.WF) : A = ofZ A.rowN A.colN A.zip3 A.nnz := by
  obtain ⟨hc, h1, h2, h3, _⟩ := h
  cases A
  simp only [ofZ, zip3] at *
  subst hc
  rw [rows_zip (by omega) (by omega), cols_zip (by omega) (by omega),
    vals_zip (by omega) (by omega)]
  simp; omega

theorem WF.length_zip3 {A : Coo α} (h : A.WF) : A.zip3.length = A.alloc := by
  obtain ⟨hc, h1, h2, h3, _⟩ := h; simp [zip3]; omega

theorem ofZ_wf {M N : Nat} {Z : List (Entry α)} {nnz : Nat} (h : nnz ≤ Z.length) :
    (ofZ M N Z nnz).WF := ⟨rfl, by simp [ofZ], by simp [ofZ], by simp [ofZ], h⟩

@[simp] theorem entries_ofZ {M N : Nat} {Z : List (Entry α)} {nnz : Nat} :
    (ofZ M N Z nnz).entries = Z.take nnz := by
  simp [ofZ, entries, zip_proj]

theorem entries_eq (A : Coo α) : A.entries = A.zip3.take A.nnz := rfl

theorem WF.length_entries {A : Coo α} (h : A.WF) : A.entries.length = A.nnz := by
  rw [entries_eq, List.length_take, h.length_zip3]; have := h.nnz_le; omega

theorem rows_set (Z : List (Entry α)) (i : Nat) (e : Entry α) :
    rows (Z.set i e) = (rows Z).set i e.1 := by simp [rows, List.map_set]
theorem cols_set (Z : List (Entry α)) (i : Nat) (e : Entry α) :
    cols (Z.set i e) = (cols Z).set i e.2.1 := by simp [cols, List.map_set]
theorem vals_set (Z : List (Entry α)) (i : Nat) (e : Entry α) :
    vals (Z.set i e) = (vals Z).set i e.2.2 := by simp [vals, List.map_set]

theorem rd_rows {Z : List (Entry α)} {i : Nat} (h : i < Z.length) :
    rd (rows Z) i = .ok Z[i].1 := by rw [rd_ok (by simpa using h)]; simp [rows]
theorem rd_cols {Z : List (Entry α)} {i : Nat} (h : i < Z.length) :
    rd (cols Z) i = .ok Z[i].2.1 := by rw [rd_ok (by simpa using h)]; simp [cols]
theorem rd_vals {Z : List (Entry α)} {i : Nat} (h : i < Z.length) :
    rd (vals Z) i = .ok Z[i].2.2 := by rw [rd_ok (by simpa using h)]; simp [vals]

/-! ### resize -/

theorem stdResize_rows (Z : List (Entry α)) (N : Nat) (v : α) :
    stdResize (rows Z) N 0 = rows (stdResize Z N (0, 0, v)) := by
  simp [stdResize, rows, List.map_take]
theorem stdResize_cols (Z : List (Entry α)) (N : Nat) (v : α) :
    stdResize (cols Z) N 0 = cols (stdResize Z N (0, 0, v)) := by
  simp [stdResize, cols, List.map_take]

/-- growing a full buffer appends padding -/
theorem resize_full {M N : Nat} {Z : List (Entry α)} {n a : Nat} {v : α} (h : Z.length ≤ n) :
    resize { ofZ M N Z Z.length with alloc := a } n v =
      .ok (ofZ M N (Z ++ List.replicate (n - Z.length) (0, 0, v)) n) := by
  have e : stdResize Z n (0, 0, v) = Z ++ List.replicate (n - Z.length) (0, 0, v) := by
    simp [stdResize, List.take_of_length_le h]
  simp only [resize, ofZ, if_true]
  rw [reallocCopy_ok (by simp; omega), Res.ok_bind, stdResize_rows Z n v, stdResize_cols Z n v, e]
  have : min Z.length n = Z.length := by omega
  simp [this, vals]
  constructor
  · rw [List.take_of_length_le (by simp)]
  · omega

/-! ### insert -/

theorem insert_store {M N : Nat} {m n : Nat} {v : α} (Z : List (Entry α)) (k : Nat)
    (hk : k < Z.length) :
      (do let r ← wr (rows Z) k m
          let c ← wr (cols Z) k n
          let w ← wr (vals Z) k v
          Res.ok { ofZ M N Z k with rowIdx := r, colIdx := c, val := w, nnz := k + 1 })
       = .ok (ofZ M N (Z.set k (m, n, v)) (k + 1)) := by
  simp only [ofZ]
  rw [wr_ok (by simpa using hk), Res.ok_bind, wr_ok (by simpa using hk), Res.ok_bind,
    wr_ok (by simpa using hk), Res.ok_bind, rows_set, cols_set, vals_set]
  simp

theorem insert_ofZ [Zero α] {M N : Nat} {Z : List (Entry α)} {k m n : Nat} {v : α}
    (hk : k ≤ Z.length) (hm : m ≤ M) (hn : n ≤ N) :
    ((ofZ M N Z k).insert m n v).Sat (fun A' => ∃ Z', A' = ofZ M N Z' (k + 1) ∧
      k + 1 ≤ Z'.length ∧ Z'.take (k + 1) = Z.take k ++ [(m, n, v)]) := by
  have hc : (ofZ M N Z k).created = true := rfl
  unfold insert
  rw [if_pos hc, cassert_decide (show m ≤ (ofZ M N Z k).rowN from hm), Res.ok_bind,
    cassert_decide (show n ≤ (ofZ M N Z k).colN from hn), Res.ok_bind]
  by_cases hfull : (ofZ M N Z k).nnz ≥ (ofZ M N Z k).alloc
  · rw [if_pos hfull]
    have hk' : k = Z.length := by simp [ofZ] at hfull; omega
    subst hk'
    have hr := resize_full (M := M) (N := N) (Z := Z) (n := 2 * Z.length + 1)
      (a := 2 * Z.length + 1) (v := (0 : α)) (by omega)
    have ha : (ofZ M N Z Z.length).alloc = Z.length := rfl
    simp only [ha]
    rw [hr, Res.ok_bind, Res.pure_eq, Res.ok_bind]
    have hlen : 2 * Z.length + 1 - Z.length = Z.length + 1 := by omega
    refine ⟨_, insert_store (M := M) (N := N) (m := m) (n := n) (v := v)
      (Z ++ List.replicate (2 * Z.length + 1 - Z.length) (0, 0, 0)) Z.length (by simp; omega), ?_⟩
    refine ⟨_, rfl, by simp; omega, ?_⟩
    rw [hlen, List.replicate_succ]
    simp [List.take_append]
    exact List.take_of_length_le (by omega)
  · rw [if_neg hfull, Res.pure_eq, Res.ok_bind]
    have hk' : k < Z.length := by simp [ofZ] at hfull; omega
    refine ⟨_, insert_store (M := M) (N := N) (m := m) (n := n) (v := v) Z k hk', ?_⟩
    refine ⟨_, rfl, by simp; omega, ?_⟩
    rw [List.take_succ_eq_append_getElem (by simpa using hk')]
    simp [List.take_set]
    rw [List.set_eq_of_length_le (by simp; omega)]

theorem insert_ok [Zero α] {A : Coo α} (h : A.WF) {m n : Nat} {v : α} (hm : m ≤ A.rowN)
    (hn : n ≤ A.colN) :
    (A.insert m n v).Sat (fun A' => A'.WF ∧ A'.rowN = A.rowN ∧ A'.colN = A.colN ∧
      A'.entries = A.entries ++ [(m, n, v)]) := by
  have hz := h.length_zip3
  have hle := h.nnz_le
  have := insert_ofZ (Z := A.zip3) (k := A.nnz) (v := v) (by omega) hm hn
  rw [← h.eq_ofZ] at this
  refine this.mono ?_
  rintro A' ⟨Z', rfl, hl, ht⟩
  exact ⟨ofZ_wf hl, rfl, rfl, by rw [entries_ofZ, ht]; rfl⟩

theorem insertAll_ok [Zero α] : ∀ (L : List (Entry α)) {A : Coo α}, A.WF →
    (∀ e ∈ L, e.1 ≤ A.rowN ∧ e.2.1 ≤ A.colN) →
    (insertAll L A).Sat (fun A' => A'.WF ∧ A'.rowN = A.rowN ∧ A'.colN = A.colN ∧
      A'.entries = A.entries ++ L) := by
  intro L
  induction L with
  | nil => intro A h _; exact Res.Sat.ok ⟨h, rfl, rfl, by simp⟩
  | cons e L ih =>
    intro A h hb
    simp only [insertAll]
    refine Res.Sat.bind (insert_ok h (hb e (by simp)).1 (hb e (by simp)).2) ?_
    rintro A' ⟨h', hr, hc, he⟩
    refine (ih h' ?_).mono ?_
    · intro x hx; rw [hr, hc]; exact hb x (by simp [hx])
    · rintro A'' ⟨h2, hr2, hc2, he2⟩
      exact ⟨h2, by omega, by omega, by rw [he2, he]; simp⟩

theorem new_wf (M N : Nat) : (new M N : Coo α).WF := ⟨rfl, rfl, rfl, rfl, Nat.le_refl _⟩

@[simp] theorem entries_new (M N : Nat) : (new M N : Coo α).entries = [] := rfl

/-! ### at -/

theorem atScan_ok [Zero α] {A : Coo α} (h : A.WF) (i j : Nat) : ∀ k, k ≤ A.alloc →
    atScan A i j k = .ok (Spec.lastAt (A.zip3.take k) i j) := by
  have hz := h.length_zip3
  intro k
  induction k with
  | zero => intro _; rfl
  | succ k ih =>
    intro hk
    have hk' : k < A.zip3.length := by omega
    obtain ⟨_, l1, l2, l3, _⟩ := h
    have e1 : rd A.rowIdx k = .ok A.zip3[k].1 := by
      rw [rd_ok (by omega)]; simp [zip3]
    have e2 : rd A.colIdx k = .ok A.zip3[k].2.1 := by
      rw [rd_ok (by omega)]; simp [zip3]
    have e3 : rd A.val k = .ok A.zip3[k].2.2 := by
      rw [rd_ok (by omega)]; simp [zip3]
    have ht : A.zip3.take (k + 1) = A.zip3.take k ++ [A.zip3[k]] := by
      rw [List.take_succ_eq_append_getElem hk']
    rw [ht, Spec.lastAt_append_singleton]
    simp only [atScan, e1, e2, e3, Res.ok_bind, ih (by omega)]
    by_cases h1 : A.zip3[k].1 = i
    · by_cases h2 : A.zip3[k].2.1 = j
      · simp [h1, h2]
      · simp [h1, h2]
    · simp [h1]

theorem at_ok [Zero α] {A : Coo α} (h : A.WF) {i j : Nat} (hi : i ≤ A.rowN) (hj : j ≤ A.colN) :
    A.at_ i j = .ok (Spec.lastAt A.entries i j) := by
  have hcm : decide (i ≤ A.rowN) = true := by simpa using hi
  have hcn : decide (j ≤ A.colN) = true := by simpa using hj
  simp only [at_, hcm, hcn, cassert_true, Res.ok_bind]
  exact atScan_ok h i j _ h.nnz_le

end Verif.Coo
