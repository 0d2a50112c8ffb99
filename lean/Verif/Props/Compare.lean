import Verif.Model.Compare
import Verif.Spec.VecSpec
import Verif.Spec.CrsSpec
import Verif.Lemmas.CooBasic
import Verif.Lemmas.CrsRows
import Verif.Lemmas.DenseBasic

/-!
C13: the comparison operators.
-/

namespace Verif

open Spec

variable {α : Type}

theorem vequal_ok {β : Type} [DecidableEq β] {N : Nat} {a y : List β} (ha : N ≤ a.length)
    (hy : N ≤ y.length) : vequal N a y = .ok (decide (a.take N = y.take N)) := by
  obtain ⟨r, hr, h⟩ := forN_sat (n := N) (s := true)
    (body := fun i ans => do
      let u ← rd y i
      let w ← rd a i
      .ok (if u ≠ w then false else ans))
    (fun i ans => ans = decide (a.take i = y.take i)) (by simp)
    (by
      rintro i ans hi rfl
      simp only [rd_ok (show i < y.length by omega), rd_ok (show i < a.length by omega), Res.ok_bind,
        Res.sat_ok]
      rw [List.take_add_one, List.take_add_one,
        List.getElem?_eq_getElem (by omega), List.getElem?_eq_getElem (by omega)]
      have key : (a.take i ++ [a[i]'(by omega)] = y.take i ++ [y[i]'(by omega)]) ↔
          a.take i = y.take i ∧ a[i]'(by omega) = y[i]'(by omega) := by
        constructor
        · intro h
          have := List.append_inj h (by simp; omega)
          exact ⟨this.1, by simpa using this.2⟩
        · rintro ⟨h1, h2⟩; rw [h1, h2]
      simp only [Option.toList_some, key]
      by_cases h : y[i]'(by omega) = a[i]'(by omega)
      · simp [h]
      · simp [h, Ne.symm h])
  unfold vequal
  rw [hr, h]

/-- a comparison of more elements than a buffer has reads out of bounds -/
theorem vequal_ub {β : Type} [DecidableEq β] {N : Nat} {a y : List β}
    (h : y.length < N ∨ (a.length < N ∧ a.length ≤ y.length)) : ∃ m, vequal N a y = .ub m := by
  have key : ∀ n lo ans, min a.length y.length < lo + n → lo ≤ min a.length y.length →
      ∃ m, forFrom lo n (fun i ans => do
        let u ← rd y i
        let w ← rd a i
        .ok (if u ≠ w then false else ans)) ans = .ub m := by
    intro n
    induction n with
    | zero => intro lo ans h1 h2; omega
    | succ n ih =>
      intro lo ans h1 h2
      rw [forFrom_succ]
      by_cases hy : y.length ≤ lo
      · rw [rd_ub hy]; exact ⟨_, rfl⟩
      · rw [rd_ok (show lo < y.length by omega), Res.ok_bind]
        by_cases ha : a.length ≤ lo
        · rw [rd_ub ha]; exact ⟨_, rfl⟩
        · rw [rd_ok (show lo < a.length by omega), Res.ok_bind, Res.ok_bind]
          exact ih (lo + 1) _ (by omega) (by omega)
  exact key N 0 true (by omega) (by omega)

theorem andThen_ok (b : Bool) (k : Res Bool) : andThen (.ok b) k = if b then k else .ok false := rfl

theorem andThen3_ok {p q r : Prop} [Decidable p] [Decidable q] [Decidable r] :
    andThen (.ok (decide p)) (andThen (.ok (decide q)) (andThen (.ok (decide r)) (.ok true))) =
      .ok (decide (r ∧ q ∧ p)) := by
  simp only [andThen_ok]
  by_cases hp : p <;> by_cases hq : q <;> by_cases hr : r <;> simp [hp, hq, hr]

/-! ### vector -/

/-- **C13 (vector).** For all vectors (also aliases that start at an offset of their storage) whose
elements lie inside their storage, `==` completes and is true exactly when both have the same
elements. -/
theorem C13_vector [DecidableEq α] (a b : Vec α) (ha : a.first + a.nnz ≤ a.val.length)
    (hb : b.first + b.nnz ≤ b.val.length) :
    ∃ r, a.equal b = .ok r ∧ (r = true ↔ a.contents = b.contents) := by
  unfold Vec.equal
  by_cases h : a.nnz = b.nnz
  · rw [if_neg (by simpa using h), vequal_ok (by simp; omega) (by simp; omega), andThen_ok]
    refine ⟨decide (a.contents = b.contents), ?_, by simp⟩
    simp only [Vec.contents, ← h]
    split <;> simp_all
  · rw [if_pos h]
    refine ⟨false, rfl, ?_⟩
    simp only [Bool.false_eq_true, false_iff]
    intro hc
    have := congrArg List.length hc
    simp [Vec.contents] at this
    omega

example : (⟨[1, 2, 3], 2, 3, 1, true⟩ : Vec Int).equal ⟨[2, 3], 2, 2, 0, true⟩ = .ok true := rfl

/-! ### Dense -/

/-- **C13 (Dense, offset 0).** For all dense matrices that start at offset 0 of their storage, `==`
completes and is true exactly when the dimensions and all elements agree. Missing from the full
property: matrices at an offset (`C13_dense_violated`). -/
theorem C13_dense_partial [DecidableEq α] (A B : Dense α) (hA : A.WF) (hB : B.WF)
    (hA0 : A.first = 0) (hB0 : B.first = 0) :
    ∃ r, A.equal B = .ok r ∧ (r = true ↔ A.rowN = B.rowN ∧ A.colN = B.colN ∧
      ∀ i j, i < A.rowN → j < A.colN → A.at_ i j = B.at_ i j) := by
  unfold Dense.equal
  by_cases h1 : A.rowN = B.rowN
  · by_cases h2 : A.colN = B.colN
    · have hn : A.nnz = B.nnz := by rw [hA.nnz_eq, hB.nnz_eq, h1, h2]
      have wA := hA.window; have wB := hB.window; have lA := hA.lenV; have lB := hB.lenV
      rw [if_neg (by simpa using h1), if_neg (by simpa using h2), if_neg (by simp [hA0, hB0]),
        vequal_ok (by omega) (by omega), andThen_ok]
      refine ⟨decide (A.val.take A.nnz = B.val.take A.nnz), ?_, ?_⟩
      · split <;> simp_all
      · simp only [decide_eq_true_eq, h1, h2, true_and]
        constructor
        · intro h i j hi hj
          rw [Dense.at_eq_rd hA (by omega) (by omega), Dense.at_eq_rd hB hi hj, hA0, hB0, h2]
          have hlt := Dense.WF.idx_lt hB hi hj
          unfold rd
          have : (A.val.take A.nnz)[0 + (B.colN * i + j)]? = (B.val.take A.nnz)[0 + (B.colN * i + j)]? := by
            rw [h]
          rw [List.getElem?_take_of_lt (by omega), List.getElem?_take_of_lt (by omega)] at this
          rw [this]
        · intro h
          apply List.ext_getElem?
          intro k
          by_cases hk : k < A.nnz
          · rw [List.getElem?_take_of_lt hk, List.getElem?_take_of_lt hk]
            have hk' : k < B.rowN * B.colN := by rw [← hB.nnz_eq]; omega
            obtain ⟨d1, d2, d3⟩ := idx_decomp hk'
            have := h _ _ d1 d2
            rw [Dense.at_eq_rd hA (by omega) (by omega), Dense.at_eq_rd hB d1 d2, hA0, hB0, h2, d3,
              Nat.zero_add, rd_ok (show k < A.val.length by omega),
              rd_ok (show k < B.val.length by omega)] at this
            injection this with this
            rw [List.getElem?_eq_getElem (show k < A.val.length by omega),
              List.getElem?_eq_getElem (show k < B.val.length by omega), this]
          · rw [List.getElem?_eq_none (by simp; omega), List.getElem?_eq_none (by simp; omega)]
    · rw [if_neg (by simpa using h1), if_pos h2]
      exact ⟨false, rfl, by simp [h2]⟩
  · rw [if_pos h1]
    exact ⟨false, rfl, by simp [h1]⟩

example : (⟨1, 2, [1, 2], 2, 2, 0, true⟩ : Dense Int).equal ⟨1, 2, [1, 2, 7], 2, 3, 0, true⟩ = .ok true :=
  rfl

/-- **C13 (Dense, violated both ways for aliases at an offset).** Two aliases at the same offset are
compared by the elements at the start of the storage, so equal matrices can compare unequal and
unequal ones equal. -/
theorem C13_dense_violated :
    (∃ A B : Dense Int, A.WF ∧ B.WF ∧ A.rowN = B.rowN ∧ A.colN = B.colN ∧ A.at_ 0 0 ≠ B.at_ 0 0 ∧
      A.rowN = 1 ∧ A.colN = 1 ∧ A.equal B = .ok true) ∧
    (∃ A B : Dense Int, A.WF ∧ B.WF ∧ A.rowN = B.rowN ∧ A.colN = B.colN ∧ A.at_ 0 0 = B.at_ 0 0 ∧
      A.rowN = 1 ∧ A.colN = 1 ∧ A.equal B = .ok false) :=
  ⟨⟨⟨1, 1, [9, 1], 1, 2, 1, false⟩, ⟨1, 1, [9, 2], 1, 2, 1, false⟩, ⟨rfl, rfl, by decide⟩,
    ⟨rfl, rfl, by decide⟩, rfl, rfl, by decide, rfl, rfl, rfl⟩,
   ⟨⟨1, 1, [8, 1], 1, 2, 1, false⟩, ⟨1, 1, [9, 1], 1, 2, 1, false⟩, ⟨rfl, rfl, by decide⟩,
    ⟨rfl, rfl, by decide⟩, rfl, rfl, by decide, rfl, rfl, rfl⟩⟩

/-! ### COO -/

theorem zip_take_eq {β γ : Type} {n : Nat} {a a' : List β} {b b' : List γ}
    (ha : n ≤ a.length) (ha' : n ≤ a'.length) (hb : n ≤ b.length) (hb' : n ≤ b'.length) :
    (a.zip b).take n = (a'.zip b').take n ↔ a.take n = a'.take n ∧ b.take n = b'.take n := by
  rw [take_zip, take_zip]
  constructor
  · intro h
    have h1 := congrArg (List.map Prod.fst) h
    have h2 := congrArg (List.map Prod.snd) h
    rw [List.map_fst_zip (by simp; omega), List.map_fst_zip (by simp; omega)] at h1
    rw [List.map_snd_zip (by simp; omega), List.map_snd_zip (by simp; omega)] at h2
    exact ⟨h1, h2⟩
  · rintro ⟨h1, h2⟩; rw [h1, h2]

/-- **C13 (COO, as many entries).** For all COO matrices storing the same number of entries, `==`
completes and is true exactly when the dimensions and the stored entries agree. Missing from the full
property: matrices with different numbers of entries (`C13_coo_violated`). -/
theorem C13_coo_partial [DecidableEq α] (A B : Coo α) (hA : A.WF) (hB : B.WF) (hn : A.nnz = B.nnz) :
    ∃ r, A.equal B = .ok r ∧ (r = true ↔ A.rowN = B.rowN ∧ A.colN = B.colN ∧
      A.entries = B.entries) := by
  unfold Coo.equal
  by_cases h1 : A.rowN = B.rowN
  · by_cases h2 : A.colN = B.colN
    · have a1 := hA.lenR; have a2 := hA.lenC; have a3 := hA.lenV; have a4 := hA.nnz_le
      have b1 := hB.lenR; have b2 := hB.lenC; have b3 := hB.lenV; have b4 := hB.nnz_le
      rw [if_neg (by simpa using h1), if_neg (by simpa using h2),
        vequal_ok (by omega) (by omega), vequal_ok (by omega) (by omega),
        vequal_ok (by omega) (by omega)]
      rw [andThen3_ok]
      have key : A.entries = B.entries ↔ A.rowIdx.take A.nnz = B.rowIdx.take A.nnz ∧
          A.colIdx.take A.nnz = B.colIdx.take A.nnz ∧ A.val.take A.nnz = B.val.take A.nnz := by
        unfold Coo.entries
        rw [← hn, zip_take_eq (by omega) (by omega) (by simp; omega) (by simp; omega),
          zip_take_eq (by omega) (by omega) (by omega) (by omega)]
      exact ⟨_, rfl, by simp [h1, h2, key]⟩
    · rw [if_neg (by simpa using h1), if_pos h2]
      exact ⟨false, rfl, by simp [h2]⟩
  · rw [if_pos h1]
    exact ⟨false, rfl, by simp [h1]⟩

example : (⟨2, 2, [0, 1], [0, 1], [3, 4], 2, 2, true⟩ : Coo Int).equal
    ⟨2, 2, [0, 1, 0], [0, 1, 0], [3, 4, 0], 2, 3, true⟩ = .ok true := rfl

/-- **C13 (COO, violated).** For *every* pair of equally sized COO matrices where the entries of the
first are the beginning of the entries of the second, `A == B` is true, although `B` may store more
entries. -/
theorem C13_coo_violated [DecidableEq α] (A B : Coo α) (hA : A.WF) (hB : B.WF)
    (h1 : A.rowN = B.rowN) (h2 : A.colN = B.colN) (R : List (Entry α))
    (hp : B.entries = A.entries ++ R) : A.equal B = .ok true := by
  have a1 := hA.lenR; have a2 := hA.lenC; have a3 := hA.lenV; have a4 := hA.nnz_le
  have b1 := hB.lenR; have b2 := hB.lenC; have b3 := hB.lenV; have b4 := hB.nnz_le
  have hl : A.nnz ≤ B.nnz := by
    have := congrArg List.length hp
    simp [Coo.entries] at this
    omega
  unfold Coo.equal
  rw [if_neg (by simpa using h1), if_neg (by simpa using h2),
    vequal_ok (by omega) (by omega), vequal_ok (by omega) (by omega),
    vequal_ok (by omega) (by omega)]
  have h3 : A.entries = B.entries.take A.nnz := by
    rw [hp, List.take_append_of_le_length (by simp [Coo.entries]; omega),
      List.take_of_length_le (by simp [Coo.entries])]
  unfold Coo.entries at h3
  rw [List.take_take, Nat.min_eq_left hl,
    zip_take_eq (by omega) (by omega) (by simp; omega) (by simp; omega),
    zip_take_eq (by omega) (by omega) (by omega) (by omega)] at h3
  simp [andThen_ok, h3]

/-- concrete witness: an empty matrix "equals" a matrix with an entry, and the reversed comparison
reads outside the empty one -/
theorem C13_coo_violated_witness :
    ∃ A B : Coo Int, A.WF ∧ B.WF ∧ A.entries = [] ∧ B.entries = [(0, 0, 5)] ∧
      A.equal B = .ok true ∧ (∃ m, B.equal A = .ub m) :=
  ⟨Coo.new 1 1, ⟨1, 1, [0], [0], [5], 1, 1, true⟩, ⟨rfl, rfl, rfl, rfl, by decide⟩,
    ⟨rfl, rfl, rfl, rfl, by decide⟩, rfl, rfl, rfl, ⟨_, rfl⟩⟩

/-! ### CRS -/

/-- **C13 (CRS, violated: memory).** Comparing *any* well-formed CRS matrix with itself reads out of
bounds as soon as it stores more than `rows + 1` entries. -/
theorem C13_crs_self_violated [DecidableEq α] (A : Crs α) (hA : A.WF) (hn : A.rowN + 1 < A.nnz) :
    ∃ m, A.equal A = .ub m := by
  have a1 := hA.lenV; have a2 := hA.nnz_le; have a3 := hA.lenC; have a4 := hA.lenP
  unfold Crs.equal
  rw [if_neg (by simp), if_neg (by simp), vequal_ok (by omega) (by omega),
    vequal_ok (by omega) (by omega)]
  simp only [andThen_ok, decide_true, if_true]
  obtain ⟨m, hm⟩ := vequal_ub (N := A.nnz) (a := A.rowPtr) (y := A.rowPtr) (by omega)
  rw [hm]; exact ⟨m, rfl⟩

/-- a 1 × 3 row with three entries -/
example : (⟨1, 3, [0, 3], [0, 1, 2], [5, 6, 7], 3, 3, true⟩ : Crs Int).WF :=
  { created := rfl, lenV := rfl, nnz_le := by decide, lenP := rfl, ptr_le := by decide,
    lenC := by decide, col_lt := by decide, ptr_zero := rfl, ptr_last := rfl, ptr_mono := by decide }

/-- **C13 (CRS, violated: result).** Two matrices with the same sizes and values but different rows
compare equal. -/
theorem C13_crs_violated :
    ∃ A B : Crs Int, A.WF ∧ B.WF ∧ A.entries = [(1, 0, 5)] ∧ B.entries = [(2, 0, 5)] ∧
      A.equal B = .ok true := by
  refine ⟨⟨3, 1, [0, 0, 1, 1], [0], [5], 1, 1, true⟩, ⟨3, 1, [0, 0, 0, 1], [0], [5], 1, 1, true⟩,
    ?_, ?_, rfl, rfl, rfl⟩
  all_goals
    exact { created := rfl, lenV := rfl, nnz_le := by decide, lenP := rfl, ptr_le := by decide,
            lenC := by decide, col_lt := by decide, ptr_zero := rfl, ptr_last := rfl,
            ptr_mono := by decide }

/-- `row_ptr[0..rowN-1]`, together with `nnz`, fix the row pointer of a well-formed matrix -/
theorem rowPtr_eq {A B : Crs α} (hA : A.WF) (hB : B.WF) (h1 : A.rowN = B.rowN) (hn : A.nnz = B.nnz)
    {k : Nat} (hk : A.rowN ≤ k) (h : A.rowPtr.take k = B.rowPtr.take k) : A.rowPtr = B.rowPtr := by
  have a4 := hA.lenP; have b4 := hB.lenP
  apply List.ext_getElem (by omega)
  intro i hi hi'
  by_cases hlt : i < k
  · have := congrArg (·[i]?) h
    simp only [List.getElem?_take_of_lt hlt] at this
    rw [List.getElem?_eq_getElem hi, List.getElem?_eq_getElem hi'] at this
    injection this
  · have hia : i = A.rowN := by omega
    have l1 := hA.ptr_last; have l2 := hB.ptr_last
    simp only [Crs.ptr, List.getD_eq_getElem?_getD] at l1 l2
    rw [List.getElem?_eq_getElem (by omega)] at l1 l2
    simp only [Option.getD_some] at l1 l2
    subst hia
    rw [l1, hn, ← l2]
    congr 1
    exact h1.symm

/-- **C13 (CRS).** For well-formed matrices with equally many entries `nnz`, and
`rows ≤ nnz ≤ rows + 1`, `==` completes and is true exactly when dimensions, structure and values
agree. Missing from the full property: every other `nnz`, where it fails (`C13_crs_self_violated`,
`C13_crs_violated`). -/
theorem C13_crs_partial [DecidableEq α] (A B : Crs α) (hA : A.WF) (hB : B.WF) (hn : A.nnz = B.nnz)
    (hlo : A.rowN ≤ A.nnz) (hhi : A.nnz ≤ A.rowN + 1) :
    ∃ r, A.equal B = .ok r ∧ (r = true ↔ A.rowN = B.rowN ∧ A.colN = B.colN ∧
      A.rowPtr = B.rowPtr ∧ A.colInd.take A.nnz = B.colInd.take A.nnz ∧
      A.val.take A.nnz = B.val.take A.nnz) := by
  have a1 := hA.lenV; have a2 := hA.nnz_le; have a3 := hA.lenC; have a4 := hA.lenP
  have b1 := hB.lenV; have b2 := hB.nnz_le; have b3 := hB.lenC; have b4 := hB.lenP
  unfold Crs.equal
  by_cases h1 : A.rowN = B.rowN
  · by_cases h2 : A.colN = B.colN
    · rw [if_neg (by simpa using h1), if_neg (by simpa using h2), vequal_ok (by omega) (by omega),
        vequal_ok (by omega) (by omega), vequal_ok (by omega) (by omega)]
      rw [andThen3_ok]
      have key : A.rowPtr = B.rowPtr ↔ A.rowPtr.take A.nnz = B.rowPtr.take A.nnz :=
        ⟨fun h => by rw [h], rowPtr_eq hA hB h1 hn hlo⟩
      exact ⟨_, rfl, by simp [h1, h2, key]⟩
    · rw [if_neg (by simpa using h1), if_pos h2]
      exact ⟨false, rfl, by simp [h2]⟩
  · rw [if_pos h1]
    exact ⟨false, rfl, by simp [h1]⟩

/-- **C13 (CRS, soundness for enough entries).** Whenever `==` of two well-formed matrices with as
many entries (at least one per row) completes with `true`, the stored entries are the same. -/
theorem C13_crs_sound_partial [DecidableEq α] (A B : Crs α) (hA : A.WF) (hB : B.WF)
    (hn : A.nnz = B.nnz) (hlo : A.rowN ≤ A.nnz) (h : A.equal B = .ok true) :
    A.rowN = B.rowN ∧ A.colN = B.colN ∧ A.rowPtr = B.rowPtr ∧
      A.colInd.take A.nnz = B.colInd.take A.nnz ∧ A.val.take A.nnz = B.val.take A.nnz := by
  by_cases hhi : A.nnz ≤ A.rowN + 1 ∧ B.nnz ≤ B.rowN + 1
  · obtain ⟨r, hr, hiff⟩ := C13_crs_partial A B hA hB hn hlo hhi.1
    rw [h] at hr
    injection hr with hr
    exact hiff.mp hr.symm
  · exfalso
    have a1 := hA.lenV; have a2 := hA.nnz_le; have a3 := hA.lenC; have a4 := hA.lenP
    have b1 := hB.lenV; have b2 := hB.nnz_le; have b3 := hB.lenC; have b4 := hB.lenP
    unfold Crs.equal at h
    by_cases h1 : A.rowN = B.rowN
    · by_cases h2 : A.colN = B.colN
      · rw [if_neg (by simpa using h1), if_neg (by simpa using h2), vequal_ok (by omega) (by omega),
          vequal_ok (by omega) (by omega)] at h
        obtain ⟨m, hm⟩ := vequal_ub (N := A.nnz) (a := A.rowPtr) (y := B.rowPtr) (by omega)
        rw [hm] at h
        simp only [andThen_ok] at h
        split at h <;> (try split at h) <;> simp [andThen] at h
      · rw [if_neg (by simpa using h1), if_pos h2] at h; simp at h
    · rw [if_pos h1] at h; simp at h

end Verif
