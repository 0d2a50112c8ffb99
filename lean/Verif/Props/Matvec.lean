import Verif.Lemmas.Prod
import Mathlib.Algebra.Ring.Int.Defs

/-!
C16: CRS matrix-vector products.  C17: the scaled product.
-/

namespace Verif

open Spec

variable {α : Type}

theorem rowDot_ok [Zero α] [Add α] [Mul α] {A : Crs α} (hA : A.Safe) {x : Win α} (xs : Nat → α)
    (hx : ∀ j, j < A.colN → x.get j = .ok (xs j)) {i : Nat} (hi : i < A.rowN) :
    A.rowDot x i = .ok ((A.rowEntries i).foldl (fun acc e => acc + e.2.2 * xs e.2.1) 0) := by
  unfold Crs.rowDot
  refine hA.row_fold hi (fun acc e => acc + e.2.2 * xs e.2.1) 0 ?_
  intro k p s hk hp
  obtain ⟨h1, h2⟩ := Crs.rd_col_of_pair hk
  have := hx p.1 hp
  unfold Win.get at this
  rw [h2, Res.ok_bind, h1, Res.ok_bind, this, Res.ok_bind]

/-- **C16 (every rounding).** For every memory-safe CRS matrix, every `x`, every prior content of `y`
and every schedule of the rows, `matvec(A, x, y)` completes in bounds, changes nothing but the elements
of `y`, and sets `y[i]` to the left-to-right sum over the stored entries of row `i` of value times
`x[column]`. No law of arithmetic is used, so this is the bit-exact result for floating point. -/
theorem C16_matvec_exact [Zero α] [One α] [Add α] [Mul α] (A : Crs α) (hA : A.Safe) (x y : Win α)
    (hxs : x.size = A.colN) (hys : y.size = A.rowN) (hy : y.Ok) (xs : Nat → α)
    (hx : ∀ j, j < x.size → x.get j = .ok (xs j)) (order : List Nat) (ho : Order order A.rowN) :
    ∃ y', A.matvec order x y = .ok y' ∧ y.Updated y' ∧ ∀ i, i < A.rowN →
      y'.get i = .ok ((A.rowEntries i).foldl (fun acc e => acc + e.2.2 * xs e.2.1) 0) := by
  unfold Win.Ok at hy
  unfold Crs.matvec Crs.matvecCore
  simp only [Bool.false_eq_true, if_false]
  rw [cassert_decide hys.symm, Res.ok_bind, cassert_decide hxs.symm, Res.ok_bind]
  obtain ⟨r, hr, hl, h1, h2⟩ := forList_update order A.rowN y.off
    (fun i _ => (A.rowEntries i).foldl (fun acc e => acc + e.2.2 * xs e.2.1) 0) ho
    (body := fun i b => do
      let t ← A.rowDot x i
      wr b (y.off + i) t) y.buf (by omega)
    (by
      intro i t u hi ht hu
      rw [rowDot_ok hA xs (fun j hj => hx j (by omega)) hi, Res.ok_bind])
  rw [hr, Res.ok_bind]
  refine ⟨_, rfl, ⟨rfl, rfl, hl, fun k hk => h2 k (by omega)⟩, ?_⟩
  intro i hi
  unfold Win.get
  rw [rd_eq_ok]
  exact h1 i _ hi (List.getElem?_eq_getElem (by omega))

/-- **C16 (matvec).** Over any semiring, `matvec(A, x, y)` overwrites `y` with the product `A x`, for
every schedule and every prior content of `y`. -/
theorem C16_matvec [Semiring α] (A : Crs α) (hA : A.Safe) (x y : Win α)
    (hxs : x.size = A.colN) (hys : y.size = A.rowN) (hy : y.Ok) (xs : Nat → α)
    (hx : ∀ j, j < x.size → x.get j = .ok (xs j)) (order : List Nat) (ho : Order order A.rowN) :
    ∃ y', A.matvec order x y = .ok y' ∧ y.Updated y' ∧ ∀ i, i < A.rowN →
      y'.get i = .ok (mulVec A.colN (crsAt A) xs i) := by
  obtain ⟨y', h1, h2, h3⟩ := C16_matvec_exact A hA x y hxs hys hy xs hx order ho
  refine ⟨y', h1, h2, fun i hi => ?_⟩
  rw [h3 i hi, foldl_add_eq, zero_add,
    row_sum_eq _ i A.colN xs (A.rowEntries_fst i) (hA.rowEntries_col hi)]
  simp only [mulVec, crsAt, A.sumAt_entries hi]

/-- **C16 (matvec_T).** `matvec_T(A, x, y)` overwrites `y` with `Aᵀ x`. -/
theorem C16_matvec_T [Semiring α] (A : Crs α) (hA : A.Safe) (x y : Win α)
    (hxs : x.size = A.rowN) (hys : y.size = A.colN) (hy : y.Ok) (xs : Nat → α)
    (hx : ∀ j, j < x.size → x.get j = .ok (xs j)) (zorder : List Nat) (ho : Order zorder A.colN) :
    ∃ y', A.matvecT zorder x y = .ok y' ∧ y.Updated y' ∧ ∀ j, j < A.colN →
      y'.get j = .ok (mulVec A.rowN (fun j i => crsAt A i j) xs j) := by
  unfold Win.Ok at hy
  unfold Crs.matvecT Crs.matvecCore
  simp only [if_true]
  rw [cassert_decide hxs.symm, Res.ok_bind, cassert_decide hys.symm, Res.ok_bind]
  obtain ⟨r, hr, hl, h1, h2⟩ := forList_update zorder A.colN y.off (fun _ _ => (0 : α)) ho
    (body := fun i b => wr b (y.off + i) 0) y.buf (by omega) (by intros; rfl)
  rw [hr, Res.ok_bind]
  have hloop := hA.loop_sat (body := fun i j b => do
        let c ← rd A.colInd j
        let u ← rd b (y.off + c)
        let v ← rd A.val j
        let xv ← rd x.buf (x.off + i)
        wr b (y.off + c) (u + v * xv)) (s := r)
    (fun L b => b.length = y.buf.length ∧
      (∀ j, j < A.colN → b[y.off + j]? =
        some ((L.filter (fun e => e.2.1 == j)).map (fun e => e.2.2 * xs e.1)).sum) ∧
      (∀ k, k < y.off ∨ y.off + A.colN ≤ k → b[k]? = y.buf[k]?))
    ⟨hl, by
      intro j hj
      simpa using h1 j _ hj (List.getElem?_eq_getElem (by omega)), h2⟩
    (by
      rintro L e R b k hE he hk ⟨hbl, hb1, hb2⟩
      have hcol := (Crs.pairs_col_lt hA hk).1
      obtain ⟨g1, g2⟩ := Crs.rd_col_of_pair hk
      have gx := hx e.1 (by omega)
      unfold Win.get at gx
      simp only [g1, Res.ok_bind, rd_of_getElem? (hb1 _ hcol), g2, gx]
      rw [wr_ok (by omega), Res.sat_ok]
      refine ⟨by simpa using hbl, ?_, ?_⟩
      · intro j hj
        rw [List.getElem?_set, List.filter_append, List.map_append, List.sum_append]
        by_cases hje : e.2.1 = j
        · subst hje
          rw [if_pos rfl, if_pos (by omega)]
          simp
        · rw [if_neg (by omega), hb1 j hj]
          simp [hje]
      · intro k' hk'
        rw [List.getElem?_set, if_neg (by omega)]
        exact hb2 k' hk')
  obtain ⟨b, hb, hbl, hb1, hb2⟩ := hloop
  rw [hb, Res.ok_bind]
  refine ⟨_, rfl, ⟨rfl, rfl, hbl, fun k hk => hb2 k (by omega)⟩, ?_⟩
  intro j hj
  unfold Win.get
  rw [rd_eq_ok]
  simp only
  rw [hb1 j hj, col_sum_eq _ j A.rowN xs (fun e he => (hA.col_lt_of_mem he).1)]
  rfl

/-- a 2 × 3 matrix with an empty column, a duplicate-free row and an empty row range -/
example : ∃ A : Crs Int, A.Safe ∧ A.rowN = 2 ∧ A.colN = 3 ∧
    A.matvec [1, 0] ⟨[1, 10, 100], 0, 3⟩ ⟨[7, 7, 7], 1, 2⟩ = .ok ⟨[7, 201, 30], 1, 2⟩ ∧
    A.matvecT [2, 0, 1] ⟨[1, 10], 0, 2⟩ ⟨[7, 7, 7], 0, 3⟩ = .ok ⟨[1, 30, 2], 0, 3⟩ := by
  refine ⟨⟨2, 3, [0, 2, 3], [0, 2, 1], [1, 2, 3], 3, 3, true⟩, ?_, rfl, rfl, rfl, rfl⟩
  exact { created := rfl, lenV := rfl, nnz_le := by decide, lenP := rfl, ptr_le := by decide,
          lenC := by decide, col_lt := by decide }

/-! ### C17 -/

/-- **C17 (violated).** `matvec(a, A, x, b, y)` on CRS matrices ignores `a` and `b`: for *all*
arguments it does the same as with any other scalars. -/
theorem C17_ignores_scalars [Zero α] [Add α] [Mul α] (order : List Nat) (a a' b b' : α) (A : Crs α)
    (x y : Win α) : A.matvecScaled order a x b y = A.matvecScaled order a' x b' y := rfl

/-- the property itself, and its negation: `2 * [1] * [1] + 3 * [1]` gives 1 instead of 5 -/
theorem C17_crs_violated :
    ¬ ∀ (A : Crs Int) (x y : Win Int) (xs : Nat → Int) (a b : Int), A.Safe → x.size = A.colN →
        y.size = A.rowN → y.Ok → (∀ j, j < x.size → x.get j = .ok (xs j)) →
        ∃ y', A.matvecScaled (List.range A.rowN) a x b y = .ok y' ∧ ∀ i u, i < A.rowN →
          y.get i = .ok u → y'.get i = .ok (a * mulVec A.colN (crsAt A) xs i + b * u) := by
  intro h
  obtain ⟨y', h1, h2⟩ := h ⟨1, 1, [0, 1], [0], [1], 1, 1, true⟩ ⟨[1], 0, 1⟩ ⟨[1], 0, 1⟩ (fun _ => 1) 2 3
    { created := rfl, lenV := rfl, nnz_le := by decide, lenP := rfl, ptr_le := by decide,
      lenC := by decide, col_lt := by decide } rfl rfl (by unfold Win.Ok; decide)
    (by intro j hj; simp only at hj; have : j = 0 := by omega
        subst this; rfl)
  have h3 := h2 0 1 (by decide) rfl
  have h4 : (Res.ok ⟨[1], 0, 1⟩ : Res (Win Int)) = .ok y' := h1
  injection h4 with h4
  subst h4
  simp only [mulVec, Finset.sum_range_one, crsAt] at h3
  revert h3; decide

/-- **C17 (CRS, `a = 1`, `b = 0`).** Missing from the full property: every other pair of scalars. -/
theorem C17_crs_partial [Semiring α] (A : Crs α) (hA : A.Safe) (x y : Win α)
    (hxs : x.size = A.colN) (hys : y.size = A.rowN) (hy : y.Ok) (xs : Nat → α)
    (hx : ∀ j, j < x.size → x.get j = .ok (xs j)) (order : List Nat) (ho : Order order A.rowN) :
    ∃ y', A.matvecScaled order 1 x 0 y = .ok y' ∧ y.Updated y' ∧ ∀ i u, i < A.rowN →
      y.get i = .ok u → y'.get i = .ok (1 * mulVec A.colN (crsAt A) xs i + 0 * u) := by
  obtain ⟨y', h1, h2, h3⟩ := C16_matvec A hA x y hxs hys hy xs hx order ho
  exact ⟨y', h1, h2, fun i u hi _ => by rw [h3 i hi]; simp⟩

/-- **C17 (Dense).** For dense matrices (also aliases at an offset) `matvec(a, A, x, b, y)` computes
`y := a*A*x + b*y` for all scalars, and the transposed variant `y := a*Aᵀ*x + b*y`, given the reference
semantics of `gemv`. -/
theorem C17_dense [Semiring α] (A : Dense α) (hA : A.WF) (x y : Win α) (a b : α) (f : Nat → Nat → α)
    (hf : ∀ i j, i < A.rowN → j < A.colN → A.at_ i j = .ok (f i j)) (hy : y.Ok) (xs : Nat → α)
    (hx : ∀ j, j < x.size → x.get j = .ok (xs j)) :
    (x.size = A.colN → y.size = A.rowN → ∃ y', Dense.matvecCore a A x b y false = .ok y' ∧
      y.Updated y' ∧ ∀ i u, i < A.rowN → y.get i = .ok u →
        y'.get i = .ok (a * mulVec A.colN f xs i + b * u)) ∧
    (x.size = A.rowN → y.size = A.colN → ∃ y', Dense.matvecCore a A x b y true = .ok y' ∧
      y.Updated y' ∧ ∀ j u, j < A.colN → y.get j = .ok u →
        y'.get j = .ok (a * mulVec A.rowN (fun j i => f i j) xs j + b * u)) := by
  have ha : ∀ i j, i < A.rowN → j < A.colN → A.val[A.first + (i * A.colN + j)]? = some (f i j) := by
    intro i j hi hj
    have := hf i j hi hj
    rw [Dense.at_eq_rd hA hi hj, rd_eq_ok, Nat.mul_comm] at this
    exact this
  constructor
  · intro hxs hys
    obtain ⟨y', h1, h2, h3⟩ := gemv_ok false A.rowN A.colN a b A.val A.first x y f xs ha
      (fun j hj => hx j (by simp at hj; omega)) hy (by simpa using hys)
    refine ⟨y', ?_, h2, fun i u hi hu => by simpa using h3 i u (by omega) hu⟩
    unfold Dense.matvecCore
    simp only [Bool.false_eq_true, if_false]
    rw [cassert_decide hys.symm, Res.ok_bind, cassert_decide hxs.symm, Res.ok_bind]
    exact h1
  · intro hxs hys
    obtain ⟨y', h1, h2, h3⟩ := gemv_ok true A.rowN A.colN a b A.val A.first x y f xs ha
      (fun j hj => hx j (by simp at hj; omega)) hy (by simpa using hys)
    refine ⟨y', ?_, h2, fun i u hi hu => by simpa using h3 i u (by omega) hu⟩
    unfold Dense.matvecCore
    simp only [if_true]
    rw [cassert_decide hxs.symm, Res.ok_bind, cassert_decide hys.symm, Res.ok_bind]
    exact h1

example : Dense.matvecCore 2 (⟨2, 2, [9, 1, 2, 3, 4], 4, 5, 1, false⟩ : Dense Int) ⟨[1, 10], 0, 2⟩ 3
    ⟨[1, 1], 0, 2⟩ false = .ok ⟨[45, 89], 0, 2⟩ := rfl

end Verif
