import Verif.Lemmas.Prod
import Mathlib.Algebra.Ring.Int.Defs
import Mathlib.Algebra.BigOperators.Ring.List

/-!
C18: matrix-matrix products CRS × Dense and Dense × Dense.
-/

namespace Verif

open Spec

variable {α : Type}

/-- a dense matrix read as a function -/
def Dense.Reads (D : Dense α) (f : Nat → Nat → α) : Prop :=
  ∀ i j, i < D.rowN → j < D.colN → D.at_ i j = .ok (f i j)

theorem Dense.exists_reads [Inhabited α] {D : Dense α} (h : D.WF) : ∃ f, D.Reads f := by
  refine ⟨fun i j => match D.at_ i j with | .ok v => v | _ => default, ?_⟩
  intro i j hi hj
  obtain ⟨v, hv, _⟩ := Dense.at_exists h hi hj
  simp only [hv]

theorem Dense.Reads.getElem? {D : Dense α} (h : D.WF) {f : Nat → Nat → α} (hf : D.Reads f)
    {i j : Nat} (hi : i < D.rowN) (hj : j < D.colN) :
    D.val[D.first + (D.colN * i + j)]? = some (f i j) := by
  have := hf i j hi hj
  rwa [Dense.at_eq_rd h hi hj, rd_eq_ok] at this

/-- A dense matrix whose window was recomputed cell by cell. -/
theorem Dense.updated {C : Dense α} (hC : C.WF) {c : Nat → Nat → α} (hc : C.Reads c)
    {V : List α} (hV : V.length = C.val.length) (f : Nat → Nat → α → α)
    (hcell : ∀ i j u, i < C.rowN → j < C.colN → C.val[C.first + (C.colN * i + j)]? = some u →
      V[C.first + (C.colN * i + j)]? = some (f i j u)) :
    ({ C with val := V } : Dense α).WF ∧
      ({ C with val := V } : Dense α).Reads (fun i j => f i j (c i j)) := by
  have hW : ({ C with val := V } : Dense α).WF :=
    ⟨by simp only; rw [hV]; exact hC.lenV, hC.nnz_eq, hC.window⟩
  refine ⟨hW, ?_⟩
  intro i j hi hj
  exact Dense.at_of_getElem? hW hi hj (hcell i j _ hi hj (hc.getElem? hC hi hj))

theorem rowDotCol_ok [Zero α] [Add α] [Mul α] {A : Crs α} (hA : A.Safe) {B : Dense α} (hB : B.WF)
    (hAB : A.colN = B.rowN) {f : Nat → Nat → α} (hf : B.Reads f) {i j : Nat} (hi : i < A.rowN)
    (hj : j < B.colN) : A.rowDotCol B B.colN i j =
      .ok ((A.rowEntries i).foldl (fun acc e => acc + e.2.2 * f e.2.1 j) 0) := by
  unfold Crs.rowDotCol
  refine hA.row_fold hi (fun acc e => acc + e.2.2 * f e.2.1 j) 0 ?_
  intro k p s hk hp
  obtain ⟨h1, h2⟩ := Crs.rd_col_of_pair hk
  rw [h2, Res.ok_bind, h1, Res.ok_bind, rd_of_getElem? (hf.getElem? hB (by omega) hj), Res.ok_bind]

/-- the positions written by a loop over pairs (column, row) are pairwise different -/
theorem nodup_cells {M N o : Nat} {l l' : List Nat} (hl : l.Nodup) (hl' : l'.Nodup)
    (hN : ∀ j ∈ l, j < N) :
    ((l ×ˢ l').map (fun p => o + (p.2 * N + p.1))).Nodup := by
  apply (hl.product hl').map_on
  rintro ⟨j, i⟩ hp ⟨j', i'⟩ hp' h
  rw [List.mem_product] at hp hp'
  simp only at hp hp' h
  have := idx_inj (i := i) (i' := i') (hN j hp.1) (hN j' hp'.1)
    (by rw [Nat.mul_comm N i, Nat.mul_comm N i']; omega)
  rw [this.1, this.2]

theorem row_unique {i i' j N : Nat} (hj : j < N) (h1 : i' * N ≤ i * N + j)
    (h2 : i * N + j < i' * N + N) : i' = i := by
  rcases Nat.lt_trichotomy i' i with h | h | h
  · have : (i' + 1) * N ≤ i * N := Nat.mul_le_mul_right _ h
    rw [Nat.add_mul, Nat.one_mul] at this; omega
  · exact h
  · have : (i + 1) * N ≤ i' * N := Nat.mul_le_mul_right _ h
    rw [Nat.add_mul, Nat.one_mul] at this; omega

/-- **C18 (scalar kernel, every rounding).** For every memory-safe CRS `A`, dense `B`, `C` of matching
shapes (also aliases at offsets) and every schedule of the columns, `matmul(a, A, B, b, C)` completes
in bounds, leaves everything outside `C` unchanged, and sets `C(i,j)` to
`a * (left-to-right sum over row i of value * B(column, j)) + b * C(i,j)`. -/
theorem C18_scalar_exact [Zero α] [Add α] [Mul α] (a b : α) (A : Crs α) (hA : A.Safe)
    (B C : Dense α) (hB : B.WF) (hC : C.WF) (h1 : A.colN = B.rowN) (h2 : A.rowN = C.rowN)
    (h3 : B.colN = C.colN) (f c : Nat → Nat → α) (hf : B.Reads f) (hc : C.Reads c)
    (order : List Nat) (ho : Order order B.colN) :
    ∃ C', A.matmulScalar order a B b C = .ok C' ∧ C'.WF ∧
      (C'.rowN = C.rowN ∧ C'.colN = C.colN ∧ C'.first = C.first) ∧
      C'.Reads (fun i j =>
        a * (A.rowEntries i).foldl (fun acc e => acc + e.2.2 * f e.2.1 j) 0 + b * c i j) ∧
      (∀ k, k < C.first ∨ C.first + C.nnz ≤ k → C'.val[k]? = C.val[k]?) := by
  have c1 := hC.lenV; have c2 := hC.window; have c3 := hC.nnz_eq
  have hcell : ∀ p ∈ order ×ˢ List.range A.rowN, p.1 < B.colN ∧ p.2 < A.rowN ∧
      C.first + (p.2 * B.colN + p.1) < C.first + C.nnz := by
    rintro ⟨j, i⟩ hp
    rw [List.mem_product, ho.mem, List.mem_range] at hp
    refine ⟨hp.1, hp.2, ?_⟩
    have := idx_lt hp.2 hp.1
    rw [Nat.mul_comm B.colN] at this
    rw [c3, ← h2, ← h3]; simp only; omega
  unfold Crs.matmulScalar
  rw [cassert_decide h1, Res.ok_bind, cassert_decide h2, Res.ok_bind, cassert_decide h3, Res.ok_bind]
  simp only [forN_eq_forList]
  rw [forList_product]
  obtain ⟨V, hV, hVl, hV1, hV2⟩ := forList_points (order ×ˢ List.range A.rowN)
    (fun p => C.first + (p.2 * B.colN + p.1))
    (fun p u => a * (A.rowEntries p.2).foldl (fun acc e => acc + e.2.2 * f e.2.1 p.1) 0 + b * u)
    (nodup_cells (M := A.rowN) ho.nodup List.nodup_range (fun j hj => ho.mem.mp hj)) C.val
    (body := fun p s => do
      let tmp ← A.rowDotCol B B.colN p.2 p.1
      let o ← rd s (C.first + (p.2 * B.colN + p.1))
      wr s (C.first + (p.2 * B.colN + p.1)) (a * tmp + b * o))
    (fun p hp => by have := hcell p hp; omega)
    (by
      intro p t u hp ht hu
      obtain ⟨q1, q2, q3⟩ := hcell p hp
      rw [rowDotCol_ok hA hB h1 hf q2 q1, Res.ok_bind, rd_of_getElem? hu, Res.ok_bind])
  rw [hV, Res.ok_bind]
  obtain ⟨hW, hR⟩ := Dense.updated hC hc hVl (fun i j u =>
    a * (A.rowEntries i).foldl (fun acc e => acc + e.2.2 * f e.2.1 j) 0 + b * u) (by
      intro i j u hi hj hu
      rw [← h3, Nat.mul_comm] at hu ⊢
      exact hV1 (j, i) u (by rw [List.mem_product, ho.mem, List.mem_range]; omega) hu)
  refine ⟨_, rfl, hW, ⟨rfl, rfl, rfl⟩, hR, ?_⟩
  intro k hk
  apply hV2
  intro p hp
  have := hcell p hp; omega

/-- the mathematical value of the exact row sum -/
theorem rowsum_mulMat [Semiring α] {A : Crs α} (hA : A.Safe) (f : Nat → Nat → α) {i : Nat}
    (hi : i < A.rowN) (j : Nat) :
    (A.rowEntries i).foldl (fun acc e => acc + e.2.2 * f e.2.1 j) 0 =
      mulMat A.colN (crsAt A) f i j := by
  rw [foldl_add_eq, zero_add,
    row_sum_eq _ i A.colN (fun l => f l j) (A.rowEntries_fst i) (hA.rowEntries_col hi)]
  simp only [mulMat, crsAt, A.sumAt_entries hi]

/-- **C18 (scalar kernel).** Over any semiring, `C := a*A*B + b*C`. -/
theorem C18_scalar [Semiring α] (a b : α) (A : Crs α) (hA : A.Safe)
    (B C : Dense α) (hB : B.WF) (hC : C.WF) (h1 : A.colN = B.rowN) (h2 : A.rowN = C.rowN)
    (h3 : B.colN = C.colN) (f c : Nat → Nat → α) (hf : B.Reads f) (hc : C.Reads c)
    (order : List Nat) (ho : Order order B.colN) :
    ∃ C', A.matmulScalar order a B b C = .ok C' ∧ C'.WF ∧
      (C'.rowN = C.rowN ∧ C'.colN = C.colN ∧ C'.first = C.first) ∧
      C'.Reads (fun i j => a * mulMat A.colN (crsAt A) f i j + b * c i j) ∧
      (∀ k, k < C.first ∨ C.first + C.nnz ≤ k → C'.val[k]? = C.val[k]?) := by
  obtain ⟨C', q1, q2, q3, q4, q5⟩ := C18_scalar_exact a b A hA B C hB hC h1 h2 h3 f c hf hc order ho
  refine ⟨C', q1, q2, q3, ?_, q5⟩
  intro i j hi hj
  have hi' : i < A.rowN := by omega
  rw [q4 i j hi hj]
  simp only [rowsum_mulMat hA f hi']

/-! ### the SIMD kernel -/

theorem simdBlock_ok [Add α] [Mul α] {w : Nat} {av : α} {B : List α} {bb cc : Nat} {Cd : List α}
    (hb : bb + w ≤ B.length) (hc : cc + w ≤ Cd.length) :
    ∃ r, simdBlock w av B bb cc Cd = .ok r ∧ r.length = Cd.length ∧
      (∀ t c b, t < w → Cd[cc + t]? = some c → B[bb + t]? = some b → r[cc + t]? = some (c + av * b)) ∧
      (∀ k, k < cc ∨ cc + w ≤ k → r[k]? = Cd[k]?) := by
  unfold simdBlock
  rw [if_pos hb, if_pos hc]
  have hz : (List.zipWith (fun c b => c + av * b) ((Cd.drop cc).take w) ((B.drop bb).take w)).length
      = w := by simp; omega
  refine ⟨_, rfl, by simp; omega, ?_, ?_⟩
  · intro t c b ht h1 h2
    rw [List.getElem?_append_left (by simp; omega), List.getElem?_append_right (by simp),
      List.length_take, Nat.min_eq_left (by omega), Nat.add_sub_cancel_left,
      List.getElem?_zipWith, List.getElem?_take_of_lt ht, List.getElem?_take_of_lt ht,
      List.getElem?_drop, List.getElem?_drop, h1, h2]
  · intro k hk
    rcases hk with hk | hk
    · rw [List.append_assoc, List.getElem?_append_left (by simp; omega),
        List.getElem?_take_of_lt hk]
    · rw [List.getElem?_append_right (by simp; omega), List.getElem?_drop]
      congr 1
      simp
      omega

/-- the blocked column loops add `av * B` to every remaining column exactly once -/
theorem avxCols_ok [Add α] [Mul α] {N : Nat} {av : α} {B : List α} {br cr : Nat} (fuel j : Nat)
    (Cd : List α) (hf : N ≤ fuel + j) (hb : br + N ≤ B.length) (hc : cr + N ≤ Cd.length) :
    ∃ r, avxCols N av B br cr fuel j Cd = .ok r ∧ r.length = Cd.length ∧
      (∀ t c b, j ≤ t → t < N → Cd[cr + t]? = some c → B[br + t]? = some b →
        r[cr + t]? = some (c + av * b)) ∧
      (∀ k, k < cr + j ∨ cr + N ≤ k → r[k]? = Cd[k]?) := by
  induction fuel generalizing j Cd with
  | zero => exact ⟨Cd, rfl, rfl, fun t _ _ h1 h2 => by omega, fun _ _ => rfl⟩
  | succ fuel ih =>
    unfold avxCols
    by_cases h32 : j + 31 < N
    · rw [if_pos h32]
      obtain ⟨r1, e1, l1, v1, f1⟩ := simdBlock_ok (w := 8) (av := av) (B := B) (bb := br + j)
        (cc := cr + j) (Cd := Cd) (by omega) (by omega)
      obtain ⟨r2, e2, l2, v2, f2⟩ := simdBlock_ok (w := 8) (av := av) (B := B) (bb := br + j + 8)
        (cc := cr + j + 8) (Cd := r1) (by omega) (by omega)
      obtain ⟨r3, e3, l3, v3, f3⟩ := simdBlock_ok (w := 8) (av := av) (B := B) (bb := br + j + 16)
        (cc := cr + j + 16) (Cd := r2) (by omega) (by omega)
      obtain ⟨r4, e4, l4, v4, f4⟩ := simdBlock_ok (w := 8) (av := av) (B := B) (bb := br + j + 24)
        (cc := cr + j + 24) (Cd := r3) (by omega) (by omega)
      obtain ⟨r, e, l, v, fr⟩ := ih (j + 32) r4 (by omega) (by omega)
      rw [e1, Res.ok_bind, e2, Res.ok_bind, e3, Res.ok_bind, e4, Res.ok_bind]
      refine ⟨r, e, by omega, ?_, ?_⟩
      · intro t c b h1 h2 hc' hb'
        by_cases g1 : t < j + 8
        · rw [fr _ (by omega), f4 _ (by omega), f3 _ (by omega), f2 _ (by omega)]
          have := v1 (t - j) c b (by omega)
          rw [show cr + j + (t - j) = cr + t by omega, show br + j + (t - j) = br + t by omega] at this
          exact this hc' hb'
        · by_cases g2 : t < j + 16
          · rw [fr _ (by omega), f4 _ (by omega), f3 _ (by omega)]
            have := v2 (t - j - 8) c b (by omega)
            rw [show cr + j + 8 + (t - j - 8) = cr + t by omega,
              show br + j + 8 + (t - j - 8) = br + t by omega] at this
            exact this (by rw [f1 _ (by omega)]; exact hc') hb'
          · by_cases g3 : t < j + 24
            · rw [fr _ (by omega), f4 _ (by omega)]
              have := v3 (t - j - 16) c b (by omega)
              rw [show cr + j + 16 + (t - j - 16) = cr + t by omega,
                show br + j + 16 + (t - j - 16) = br + t by omega] at this
              exact this (by rw [f2 _ (by omega), f1 _ (by omega)]; exact hc') hb'
            · by_cases g4 : t < j + 32
              · rw [fr _ (by omega)]
                have := v4 (t - j - 24) c b (by omega)
                rw [show cr + j + 24 + (t - j - 24) = cr + t by omega,
                  show br + j + 24 + (t - j - 24) = br + t by omega] at this
                exact this (by rw [f3 _ (by omega), f2 _ (by omega), f1 _ (by omega)]; exact hc') hb'
              · exact v t c b (by omega) h2
                  (by rw [f4 _ (by omega), f3 _ (by omega), f2 _ (by omega), f1 _ (by omega)]
                      exact hc') hb'
      · intro k hk
        rw [fr k (by omega), f4 k (by omega), f3 k (by omega), f2 k (by omega), f1 k (by omega)]
    · rw [if_neg h32]
      by_cases h8 : j + 7 < N
      · rw [if_pos h8]
        obtain ⟨r1, e1, l1, v1, f1⟩ := simdBlock_ok (w := 8) (av := av) (B := B) (bb := br + j)
          (cc := cr + j) (Cd := Cd) (by omega) (by omega)
        obtain ⟨r, e, l, v, fr⟩ := ih (j + 8) r1 (by omega) (by omega)
        rw [e1, Res.ok_bind]
        refine ⟨r, e, by omega, ?_, ?_⟩
        · intro t c b h1 h2 hc' hb'
          by_cases g1 : t < j + 8
          · rw [fr _ (by omega)]
            have := v1 (t - j) c b (by omega)
            rw [show cr + j + (t - j) = cr + t by omega,
              show br + j + (t - j) = br + t by omega] at this
            exact this hc' hb'
          · exact v t c b (by omega) h2 (by rw [f1 _ (by omega)]; exact hc') hb'
        · intro k hk
          rw [fr k (by omega), f1 k (by omega)]
      · rw [if_neg h8]
        by_cases h1' : j < N
        · rw [if_pos h1', rd_ok (show cr + j < Cd.length by omega), Res.ok_bind,
            rd_ok (show br + j < B.length by omega), Res.ok_bind, wr_ok (by omega), Res.ok_bind]
          obtain ⟨r, e, l, v, fr⟩ := ih (j + 1) (Cd.set (cr + j) (Cd[cr + j] + av * B[br + j])) (by omega)
            (by simpa using hc)
          refine ⟨r, e, by simpa using l, ?_, ?_⟩
          · intro t c b h1 h2 hc' hb'
            by_cases g : t = j
            · subst g
              rw [fr _ (by omega), List.getElem?_set, if_pos rfl, if_pos (by omega)]
              rw [List.getElem?_eq_getElem (by omega)] at hc' hb'
              injection hc' with hc'; injection hb' with hb'
              rw [hc', hb']
            · exact v t c b (by omega) h2 (by rw [List.getElem?_set, if_neg (by omega)]; exact hc') hb'
          · intro k hk
            rw [fr k (by omega), List.getElem?_set, if_neg (by omega)]
        · rw [if_neg h1']
          exact ⟨Cd, rfl, rfl, fun t _ _ h1 h2 => by omega, fun _ _ => rfl⟩

/-- **C18 (SIMD kernel, every rounding).** For every number of columns (all residues modulo 8 and 32)
the AVX kernel completes in bounds, and adds to `b * C(i,j)`, in stored order, the products
`(a * value) * B(column, j)` of row `i`. -/
theorem C18_avx_exact [Zero α] [Add α] [Mul α] (a b : α) (A : Crs α) (hA : A.Safe)
    (B C : Dense α) (hB : B.WF) (hC : C.WF) (h1 : A.colN = B.rowN) (h2 : A.rowN = C.rowN)
    (h3 : B.colN = C.colN) (f c : Nat → Nat → α) (hf : B.Reads f) (hc : C.Reads c)
    (order zorder : List Nat) (ho : Order order A.rowN) (hz : Order zorder (A.rowN * B.colN)) :
    ∃ C', A.matmulAvx order zorder a B b C = .ok C' ∧ C'.WF ∧
      (C'.rowN = C.rowN ∧ C'.colN = C.colN ∧ C'.first = C.first) ∧
      C'.Reads (fun i j =>
        (A.rowEntries i).foldl (fun acc e => acc + a * e.2.2 * f e.2.1 j) (b * c i j)) ∧
      (∀ k, k < C.first ∨ C.first + C.nnz ≤ k → C'.val[k]? = C.val[k]?) := by
  have c1 := hC.lenV; have c2 := hC.window; have c3 := hC.nnz_eq
  have b1 := hB.lenV; have b2 := hB.window; have b3 := hB.nnz_eq
  rw [← h2, ← h3] at c3
  unfold Crs.matmulAvx
  rw [cassert_decide h1, Res.ok_bind, cassert_decide h2, Res.ok_bind, cassert_decide h3, Res.ok_bind]
  obtain ⟨Z, hZ, hZl, hZ1, hZ2⟩ := forList_update zorder (A.rowN * B.colN) C.first
    (fun _ u => b * u) hz (body := fun i Cd => do
      let u ← rd Cd (C.first + i)
      wr Cd (C.first + i) (b * u)) C.val (by omega)
    (by intro i t u hi ht hu; rw [rd_of_getElem? hu, Res.ok_bind])
  rw [hZ, Res.ok_bind]
  have hdec : ∀ k, C.first ≤ k → k < C.first + A.rowN * B.colN → ∃ i j, i < A.rowN ∧ j < B.colN ∧
      k = C.first + (i * B.colN + j) := by
    intro k hk1 hk2
    obtain ⟨d1, d2, d3⟩ := idx_decomp (n := k - C.first) (M := A.rowN) (N := B.colN) (by omega)
    refine ⟨_, _, d1, d2, ?_⟩
    rw [Nat.mul_comm] at d3; omega
  have hbnd : ∀ i j, i < A.rowN → j < B.colN → i * B.colN + j < A.rowN * B.colN := by
    intro i j hi hj
    have := idx_lt hi hj
    rwa [Nat.mul_comm B.colN] at this
  have hrowend : ∀ i, i < A.rowN → i * B.colN + B.colN ≤ A.rowN * B.colN := by
    intro i hi
    calc i * B.colN + B.colN = (i + 1) * B.colN := by rw [Nat.add_mul, Nat.one_mul]
      _ ≤ A.rowN * B.colN := Nat.mul_le_mul_right _ (by omega)
  -- effect of the iteration of row `i` on a cell
  let G : Nat → Nat → α → α := fun i k u =>
    if C.first + i * B.colN ≤ k ∧ k < C.first + i * B.colN + B.colN then
      (A.rowEntries i).foldl
        (fun acc e => acc + a * e.2.2 * f e.2.1 (k - (C.first + i * B.colN))) u
    else u
  obtain ⟨V, hV, hVl, hVk⟩ := forList_cells order G Z
    (body := fun i Cd => do
      let p ← rd A.rowPtr i
      let q ← rd A.rowPtr (i + 1)
      forRange p q (fun k Cd => do
        let c ← rd A.colInd k
        let x ← rd A.val k
        avxCols B.colN (a * x) B.val (B.first + B.colN * c) (C.first + i * B.colN) B.colN 0 Cd) Cd)
    (by
      intro i t hi ht
      have hi' := ho.mem.mp hi
      have hre := hrowend i hi'
      have := hA.row_sat hi' (s := t) (body := fun k Cd => do
          let c ← rd A.colInd k
          let x ← rd A.val k
          avxCols B.colN (a * x) B.val (B.first + B.colN * c) (C.first + i * B.colN) B.colN 0 Cd)
        (fun L t' => t'.length = Z.length ∧ ∀ k, t'[k]? = t[k]?.map (fun u =>
          if C.first + i * B.colN ≤ k ∧ k < C.first + i * B.colN + B.colN then
            L.foldl (fun acc e => acc + a * e.2.2 * f e.2.1 (k - (C.first + i * B.colN))) u
          else u)) ⟨ht, by intro k; simp⟩
        (by
          rintro L e R t' k hE he hk ⟨hl', hP⟩
          obtain ⟨g1, g2⟩ := Crs.rd_col_of_pair hk
          have hcol := (Crs.pairs_col_lt hA hk).1
          simp only [g1, g2, Res.ok_bind]
          have hBrow : B.colN * e.2.1 + B.colN ≤ B.nnz := by
            rw [b3, ← h1]
            calc B.colN * e.2.1 + B.colN = (e.2.1 + 1) * B.colN := by
                  rw [Nat.add_mul, Nat.one_mul, Nat.mul_comm]
              _ ≤ A.colN * B.colN := Nat.mul_le_mul_right _ (by omega)
          obtain ⟨r, hr, hrl, hr1, hr2⟩ := avxCols_ok (N := B.colN) (av := a * e.2.2) (B := B.val)
            (br := B.first + B.colN * e.2.1) (cr := C.first + i * B.colN) B.colN 0 t' (by omega)
            (by omega) (by omega)
          rw [hr, Res.sat_ok]
          refine ⟨by omega, ?_⟩
          intro k'
          by_cases hin : C.first + i * B.colN ≤ k' ∧ k' < C.first + i * B.colN + B.colN
          · have hu : k' < t.length := by omega
            have hPk := hP k'
            rw [List.getElem?_eq_getElem hu] at hPk ⊢
            simp only [hin, and_self, if_true, Option.map_some] at hPk ⊢
            have hbv := hf.getElem? hB (i := e.2.1) (j := k' - (C.first + i * B.colN)) (by omega)
              (by omega)
            have := hr1 (k' - (C.first + i * B.colN)) _ _ (by omega) (by omega)
              (by rw [show C.first + i * B.colN + (k' - (C.first + i * B.colN)) = k' by omega]
                  exact hPk)
              (by rw [show B.first + B.colN * e.2.1 + (k' - (C.first + i * B.colN)) =
                    B.first + (B.colN * e.2.1 + (k' - (C.first + i * B.colN))) by omega]
                  exact hbv)
            rw [show C.first + i * B.colN + (k' - (C.first + i * B.colN)) = k' by omega] at this
            rw [this]; simp
          · rw [hr2 k' (by omega), hP k']
            simp only [hin, if_false])
      obtain ⟨t', ht', hl', hP⟩ := this
      exact ⟨t', ht', hl', hP⟩)
  rw [hV, Res.ok_bind]
  have hcellV : ∀ i j, i < A.rowN → j < B.colN → ∀ u, Z[C.first + (i * B.colN + j)]? = some u →
      V[C.first + (i * B.colN + j)]? = some
        ((A.rowEntries i).foldl (fun acc e => acc + a * e.2.2 * f e.2.1 j) u) := by
    intro i j hi hj u hu
    rw [hVk, hu, Option.map_some,
      foldl_single order (fun i' u => G i' (C.first + (i * B.colN + j)) u) u ho.nodup
        (ho.mem.mpr hi) (i := i)]
    · simp only [G]
      rw [if_pos (by omega)]
      rw [show C.first + (i * B.colN + j) - (C.first + i * B.colN) = j by omega]
    · intro i' _ hne u'
      simp only [G]
      rw [if_neg]
      rintro ⟨q1, q2⟩
      exact hne (row_unique hj (by omega) (by omega))
  obtain ⟨hW, hR⟩ := Dense.updated hC hc (V := V) (by omega) (fun i j u =>
    (A.rowEntries i).foldl (fun acc e => acc + a * e.2.2 * f e.2.1 j) (b * u)) (by
      intro i j u hi hj hu
      rw [← h3, Nat.mul_comm] at hu ⊢
      exact hcellV i j (by omega) (by omega) _ (hZ1 _ u (hbnd i j (by omega) (by omega)) hu))
  refine ⟨_, rfl, hW, ⟨rfl, rfl, rfl⟩, hR, ?_⟩
  intro k hk
  simp only
  rw [hVk, hZ2 k (by omega)]
  cases hck : C.val[k]? with
  | none => rfl
  | some u =>
    rw [Option.map_some, foldl_id order (fun i u => G i k u) u]
    intro i hi u'
    have := hrowend i (ho.mem.mp hi)
    simp only [G]
    rw [if_neg (by omega)]

/-- **C18 (SIMD kernel).** Over any semiring the AVX kernel, too, computes `C := a*A*B + b*C`, for every
number of columns. -/
theorem C18_avx [Semiring α] (a b : α) (A : Crs α) (hA : A.Safe)
    (B C : Dense α) (hB : B.WF) (hC : C.WF) (h1 : A.colN = B.rowN) (h2 : A.rowN = C.rowN)
    (h3 : B.colN = C.colN) (f c : Nat → Nat → α) (hf : B.Reads f) (hc : C.Reads c)
    (order zorder : List Nat) (ho : Order order A.rowN) (hz : Order zorder (A.rowN * B.colN)) :
    ∃ C', A.matmulAvx order zorder a B b C = .ok C' ∧ C'.WF ∧
      (C'.rowN = C.rowN ∧ C'.colN = C.colN ∧ C'.first = C.first) ∧
      C'.Reads (fun i j => a * mulMat A.colN (crsAt A) f i j + b * c i j) ∧
      (∀ k, k < C.first ∨ C.first + C.nnz ≤ k → C'.val[k]? = C.val[k]?) := by
  obtain ⟨C', q1, q2, q3, q4, q5⟩ :=
    C18_avx_exact a b A hA B C hB hC h1 h2 h3 f c hf hc order zorder ho hz
  refine ⟨C', q1, q2, q3, ?_, q5⟩
  intro i j hi hj
  have hi' : i < A.rowN := by omega
  rw [q4 i j hi hj]
  simp only
  rw [← rowsum_mulMat hA f hi', foldl_add_eq, foldl_add_eq, zero_add, add_comm]
  congr 2
  rw [← List.sum_map_mul_left]
  simp only [mul_assoc]

/-- both kernels on a 2 × 2 sparse and a 2 × 9 dense matrix (one block of 8 and one single column) -/
example : ∃ (A : Crs Int) (B C : Dense Int), A.Safe ∧ B.WF ∧ C.WF ∧
    A.matmulAvx [1, 0] (List.range 18) 2 B 3 C = A.matmulScalar (List.range 9) 2 B 3 C ∧
    ∃ R, A.matmulScalar (List.range 9) 2 B 3 C = .ok R ∧ R.at_ 1 8 = .ok 33 := by
  refine ⟨⟨2, 2, [0, 1, 2], [1, 0], [3, 5], 2, 2, true⟩,
    ⟨2, 9, [0,0,0,0,0,0,0,0,3,1,1,1,1,1,1,1,1,1], 18, 18, 0, true⟩,
    ⟨2, 9, [1,1,1,1,1,1,1,1,1,1,1,1,1,1,1,1,1,1], 18, 18, 0, true⟩, ?_, ⟨rfl, rfl, by decide⟩,
    ⟨rfl, rfl, by decide⟩, rfl, _, rfl, rfl⟩
  exact { created := rfl, lenV := rfl, nnz_le := by decide, lenP := rfl, ptr_le := by decide,
          lenC := by decide, col_lt := by decide }

/-- **C18 (Dense × Dense).** `matmul(a, A, B, b, C)` of dense matrices computes `C := a*A*B + b*C`, given
the reference semantics of `gemm`. -/
theorem C18_dense [Semiring α] (a b : α) (A B C : Dense α) (hA : A.WF) (hB : B.WF) (hC : C.WF)
    (h1 : A.colN = B.rowN) (h2 : A.rowN = C.rowN) (h3 : B.colN = C.colN) (e f c : Nat → Nat → α)
    (he : A.Reads e) (hf : B.Reads f) (hc : C.Reads c) :
    ∃ C', Dense.matmulCore a A B b C = .ok C' ∧ C'.WF ∧
      (C'.rowN = C.rowN ∧ C'.colN = C.colN ∧ C'.first = C.first) ∧
      C'.Reads (fun i j => a * mulMat A.colN e f i j + b * c i j) ∧
      (∀ k, k < C.first ∨ C.first + C.nnz ≤ k → C'.val[k]? = C.val[k]?) := by
  have c1 := hC.lenV; have c2 := hC.window; have c3 := hC.nnz_eq
  rw [← h2, ← h3] at c3
  have hcell : ∀ p ∈ List.range A.rowN ×ˢ List.range B.colN, p.1 < A.rowN ∧ p.2 < B.colN ∧
      C.first + (p.1 * B.colN + p.2) < C.first + C.nnz := by
    rintro ⟨i, j⟩ hp
    rw [List.mem_product, List.mem_range, List.mem_range] at hp
    refine ⟨hp.1, hp.2, ?_⟩
    have := idx_lt hp.1 hp.2
    rw [Nat.mul_comm B.colN] at this
    rw [c3]; simp only; omega
  unfold Dense.matmulCore gemm
  rw [cassert_decide h1, Res.ok_bind, cassert_decide h2, Res.ok_bind, cassert_decide h3, Res.ok_bind]
  rw [forN_eq_forList]
  simp only [forN_eq_forList B.colN]
  rw [forList_product]
  obtain ⟨V, hV, hVl, hV1, hV2⟩ := forList_points (List.range A.rowN ×ˢ List.range B.colN)
    (fun p => C.first + (p.1 * B.colN + p.2))
    (fun p u => a * mulMat A.colN e f p.1 p.2 + b * u)
    (by
      apply (List.nodup_range.product List.nodup_range).map_on
      rintro ⟨i, j⟩ hp ⟨i', j'⟩ hp' h
      have q := hcell _ hp
      have q' := hcell _ hp'
      simp only at h q q'
      have := idx_inj (i := i) (i' := i') q.2.1 q'.2.1
        (by rw [Nat.mul_comm B.colN i, Nat.mul_comm B.colN i']; omega)
      rw [this.1, this.2]) C.val
    (body := fun p s => do
      let t ← forN A.colN (fun l acc => do
        let u ← rd A.val (A.first + (p.1 * A.colN + l))
        let v ← rd B.val (B.first + (l * B.colN + p.2))
        .ok (acc + u * v)) 0
      let o ← rd s (C.first + (p.1 * B.colN + p.2))
      wr s (C.first + (p.1 * B.colN + p.2)) (a * t + b * o))
    (fun p hp => by have := hcell p hp; omega)
    (by
      intro p t u hp ht hu
      obtain ⟨q1, q2, q3⟩ := hcell p hp
      rw [forN_acc (fun l => e p.1 l * f l p.2), Res.ok_bind, rd_of_getElem? hu, Res.ok_bind, zero_add]
      · rfl
      · intro l acc hl
        rw [Nat.mul_comm p.1, rd_of_getElem? (he.getElem? hA q1 hl), Res.ok_bind, Nat.mul_comm l,
          rd_of_getElem? (hf.getElem? hB (by omega) q2), Res.ok_bind])
  rw [hV, Res.ok_bind]
  obtain ⟨hW, hR⟩ := Dense.updated hC hc hVl (fun i j u => a * mulMat A.colN e f i j + b * u) (by
      intro i j u hi hj hu
      rw [← h3, Nat.mul_comm] at hu ⊢
      exact hV1 (i, j) u (by rw [List.mem_product, List.mem_range, List.mem_range]; omega) hu)
  refine ⟨_, rfl, hW, ⟨rfl, rfl, rfl⟩, hR, ?_⟩
  intro k hk
  apply hV2
  intro p hp
  have := hcell p hp; omega

example : (Dense.matmulCore 1 (⟨1, 2, [1, 2], 2, 2, 0, true⟩ : Dense Int) ⟨2, 1, [9, 3, 4], 2, 3, 1, false⟩
    10 ⟨1, 1, [5], 1, 1, 0, true⟩).Sat (fun C => C.val = [61]) := ⟨_, rfl, rfl⟩

end Verif
