import Verif.Props.LinOp

/-!
# C40: matrix products through a LinearOperator, and conversion back to Dense
-/

namespace Verif
namespace LinOp

open Spec

variable {α : Type} [Field α] {ord : Nat → List Nat} {σ : Store α}

/-! ## Assignment of dense matrices -/

omit [Field α] in
/-- `C = D` for dense matrices of the same shape copies the elements of `D`, writes nothing outside `C`. -/
theorem assignDense_ok (C D : Dense α) (hC : C.WF) (hD : D.WF) (h1 : C.rowN = D.rowN) (h2 : C.colN = D.colN)
    (f : Nat → Nat → α) (hf : D.Reads f) :
    ∃ C', assignDense C D = .ok C' ∧ C'.WF ∧ (C'.rowN = C.rowN ∧ C'.colN = C.colN ∧ C'.first = C.first) ∧
      C'.Reads f ∧ (∀ k, k < C.first ∨ C.first + C.nnz ≤ k → C'.val[k]? = C.val[k]?) := by
  have c1 := hC.lenV; have c2 := hC.window; have c3 := hC.nnz_eq
  have d1 := hD.lenV; have d2 := hD.window; have d3 := hD.nnz_eq
  have hn : C.nnz = D.nnz := by rw [c3, d3, h1, h2]
  unfold assignDense
  rw [cassert_decide ⟨h1, h2⟩, Res.ok_bind, vcopy_ok (by simp; omega) (by simp; omega), Res.ok_bind]
  have hlen : (C.val.take C.first ++ ((D.val.drop D.first).take C.nnz ++
      (C.val.drop C.first).drop C.nnz)).length = C.val.length := by
    simp; omega
  have hW : ({ C with val := (C.val.take C.first ++ ((D.val.drop D.first).take C.nnz ++
      (C.val.drop C.first).drop C.nnz)), created := true } : Dense α).WF := ⟨by simp only; rw [hlen]; exact c1, c3, c2⟩
  refine ⟨_, rfl, hW, ⟨rfl, rfl, rfl⟩, ?_, ?_⟩
  · intro i j hi hj
    have hi' : i < D.rowN := h1 ▸ hi
    have hj' : j < D.colN := h2 ▸ hj
    refine Dense.at_of_getElem? hW hi hj ?_
    have hb := hf.getElem? hD hi' hj'
    have hlt := hC.idx_lt hi hj
    simp only
    rw [List.getElem?_append_right (by simp), List.getElem?_append_left (by simp; omega)]
    rw [List.getElem?_take_of_lt (by simp; omega), List.getElem?_drop]
    rw [← hb, ← h2]
    congr 1
    simp only [List.length_take]
    omega
  · intro k hk
    rcases hk with hk | hk
    · rw [List.getElem?_append_left (by simp; omega), List.getElem?_take_of_lt hk]
    · rw [List.getElem?_append_right (by simp; omega), List.getElem?_append_right (by simp; omega)]
      rw [List.getElem?_drop, List.getElem?_drop]
      congr 1
      simp; omega

/-! ## Products -/

/-- `blas::matmul(L, B, C)` on the operator at `l` computes `C := M B`. -/
def MatmulIs (ord : Nat → List Nat) (σ : Store α) (l r k : Nat) (M : Nat → Nat → α) : Prop :=
  ∀ (B C : Dense α), B.WF → C.WF → B.rowN = k → C.rowN = r → C.colN = B.colN →
    ∀ f : Nat → Nat → α, B.Reads f →
    ∃ C', matmulDense ord σ l B C = .ok C' ∧ C'.WF ∧
      (C'.rowN = C.rowN ∧ C'.colN = C.colN ∧ C'.first = C.first) ∧ C'.Reads (mulMat k M f) ∧
      (∀ i, i < C.first ∨ C.first + C.nnz ≤ i → C'.val[i]? = C.val[i]?)

theorem matmulIs_of_callMM {l r k : Nat} {M : Nat → Nat → α} {L : Op α} {g : MClo α} (hl : σ l = .op L)
    (hr : L.rowN = r) (hk : L.colN = k) (hg : L.mm = some g)
    (h : ∀ (B : Dense α), B.WF → B.rowN = k → ∀ f : Nat → Nat → α, B.Reads f →
      ∃ D, callMM ord σ g B = .ok D ∧ D.WF ∧ D.rowN = r ∧ D.colN = B.colN ∧ D.Reads (mulMat k M f)) :
    MatmulIs ord σ l r k M := by
  intro B C hB hC h1 h2 h3 f hf
  obtain ⟨D, q1, q2, q3, q4, q5⟩ := h B hB h1 f hf
  unfold matmulDense
  rw [getOp_ok hl, Res.ok_bind, cassert_decide (by rw [hk, h1]), Res.ok_bind, cassert_decide (by rw [hr, h2]),
    Res.ok_bind, cassert_decide h3.symm, Res.ok_bind, hg]
  simp only
  rw [q1, Res.ok_bind]
  exact assignDense_ok C D hC q2 (by rw [q3, h2]) (by rw [q4, h3]) _ q5

theorem crs_mm (hord : ∀ n, Order (ord n) n) (A : Crs α) (hA : A.Safe) (B : Dense α) (hB : B.WF)
    (h : B.rowN = A.colN) (f : Nat → Nat → α) (hf : B.Reads f) :
    ∃ Z D, (Dense.new A.rowN B.colN : Res (Dense α)) = .ok Z ∧ A.matmulScalar (ord B.colN) 1 B 0 Z = .ok D ∧
      D.WF ∧ D.rowN = A.rowN ∧ D.colN = B.colN ∧ D.Reads (mulMat A.colN (crsAt A) f) := by
  obtain ⟨Z, z1, z2, z3, z4, z5, z6, z7⟩ := Dense.new_ok (α := α) A.rowN B.colN
  let _ : Inhabited α := ⟨0⟩
  obtain ⟨c, hc⟩ := Dense.exists_reads (α := α) z2
  obtain ⟨D, q1, q2, q3, q4, -⟩ := C18_scalar 1 0 A hA B Z hB z2 h.symm z4.symm z5.symm f c hf hc _ (hord _)
  refine ⟨Z, D, z1, q1, q2, by rw [q3.1, z4], by rw [q3.2.1, z5], ?_⟩
  intro i j hi hj
  rw [q4 i j hi hj]
  simp

theorem dense_mm (A : Dense α) (hA : A.WF) (B : Dense α) (hB : B.WF) (h : B.rowN = A.colN)
    (e f : Nat → Nat → α) (he : A.Reads e) (hf : B.Reads f) :
    ∃ Z D, (Dense.new A.rowN B.colN : Res (Dense α)) = .ok Z ∧ Dense.matmulCore 1 A B 0 Z = .ok D ∧
      D.WF ∧ D.rowN = A.rowN ∧ D.colN = B.colN ∧ D.Reads (mulMat A.colN e f) := by
  obtain ⟨Z, z1, z2, z3, z4, z5, z6, z7⟩ := Dense.new_ok (α := α) A.rowN B.colN
  let _ : Inhabited α := ⟨0⟩
  obtain ⟨c, hc⟩ := Dense.exists_reads (α := α) z2
  obtain ⟨D, q1, q2, q3, q4, -⟩ := C18_dense 1 0 A B Z hA hB z2 h.symm z4.symm z5.symm e f c he hf hc
  refine ⟨Z, D, z1, q1, q2, by rw [q3.1, z4], by rw [q3.2.1, z5], ?_⟩
  intro i j hi hj
  rw [q4 i j hi hj]
  simp

/-- **C40 (product through CRS).** After `L.convert(A)` with a CRS matrix, `matmul(L, B, C)` gives `A B`. -/
theorem C40_matmul_crs (hord : ∀ n, Order (ord n) n) {l m : Nat} {L : Op α} {A : Crs α} (hL : σ l = .op L)
    (hm : σ m = .crs A) (hA : A.Safe) :
    ∃ σ', convertCrs σ l m = .ok σ' ∧ MatmulIs ord σ' l A.rowN A.colN (crsAt A) := by
  have hml : m ≠ l := by intro h; subst h; rw [hL] at hm; exact absurd hm (by simp)
  refine ⟨_, by simp only [convertCrs, getOp_ok hL, getCrs, hm, Res.ok_bind]; rfl, ?_⟩
  refine matmulIs_of_callMM (set_self _ _ _) rfl rfl rfl (fun B hB h1 f hf => ?_)
  obtain ⟨Z, D, z1, q1, q2, q3, q4, q5⟩ := crs_mm hord A hA B hB h1 f hf
  refine ⟨D, ?_, q2, q3, q4, q5⟩
  simp only [callMM, getCrs, set_ne σ _ hml, hm, Res.ok_bind, z1, getOp_ok (set_self _ _ _), q1]

/-- **C40 (product through Dense).** The same for a Dense matrix. -/
theorem C40_matmul_dense {l m : Nat} {L : Op α} {A : Dense α} (hL : σ l = .op L) (hm : σ m = .dense A)
    (hA : A.WF) (e : Nat → Nat → α) (he : A.Reads e) :
    ∃ σ', convertDense σ l m = .ok σ' ∧ MatmulIs ord σ' l A.rowN A.colN e := by
  have hml : m ≠ l := by intro h; subst h; rw [hL] at hm; exact absurd hm (by simp)
  refine ⟨_, by simp only [convertDense, getOp_ok hL, getDense, hm, Res.ok_bind]; rfl, ?_⟩
  refine matmulIs_of_callMM (set_self _ _ _) rfl rfl rfl (fun B hB h1 f hf => ?_)
  obtain ⟨Z, D, z1, q1, q2, q3, q4, q5⟩ := dense_mm A hA B hB h1 e f he hf
  refine ⟨D, ?_, q2, q3, q4, q5⟩
  simp only [callMM, getDense, set_ne σ _ hml, hm, Res.ok_bind, z1, getOp_ok (set_self _ _ _), q1]

/-- **C40 (product through COO).** The same for a COO matrix with sorted rows. -/
theorem C40_matmul_coo (hord : ∀ n, Order (ord n) n) {l m : Nat} {L : Op α} {A : Coo α} (hL : σ l = .op L)
    (hm : σ m = .coo A) (hA : A.WF) (hin : Within A.rowN A.colN A.entries) (hs : SortedRows A.entries) :
    ∃ σ', convertCoo σ l m = .ok σ' ∧ MatmulIs ord σ' l A.rowN A.colN (sumAt A.entries) := by
  have hml : m ≠ l := by intro h; subst h; rw [hL] at hm; exact absurd hm (by simp)
  refine ⟨_, by simp only [convertCoo, getOp_ok hL, getCoo, hm, Res.ok_bind]; rfl, ?_⟩
  refine matmulIs_of_callMM (set_self _ _ _) rfl rfl rfl (fun B hB h1 f hf => ?_)
  obtain ⟨E, e1, e2, e3, -, e5, -, e7⟩ := C06_convert_rows A hA hin hs
  obtain ⟨Z, D, z1, q1, q2, q3, q4, q5⟩ := crs_mm hord E e5.toSafe B hB (by rw [h1, e3]) f hf
  refine ⟨D, ?_, q2, by rw [q3, e2], q4, ?_⟩
  · simp only [callMM, getCoo, set_ne σ _ hml, hm, Res.ok_bind, e1, z1, q1]
  · have : crsAt E = sumAt A.entries := by funext i j; simp only [crsAt, e7]
    rw [e3, this] at q5
    exact q5

/-! ## Conversion to Dense -/

theorem image_unit (r c : Nat) (M : Nat → Nat → α) {i j : Nat} (hi : i < c) (hj : j < r) :
    (image r c M ((List.replicate c 0).set i 1)).getD j 0 = M j i := by
  rw [getD_image r c M _ hj]
  unfold mulVec
  rw [Finset.sum_eq_single i]
  · simp [List.getD, hi]
  · intro b hb hbi
    have : b < c := Finset.mem_range.mp hb
    simp [List.getD, this, Ne.symm hbi]
  · intro h
    exact absurd (Finset.mem_range.mpr hi) h

/-- **C40 (convert_to_Dense).** An operator that acts as the matrix `M` is converted to the Dense matrix `M`;
the target must have the same shape. -/
theorem C40_to_dense {a r k : Nat} {M : Nat → Nat → α} (hA : Acts ord σ false a r k M) (C : Dense α)
    (hC : C.WF) (hr : C.rowN = r) (hk : C.colN = k) :
    ∃ n0, ∀ n, n0 ≤ n → ∃ C', toDense ord n σ a C = .ok C' ∧ C'.WF ∧
      (C'.rowN = r ∧ C'.colN = k) ∧ C'.Reads M := by
  obtain ⟨A, hA1, ar, ak⟩ := hA.op
  obtain ⟨g, hg⟩ := hA.fn_some hA1
  obtain ⟨n0, h0⟩ := hA.call_fn hA1 hg
  refine ⟨n0, fun n hn => ?_⟩
  have hmv : A.mv = some g := hg
  have hcall : ∀ i, call ord σ false n g ((List.replicate k 0).set i 1) =
      .ok (image r k M ((List.replicate k 0).set i 1)) := fun i => h0 n hn _ (by simp)
  unfold toDense
  rw [getOp_ok hA1, Res.ok_bind, hmv]
  simp only [ar, ak]
  have hloop := forN_sat (n := k) (s := List.replicate (r * k) (0 : α))
    (body := fun i values => do
      let ans ← call ord σ false n g ((List.replicate k 0).set i 1)
      cassert (decide (ans.length = r))
      forN r (fun j values => do
        let u ← rd ans j
        wr values (j * k + i) u) values)
    (fun m (v : List α) => v.length = r * k ∧ ∀ i j, i < m → j < r → v[k * j + i]? = some (M j i))
    ⟨by simp, fun i j hi => absurd hi (by omega)⟩
    (by
      intro m v hm hv
      rw [hcall m, Res.ok_bind, cassert_decide (length_image _ _ _ _), Res.ok_bind]
      refine (forN_sat (fun q (w : List α) => w.length = r * k ∧
        (∀ i j, i < m → j < r → w[k * j + i]? = some (M j i)) ∧
        (∀ j, j < q → w[k * j + m]? = some (M j m))) ⟨hv.1, hv.2, fun j hj => absurd hj (by omega)⟩ ?_).mono ?_
      · intro q w hq ⟨w1, w2, w3⟩
        have hlt := idx_lt hq hm
        have hu : (image r k M ((List.replicate k 0).set m 1))[q]? = some (M q m) := by
          have := image_unit r k M hm hq
          rw [List.getD_eq_getElem?_getD] at this
          rw [List.getElem?_eq_getElem (by rw [length_image]; exact hq)] at this ⊢
          simpa using this
        rw [(rd_eq_ok).mpr hu, Res.ok_bind, Nat.mul_comm q k, wr_ok (by omega)]
        refine Res.sat_ok.mpr ⟨by simp [w1], ?_, ?_⟩
        · intro i j hi hj
          have : k * q + m ≠ k * j + i := fun h => by
            have := (idx_inj hm (by omega) h).2; omega
          rw [List.getElem?_set_ne this]
          exact w2 i j hi hj
        · intro j hj
          by_cases hjq : j = q
          · subst hjq
            rw [List.getElem?_set_self (by omega)]
          · have : k * q + m ≠ k * j + m := fun h => hjq ((idx_inj hm hm h).1.symm)
            rw [List.getElem?_set_ne this]
            exact w3 j (by omega)
      · rintro w ⟨w1, w2, w3⟩
        refine ⟨w1, fun i j hi hj => ?_⟩
        rcases Nat.lt_succ_iff_lt_or_eq.mp hi with h | h
        · exact w2 i j h hj
        · subst h; exact w3 j hj)
  obtain ⟨v, hv, hv1, hv2⟩ := hloop
  rw [hv, Res.ok_bind]
  have hD : ({ rowN := r, colN := k, val := v, nnz := r * k, alloc := r * k, first := 0, created := true } :
      Dense α).WF := ⟨hv1, rfl, by simp⟩
  obtain ⟨C', q1, q2, q3, q4, -⟩ := assignDense_ok C _ hC hD hr hk M (fun i j hi hj =>
    Dense.at_of_getElem? hD hi hj (by simpa using hv2 j i hj hi))
  exact ⟨C', q1, q2, ⟨by rw [q3.1, hr], by rw [q3.2.1, hk]⟩, q4⟩

end LinOp
end Verif
