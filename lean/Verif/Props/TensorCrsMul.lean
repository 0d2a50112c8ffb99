import Verif.Lemmas.TensorCrsToCoo
import Verif.Props.TensorMul
import Verif.Props.Matmul
import Verif.Props.Matvec

/-!
C51: contractions and scalings of a `tensor_CRS`.
-/

namespace Verif

open Spec TDense

variable {α : Type}

namespace TCrs

theorem rdN_ok {l : List α} {o n : Nat} (h : o + n ≤ l.length) : rdN l o n = .ok ((l.drop o).take n) := by
  simp [rdN, h]

theorem wrN_ok {l b : List α} {o : Nat} (h : o + b.length ≤ l.length) :
    wrN l o b = .ok (l.take o ++ b ++ l.drop (o + b.length)) := by simp [wrN, h]

theorem blit_get {l b : List α} {o : Nat} (h : o + b.length ≤ l.length) (p : Nat) :
    (l.take o ++ b ++ l.drop (o + b.length))[p]? =
      if o ≤ p ∧ p < o + b.length then b[p - o]? else l[p]? := by
  have hl : (l.take o).length = o := by simp; omega
  by_cases h1 : p < o
  · rw [if_neg (by omega), List.append_assoc, List.getElem?_append_left (by omega),
      List.getElem?_take_of_lt h1]
  · by_cases h2 : p < o + b.length
    · rw [if_pos (by omega), List.append_assoc, List.getElem?_append_right (by omega), hl,
        List.getElem?_append_left (by omega)]
    · rw [if_neg (by omega), List.append_assoc, List.getElem?_append_right (by omega), hl,
        List.getElem?_append_right (by omega), List.getElem?_drop]
      congr 1; omega

theorem mat_ok {us : List Nat} {R C : Nat} {A : TCrs α} (hA : A.Tiled us R C) {d : Nat}
    (hd : d < volume us) : A.mat R C d (A.offset d) = .ok (A.slice R C d) := by
  have ht := hA.tiled d hd
  have hp : (A.rowPtrs.getD d []).length = R + 1 := ht.lenP
  have hot := offset_le (T := A) (n := volume us) (by rw [hA.lenC]) (d + 1) hd
  rw [hA.total, offset_succ (by rw [hA.lenC]; exact hd)] at hot
  have := hA.window
  have := hA.lenV
  unfold mat
  rw [getD_rd (by rw [hA.lenP]; exact hd) [], Res.ok_bind, getD_rd (by rw [hA.lenC]; exact hd) [],
    Res.ok_bind, readN_ok (by omega), Res.ok_bind, rdN_ok (by omega), Res.ok_bind]
  rw [List.take_of_length_le (by omega)]
  rfl

theorem forSlices_ok {us : List Nat} {R C : Nat} {A : TCrs α} (hA : A.Tiled us R C) {n o : Nat}
    {kernel : Crs α → List α → Res (List α)} {buf : List α} (hlen : o + volume us * n ≤ buf.length)
    (G : Nat → Nat → α → α)
    (hk : ∀ d, d < volume us → ∀ c, c.length = n → ∃ c', kernel (A.slice R C d) c = .ok c' ∧
      c'.length = n ∧ ∀ k u, c[k]? = some u → c'[k]? = some (G d k u)) :
    ∃ b, A.forSlices R C n kernel o buf = .ok b ∧ b.length = buf.length ∧
      (∀ d k u, d < volume us → k < n → buf[o + (d * n + k)]? = some u →
        b[o + (d * n + k)]? = some (G d k u)) ∧
      ∀ p, p < o ∨ o + volume us * n ≤ p → b[p]? = buf[p]? := by
  have hstep := forN_sat (n := A.rowPtrs.length) (body := fun d (s : Nat × List α) => do
    let M ← A.mat R C d s.1
    let c ← rdN s.2 (o + d * n) n
    let c ← kernel M c
    let b ← wrN s.2 (o + d * n) c
    Res.ok (s.1 + M.colInd.length, b)) (s := (0, buf))
    (fun i s => s.1 = A.offset i ∧ s.2.length = buf.length ∧
      (∀ d k u, d < volume us → k < n → buf[o + (d * n + k)]? = some u →
        s.2[o + (d * n + k)]? = some (if d < i then G d k u else u)) ∧
      ∀ p, p < o ∨ o + volume us * n ≤ p → s.2[p]? = buf[p]?)
    ⟨by simp [offset], rfl, by intro d k u _ _ h; simpa using h, by intros; rfl⟩ (by
    rintro i ⟨ns, b⟩ hi ⟨e1, e2, e3, e4⟩
    dsimp only at e1 e2 e3 e4
    have hiU : i < volume us := by rw [← hA.lenP]; exact hi
    have hb : o + i * n + n ≤ b.length := by
      have : (i + 1) * n ≤ volume us * n := Nat.mul_le_mul_right _ hiU
      have e : (i + 1) * n = i * n + n := by ring
      omega
    dsimp only
    rw [e1, mat_ok hA hiU, Res.ok_bind, rdN_ok (by omega), Res.ok_bind]
    obtain ⟨c', hc1, hc2, hc3⟩ := hk i hiU ((b.drop (o + i * n)).take n) (by simp; omega)
    rw [hc1, Res.ok_bind, wrN_ok (by omega), Res.ok_bind, Res.sat_ok]
    refine ⟨?_, ?_, ?_, ?_⟩
    · dsimp only
      rw [offset_succ (by rw [hA.lenC]; exact hiU)]
      rfl
    · simp; omega
    · intro d k u hd hkn hu
      have h3 := e3 d k u hd hkn hu
      dsimp only
      rw [blit_get (by omega), hc2]
      by_cases hdi : d = i
      · subst hdi
        rw [if_pos (by omega), if_pos (by omega)]
        rw [if_neg (by omega)] at h3
        have e : o + (d * n + k) - (o + d * n) = k := by omega
        rw [e]
        refine hc3 k u ?_
        rw [List.getElem?_take_of_lt hkn, List.getElem?_drop]
        have e : o + d * n + k = o + (d * n + k) := by omega
        rw [e]; exact h3
      · have hne : ¬ (o + i * n ≤ o + (d * n + k) ∧ o + (d * n + k) < o + i * n + n) := by
          rintro ⟨q1, q2⟩
          rcases Nat.lt_or_gt_of_ne hdi with h | h
          · have : (d + 1) * n ≤ i * n := Nat.mul_le_mul_right _ h
            have e : (d + 1) * n = d * n + n := by ring
            omega
          · have : (i + 1) * n ≤ d * n := Nat.mul_le_mul_right _ h
            have e : (i + 1) * n = i * n + n := by ring
            omega
        rw [if_neg hne, h3]
        by_cases hlt : d < i
        · rw [if_pos hlt, if_pos (by omega)]
        · rw [if_neg hlt, if_neg (by omega)]
    · intro p hp
      dsimp only
      have : (i + 1) * n ≤ volume us * n := Nat.mul_le_mul_right _ hiU
      have e : (i + 1) * n = i * n + n := by ring
      rw [blit_get (by omega), if_neg (by omega)]
      exact e4 p hp)
  obtain ⟨⟨ns, b⟩, h1, _, h2, h3, h4⟩ := hstep
  refine ⟨b, ?_, h2, ?_, h4⟩
  · unfold forSlices
    rw [h1, Res.ok_bind]
  · intro d k u hd hkn hu
    have := h3 d k u hd hkn hu
    rwa [if_pos (by rw [hA.lenP]; exact hd)] at this

/-- the loop over the slices, seen through positions of the output tensor -/
theorem slices_core {us ts : List Nat} {R N : Nat} {A : TCrs α} (hA : A.Tiled us R N) {C : TDense α}
    (hC : C.WF) (sC : C.shape = us ++ ts) {c : List Nat → α} (hc : C.Reads c)
    {kernel : Crs α → List α → Res (List α)} (G : Nat → Nat → α → α)
    (hk : ∀ d, d < volume us → ∀ c, c.length = volume ts → ∃ c', kernel (A.slice R N d) c = .ok c' ∧
      c'.length = volume ts ∧ ∀ k u, c[k]? = some u → c'[k]? = some (G d k u)) :
    ∃ v, A.forSlices R N (volume ts) kernel C.first C.val = .ok v ∧
      SameObject C { C with val := v } ∧
      ∀ ps qs, InShape us ps → InShape ts qs → ({ C with val := v } : TDense α).at_ (ps ++ qs) =
        .ok (G (rowMajor us ps) (rowMajor ts qs) (c (ps ++ qs))) := by
  have hn : C.nnz = volume us * volume ts := by rw [hC.nnz_eq, sC, volume_append]
  have hw := hC.window
  have hl := hC.lenV
  obtain ⟨v, h1, h2, h3, h4⟩ := forSlices_ok hA (n := volume ts) (o := C.first) (buf := C.val)
    (kernel := kernel) (by omega) G hk
  have hwf : ({ C with val := v } : TDense α).WF := ⟨by rw [← hl]; exact h2, hC.nnz_eq, hC.window⟩
  refine ⟨v, h1, ⟨hwf, rfl, rfl, ?_⟩, ?_⟩
  · intro k hk; rw [hn] at hk; exact h4 k hk
  · intro ps qs hps hqs
    have hin : InShape C.shape (ps ++ qs) := by rw [sC]; exact hps.append hqs
    have h5 := hc.getElem? hC hin
    rw [sC, rowMajor_append hps] at h5
    have h6 := h3 _ _ _ (rowMajor_lt hps) (rowMajor_lt hqs) h5
    rw [TDense.at_ok hwf hin, rd_eq_ok]
    show v[C.first + rowMajor C.shape (ps ++ qs)]? = _
    rw [sC, rowMajor_append hps]
    exact h6

/-- `mm` multiplies every memory-safe sparse matrix with `B`, whose elements are `f`:
`C := a * A * B + b * C`, other memory untouched (C18) -/
def MmOk [Semiring α] (mm : Crs α → Dense α → Dense α → Res (Dense α)) (a b : α) (B : Dense α)
    (f : Nat → Nat → α) : Prop :=
  ∀ A : Crs α, A.Safe → ∀ C : Dense α, C.WF → A.colN = B.rowN → A.rowN = C.rowN → B.colN = C.colN →
    ∀ c, C.Reads c → ∃ C', mm A B C = .ok C' ∧ C'.WF ∧
      (C'.rowN = C.rowN ∧ C'.colN = C.colN ∧ C'.first = C.first) ∧
      C'.Reads (fun i j => a * mulMat A.colN (crsAt A) f i j + b * c i j) ∧
      (∀ k, k < C.first ∨ C.first + C.nnz ≤ k → C'.val[k]? = C.val[k]?)

theorem mmOk_scalar [Semiring α] (a b : α) {B : Dense α} (hB : B.WF) {f : Nat → Nat → α} (hf : B.Reads f)
    {order : List Nat} (ho : Order order B.colN) :
    MmOk (fun M B D => M.matmulScalar order a B b D) a b B f :=
  fun A hA C hC h1 h2 h3 c hc => C18_scalar a b A hA B C hB hC h1 h2 h3 f c hf hc order ho

theorem mmOk_avx [Semiring α] (a b : α) {B : Dense α} (hB : B.WF) {f : Nat → Nat → α} (hf : B.Reads f)
    {sched : Nat → List Nat} (ho : ∀ n, Order (sched n) n) :
    MmOk (fun M B D => M.matmulAvx (sched M.rowN) (sched (M.rowN * B.colN)) a B b D) a b B f :=
  fun A hA C hC h1 h2 h3 c hc => C18_avx a b A hA B C hB hC h1 h2 h3 f c hf hc _ _ (ho _) (ho _)

/-- the matrix product on one block -/
theorem matmul_block [Semiring α] {mm : Crs α → Dense α → Dense α → Res (Dense α)} {a b : α} {A : Crs α}
    (hA : A.Safe) {B : Dense α} (hAB : A.colN = B.rowN) {f : Nat → Nat → α} (hmm : MmOk mm a b B f) {c : List α} (hcl : c.length = A.rowN * B.colN) {cr : Bool} :
    ∃ D', mm A B ⟨A.rowN, B.colN, c, A.rowN * B.colN, A.rowN * B.colN, 0, cr⟩ = .ok D' ∧
      D'.val.length = A.rowN * B.colN ∧ ∀ k u, c[k]? = some u → D'.val[k]? =
        some (a * mulMat A.colN (crsAt A) f (k / B.colN) (k % B.colN) + b * u) := by
  let D : Dense α := ⟨A.rowN, B.colN, c, A.rowN * B.colN, A.rowN * B.colN, 0, cr⟩
  have hD : D.WF := ⟨hcl, rfl, by simp [D]⟩
  have hg : D.Reads (fun i j => c.getD (B.colN * i + j) 0) := by
    intro i j hi hj
    apply Dense.at_of_getElem? hD hi hj
    have hlt : B.colN * i + j < c.length := by rw [hcl]; exact idx_lt hi hj
    simp only [D]
    rw [Nat.zero_add, List.getD_eq_getElem?_getD, List.getElem?_eq_getElem hlt]
    rfl
  obtain ⟨D', g1, g2, ⟨q1, q2, q3⟩, g4, g5⟩ := hmm A hA D hD hAB rfl rfl _ hg
  have hlen : D'.val.length = A.rowN * B.colN := by
    have e1 := g2.lenV
    have e2 := g2.nnz_eq
    have e3 := g2.window
    have e4 := g5 (A.rowN * B.colN) (Or.inr (by simp [D]))
    rw [show D.val = c from rfl, List.getElem?_eq_none (l := c) (by omega), List.getElem?_eq_none_iff] at e4
    rw [q1, q2] at e2
    have : D.rowN * D.colN = A.rowN * B.colN := rfl
    omega
  refine ⟨D', g1, hlen, ?_⟩
  intro k u hku
  have hk : k < A.rowN * B.colN := by
    rw [← hcl]; exact (List.getElem?_eq_some_iff.mp hku).1
  obtain ⟨d1, d2, d3⟩ := idx_decomp hk
  have := Dense.Reads.getElem? g2 g4 (i := k / B.colN) (j := k % B.colN) (by rw [q1]; exact d1)
    (by rw [q2]; exact d2)
  rw [q3, q2] at this
  have e : D.first + (D.colN * (k / B.colN) + k % B.colN) = k := by
    show 0 + (B.colN * (k / B.colN) + k % B.colN) = k
    omega
  rw [e] at this
  rw [this, d3, List.getD_eq_getElem?_getD, hku]
  rfl

end TCrs

/-- **C51 (tensvec, as called without scalars).** `tensvec(A, x, y)` computes, for every leading position
`ps` and row `i`, `y(ps, i) = ∑_k A(ps, i, k) x_k`, where `A(ps, ·, ·)` is the matrix of slice `ps`;
nothing outside `y` changes. -/
theorem C51_tensvec [Semiring α] {us : List Nat} {R N : Nat} {A : TCrs α} (hA : A.Tiled us R N)
    {x : Win α} (hx : x.size = N) {xs : Nat → α} (hxs : ∀ k, k < x.size → x.get k = .ok (xs k))
    {C : TDense α} (hC : C.WF) (sC : C.shape = us ++ [R]) (order : List Nat) (ho : Order order R) :
    ∃ C', A.tensvec order 1 x 0 C = .ok C' ∧ SameObject C C' ∧
      ∀ ps i, InShape us ps → i < R → C'.at_ (ps ++ [i]) =
        .ok (∑ k ∈ Finset.range N, crsAt (A.slice R N (rowMajor us ps)) i k * xs k) := by
  have : Inhabited α := ⟨0⟩
  obtain ⟨c, hc⟩ := exists_reads hC
  have v1 : volume [R] = R := by simp [volume]
  obtain ⟨v, h1, h2, h3⟩ := TCrs.slices_core hA hC sC hc
    (kernel := fun M c => do
      let y ← M.matvecCore order [] 1 x 0 ⟨c, 0, R⟩ false
      .ok y.buf)
    (fun d k _ => mulVec N (crsAt (A.slice R N d)) xs k) (by
      intro d hd c hcl
      rw [v1] at hcl
      obtain ⟨y', g1, g2, g3⟩ := C16_matvec (A.slice R N d) (hA.tiled d hd).toSafe x ⟨c, 0, R⟩ hx rfl
        (by unfold Win.Ok; simp [hcl]) xs hxs order ho
      refine ⟨y'.buf, ?_, ?_, ?_⟩
      · unfold Crs.matvec at g1
        rw [g1, Res.ok_bind]
      · rw [v1, ← hcl]; exact g2.len
      · intro k u hku
        have hkR : k < R := by
          rw [← hcl]; exact (List.getElem?_eq_some_iff.mp hku).1
        have := g3 k hkR
        unfold Win.get at this
        rw [rd_eq_ok, g2.off, Nat.zero_add] at this
        exact this)
  rw [v1] at h1
  refine ⟨{ C with val := v }, ?_, h2, ?_⟩
  · unfold TCrs.tensvec
    have hs2 : A.shape.length = us.length + 2 := by rw [hA.shape]; simp
    have r1 : rd A.shape (A.shape.length - 2) = .ok R := by rw [rd_eq_ok, hs2, hA.shape]; simp
    have r2 : rd A.shape (A.shape.length - 1) = .ok N := by rw [rd_eq_ok, hs2, hA.shape]; simp
    rw [if_neg (by omega), r1, Res.ok_bind, r2, Res.ok_bind, cassert_decide hx.symm, Res.ok_bind,
      cassert_decide (by rw [hA.shape, sC]; simp), Res.ok_bind, h1, Res.ok_bind]
  · intro ps i hps hi
    have := h3 ps [i] hps (by rw [InShape.cons_iff, InShape.nil_iff]; exact ⟨hi, rfl⟩)
    rw [this]
    simp [rowMajor, volume, mulVec]

/-- **C51 (violated: scalars of tensvec).** `tensvec(a, A, x, b, y)` does not compute `a*A*x + b*y`: the
scalars do not reach the kernel (same defect as C17 for CRS matrices). -/
theorem C51_tensvec_scalars_violated :
    ¬ ∀ (A : TCrs Int) (x : Win Int) (C C' : TDense Int) (a b u : Int), A.Tiled [] 1 1 → x.size = 1 →
        C.WF → C.shape = [1] → A.tensvec [0] a x b C = .ok C' → C.at_ [0] = .ok u →
        C'.at_ [0] = .ok (a * (crsAt (A.slice 1 1 0) 0 0 * x.buf.headD 0) + b * u) := by
  intro h
  have := h { shape := [1, 1], rowPtrs := [[0, 1]], colInds := [[0]], val := [1], nnz := 1, alloc := 1,
              first := 0, created := true } ⟨[1], 0, 1⟩ ⟨[1], [1], 1, 1, 0, true⟩ _ 2 3 1
    ⟨rfl, rfl, rfl, rfl, rfl, by decide, by
      intro d hd
      have : d = 0 := by simp [volume] at hd; omega
      subst this
      refine { created := rfl, lenV := rfl, nnz_le := by decide, lenP := rfl, ptr_le := by decide,
               lenC := by decide, col_lt := by decide, tile := ⟨1, by decide, rfl, rfl, by decide, ?_⟩ }
      intro i h1 h2
      exact absurd h2 (by simp only [TCrs.slice]; omega)⟩
    rfl ⟨rfl, rfl, by decide⟩ rfl rfl rfl
  revert this
  decide

/-- C51 (tensmat) for every kernel `mm` that multiplies a sparse matrix with `B` -/
theorem tensmatWith_ok [Semiring α] {mm : Crs α → Dense α → Dense α → Res (Dense α)} {a b : α} {us : List Nat}
    {R : Nat} {A : TCrs α} {B : Dense α} {f : Nat → Nat → α} (hmm : TCrs.MmOk mm a b B f)
    (hA : A.Tiled us R B.rowN)
    {C : TDense α} (hC : C.WF) (sC : C.shape = us ++ [R, B.colN]) {c : List Nat → α} (hc : C.Reads c) :
    ∃ C', A.tensmatWith mm B C = .ok C' ∧ SameObject C C' ∧
      ∀ ps i j, InShape us ps → i < R → j < B.colN → C'.at_ (ps ++ [i, j]) =
        .ok (a * (∑ k ∈ Finset.range B.rowN, crsAt (A.slice R B.rowN (rowMajor us ps)) i k * f k j) +
          b * c (ps ++ [i, j])) := by
  have : Inhabited α := ⟨0⟩
  have v1 : volume [R, B.colN] = R * B.colN := by simp [volume]
  obtain ⟨v, h1, h2, h3⟩ := TCrs.slices_core hA hC sC hc
    (kernel := fun M c => do
      let D : Dense α := { rowN := R, colN := B.colN, val := c, nnz := R * B.colN,
                           alloc := R * B.colN, first := 0, created := true }
      let D ← mm M B D
      .ok D.val)
    (fun d k u => a * mulMat B.rowN (crsAt (A.slice R B.rowN d)) f (k / B.colN) (k % B.colN) + b * u) (by
      intro d hd c hcl
      rw [v1] at hcl
      obtain ⟨D', g1, g2, g3⟩ := TCrs.matmul_block (hA.tiled d hd).toSafe rfl hmm hcl
        (cr := true)
      exact ⟨D'.val, (congrArg (fun r : Res (Dense α) => r >>= fun r : Dense α => Res.ok r.val) g1).trans (Res.ok_bind _ _),
        by rw [v1]; exact g2, g3⟩)
  rw [v1] at h1
  refine ⟨{ C with val := v }, ?_, h2, ?_⟩
  · unfold TCrs.tensmatWith
    have hs2 : A.shape.length = us.length + 2 := by rw [hA.shape]; simp
    have r1 : rd A.shape (A.shape.length - 2) = .ok R := by rw [rd_eq_ok, hs2, hA.shape]; simp
    have r2 : rd A.shape (A.shape.length - 1) = .ok B.rowN := by rw [rd_eq_ok, hs2, hA.shape]; simp
    have r3 : TDense.lastExtent C.shape = .ok B.colN := by
      rw [sC, show us ++ [R, B.colN] = (us ++ [R]) ++ [B.colN] by simp, lastExtent_append]
    rw [if_neg (by omega), r1, Res.ok_bind, r2, Res.ok_bind, cassert_decide rfl, Res.ok_bind, r3,
      Res.ok_bind, cassert_decide rfl, Res.ok_bind, cassert_decide (by rw [hs2, sC]; simp), Res.ok_bind,
      cassert_decide (by rw [hs2, sC, hA.shape]; simp), Res.ok_bind, h1, Res.ok_bind]
  · intro ps i j hps hi hj
    have := h3 ps [i, j] hps (by
      rw [InShape.cons_iff, InShape.cons_iff, InShape.nil_iff]; exact ⟨hi, hj, rfl⟩)
    rw [this]
    have e : rowMajor [R, B.colN] [i, j] = B.colN * i + j := by simp [rowMajor, volume]; ring
    rw [e, idx_div hj, idx_mod hj]
    simp [mulMat, TCrs.slice]

/-- **C51 (tensmat).** `tensmat(a, A, B, b, C)` computes
`C(ps, i, j) := a * ∑_k A(ps, i, k) B(k, j) + b * C(ps, i, j)`. -/
theorem C51_tensmat [Semiring α] (a b : α) {us : List Nat} {R : Nat} {A : TCrs α} {B : Dense α}
    (hA : A.Tiled us R B.rowN) (hB : B.WF) {f : Nat → Nat → α} (hf : B.Reads f)
    {C : TDense α} (hC : C.WF) (sC : C.shape = us ++ [R, B.colN]) {c : List Nat → α} (hc : C.Reads c)
    (order : List Nat) (ho : Order order B.colN) :
    ∃ C', A.tensmat order a B b C = .ok C' ∧ SameObject C C' ∧
      ∀ ps i j, InShape us ps → i < R → j < B.colN → C'.at_ (ps ++ [i, j]) =
        .ok (a * (∑ k ∈ Finset.range B.rowN, crsAt (A.slice R B.rowN (rowMajor us ps)) i k * f k j) +
          b * c (ps ++ [i, j])) := by
  obtain ⟨C', h⟩ := tensmatWith_ok (TCrs.mmOk_scalar a b hB hf ho) hA hC sC hc
  exact ⟨C', h⟩

/-- C51 (tensmul) for every kernel `mm` that multiplies a sparse matrix with `B` seen as a matrix -/
theorem tensmulWith_ok [Semiring α] {mm : Crs α → Dense α → Dense α → Res (Dense α)} {a b : α}
    {us q : List Nat} {R N : Nat} {A : TCrs α} {B : TDense α} {f : List Nat → α}
    (hmm : TCrs.MmOk mm a b (B.asDense N (volume q)) (fun i j => f (posOf [N] i ++ posOf q j)))
    (hA : A.Tiled us R N) (hB : B.WF) (sB : B.shape = N :: q) (hN : 0 < N)
    {C : TDense α} (hC : C.WF) (sC : C.shape = us ++ R :: q) {c : List Nat → α} (hc : C.Reads c) :
    ∃ C', A.tensmulWith mm B C = .ok C' ∧ SameObject C C' ∧
      ∀ ps i js, InShape us ps → i < R → InShape q js → C'.at_ (ps ++ i :: js) =
        .ok (a * (∑ k ∈ Finset.range N, crsAt (A.slice R N (rowMajor us ps)) i k * f (k :: js)) +
          b * c (ps ++ i :: js)) := by
  have v1 : volume (R :: q) = R * volume q := volume_cons _ _
  have vB : N * volume q = B.nnz := by rw [hB.nnz_eq, sB, volume_cons]
  have vN : ∀ n, volume [n] = n := by simp [volume]
  have hset : B.shape.set 0 R = R :: q := by rw [sB]; rfl
  obtain ⟨v, h1, h2, h3⟩ := TCrs.slices_core hA hC sC hc
    (kernel := fun M c => do
      let T : TDense α := { shape := B.shape.set 0 R, val := c, nnz := volume (R :: q),
                            alloc := volume (R :: q), first := 0, created := true }
      let Bm ← B.toDense N (-1)
      let Cm ← T.toDense M.rowN Bm.colN
      let r ← mm M Bm Cm
      .ok r.val)
    (fun d k u => a * mulMat N (crsAt (A.slice R N d)) (fun i j => f (posOf [N] i ++ posOf q j))
      (k / volume q) (k % volume q) + b * u) (by
      intro d hd c hcl
      rw [v1] at hcl
      obtain ⟨D', g1, g2, g3⟩ := TCrs.matmul_block (hA.tiled d hd).toSafe rfl hmm
        (c := c) hcl (cr := false)
      refine ⟨D'.val, ?_, by rw [v1]; exact g2, g3⟩
      rw [toDense_col hB sB hN, Res.ok_bind, toDense_both (by rw [v1]; rfl), Res.ok_bind, v1]
      exact (congrArg (fun r => r >>= fun r => Res.ok r.val) g1).trans (Res.ok_bind _ _))
  refine ⟨{ C with val := v }, ?_, h2, ?_⟩
  · unfold TCrs.tensmulWith
    have hs2 : A.shape.length = us.length + 2 := by rw [hA.shape]; simp
    have r1 : rd A.shape (A.shape.length - 2) = .ok R := by rw [rd_eq_ok, hs2, hA.shape]; simp
    have r2 : rd A.shape (A.shape.length - 1) = .ok N := by rw [rd_eq_ok, hs2, hA.shape]; simp
    have r3 : rd B.shape 0 = .ok N := by rw [sB]; rfl
    have r4 : A.shape.take (A.shape.length - 1) ++ B.shape.drop 1 = C.shape := by
      rw [hs2, hA.shape, sB, sC]
      rw [show us ++ [R, N] = (us ++ [R]) ++ [N] by simp, List.take_left' (by simp)]
      simp
    rw [if_neg (by omega), r1, Res.ok_bind, r2, Res.ok_bind, r3, Res.ok_bind, cassert_decide rfl,
      Res.ok_bind, cassert_decide r4, Res.ok_bind]
    have e : TDense.extent (B.shape.set 0 R) = volume (R :: q) := by rw [hset, extent_eq]
    simp only [e]
    rw [h1, Res.ok_bind]
  · intro ps i js hps hi hjs
    have := h3 ps (i :: js) hps (by rw [InShape.cons_iff]; exact ⟨hi, hjs⟩)
    rw [this]
    have e : rowMajor (R :: q) (i :: js) = volume q * i + rowMajor q js := by
      simp [rowMajor, Nat.mul_comm]
    rw [e, idx_div (rowMajor_lt hjs), idx_mod (rowMajor_lt hjs)]
    simp only [mulMat]
    congr 3
    rw [posOf_rowMajor hjs]
    refine Finset.sum_congr rfl ?_
    intro k hk
    rw [Finset.mem_range] at hk
    have hk' : InShape [N] [k] := by rw [InShape.cons_iff, InShape.nil_iff]; exact ⟨hk, rfl⟩
    have := posOf_rowMajor hk'
    rw [show rowMajor [N] [k] = k by simp [rowMajor, volume]] at this
    rw [this]
    rfl

/-- **C51 (tensmul).** `tensmul(a, A, B, b, C)` with a dense tensor `B` of shape `N :: qs` computes
`C(ps, i, js) := a * ∑_k A(ps, i, k) B(k, js) + b * C(ps, i, js)`. -/
theorem C51_tensmul [Semiring α] (a b : α) {us q : List Nat} {R N : Nat} {A : TCrs α} {B : TDense α}
    (hA : A.Tiled us R N) (hB : B.WF) (sB : B.shape = N :: q) (hN : 0 < N)
    {f : List Nat → α} (hf : B.Reads f)
    {C : TDense α} (hC : C.WF) (sC : C.shape = us ++ R :: q) {c : List Nat → α} (hc : C.Reads c)
    (order : List Nat) (ho : Order order (volume q)) :
    ∃ C', A.tensmul order a B b C = .ok C' ∧ SameObject C C' ∧
      ∀ ps i js, InShape us ps → i < R → InShape q js → C'.at_ (ps ++ i :: js) =
        .ok (a * (∑ k ∈ Finset.range N, crsAt (A.slice R N (rowMajor us ps)) i k * f (k :: js)) +
          b * c (ps ++ i :: js)) := by
  have vB : N * volume q = B.nnz := by rw [hB.nnz_eq, sB, volume_cons]
  have rB := asDense_reads hB (p := [N]) (q := q) sB hf
  rw [show volume [N] = N by simp [volume]] at rB
  exact tensmulWith_ok (TCrs.mmOk_scalar a b (asDense_wf hB vB) rB ho) hA hB sB hN hC sC hc

end Verif
