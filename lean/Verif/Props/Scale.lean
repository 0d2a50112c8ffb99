import Verif.Model.Scale
import Verif.Props.DiagOp
import Verif.Props.Hash

/-! C45: `times` / `adds`: scaling or shifting a matrix by a scalar, by rows, by columns, or one line. -/

namespace Verif

open Spec

variable {α : Type}

/-! ### Dense -/

/-- The element-wise core: the cells in `l` are overwritten with `op A(i,j) y(i,j)`. -/
theorem Dense.scale_core {A C : Dense α} (hA : A.WF) (hC : C.WF) (same : Bool)
    (hsame : same = true → C = A) (hr : A.rowN = C.rowN) (hc : A.colN = C.colN)
    {a c : Nat → Nat → α} (ha : A.Reads a) (hcr : C.Reads c) (op : α → α → α) (y : Nat → Nat → α)
    (l : List (Nat × Nat)) (hnd : l.Nodup) (hin : ∀ p ∈ l, p.1 < A.rowN ∧ p.2 < A.colN)
    {body : Nat × Nat → List α → Res (List α)}
    (hb : ∀ p ∈ l, ∀ b, body p b = (do
      let u ← rd (srcBuf same A.val b) (A.first + (A.colN * p.1 + p.2))
      wr b (C.first + (A.colN * p.1 + p.2)) (op u (y p.1 p.2)))) :
    ∃ w, forList l body C.val = .ok w ∧ ({ C with val := w } : Dense α).WF ∧
      ({ C with val := w } : Dense α).Reads
        (fun i j => if (i, j) ∈ l then op (a i j) (y i j) else c i j) ∧
      ∀ k, k < C.first ∨ C.first + C.nnz ≤ k → w[k]? = C.val[k]? := by
  have hw := hC.window
  have hl := hC.lenV
  have hidx : ∀ p ∈ l, A.colN * p.1 + p.2 < C.nnz := fun p hp => by
    have := hin p hp
    rw [hc]; exact hC.idx_lt (by omega) (by omega)
  obtain ⟨w, h1, h2, h3, h4⟩ := forList_points l (fun p => C.first + (A.colN * p.1 + p.2))
    (fun p u => op (if same then u else a p.1 p.2) (y p.1 p.2))
    (by
      refine List.Nodup.map_on ?_ hnd
      intro p hp q hq he
      have := idx_inj (hin p hp).2 (hin q hq).2 (Nat.add_left_cancel he)
      exact Prod.ext this.1 this.2)
    C.val (body := body)
    (by intro p hp; have := hidx p hp; omega)
    (by
      intro p t u hp htl hu
      rw [hb p hp]
      cases same with
      | true =>
        have := hsame rfl
        subst this
        rw [show srcBuf true C.val t = t from rfl, rd_of_getElem? hu, Res.ok_bind]; rfl
      | false =>
        have hr' := ha p.1 p.2 (hin p hp).1 (hin p hp).2
        rw [Dense.at_eq_rd hA (hin p hp).1 (hin p hp).2] at hr'
        rw [show srcBuf false A.val t = A.val from rfl, hr', Res.ok_bind]; rfl)
  have hwf : ({ C with val := w } : Dense α).WF := ⟨h2.trans hC.lenV, hC.nnz_eq, hC.window⟩
  refine ⟨w, h1, hwf, ?_, ?_⟩
  · intro i j hi hj
    change i < C.rowN at hi
    change j < C.colN at hj
    have hold := hcr i j hi hj
    rw [Dense.at_eq_rd hC hi hj, rd_eq_ok] at hold
    apply Dense.at_of_getElem? hwf hi hj
    simp only
    by_cases hm : (i, j) ∈ l
    · rw [if_pos hm]
      have := h3 (i, j) (c i j) hm (by simpa [hc] using hold)
      simp only [hc] at this
      rw [this]
      cases same with
      | true =>
        have := hsame rfl
        subst this
        have e1 := ha i j hi hj
        have e2 := hcr i j hi hj
        rw [e1] at e2
        injection e2 with e2
        rw [if_pos rfl, e2]
      | false => rfl
    · rw [if_neg hm, h4, hold]
      rintro ⟨i', j'⟩ hp he
      have hb' := hin _ hp
      simp only [hc] at he hb'
      have := idx_inj hj hb'.2 (Nat.add_left_cancel he)
      rw [this.1, this.2] at hm
      exact hm hp
  · intro k hk
    apply h4
    intro p hp he
    have := hidx p hp
    omega

/-- What `C` looks like after an element-wise update of the cells selected by `sel` -/
def Dense.Scaled (C C' : Dense α) (f : Nat → Nat → α) : Prop :=
  C'.WF ∧ C'.rowN = C.rowN ∧ C'.colN = C.colN ∧ C'.first = C.first ∧ C'.Reads f ∧
    ∀ k, k < C.first ∨ C.first + C.nnz ≤ k → C'.val[k]? = C.val[k]?

theorem order_product {order : List Nat} {M N : Nat} (ho : Order order M) :
    (order ×ˢ List.range N).Nodup ∧ ∀ p : Nat × Nat, p ∈ order ×ˢ List.range N ↔ p.1 < M ∧ p.2 < N := by
  refine ⟨ho.nodup.product List.nodup_range, fun p => ?_⟩
  rw [List.mem_product, ho.mem, List.mem_range]

/-- **C45 (Dense).** For all dense matrices of equal shape with any data offsets, `A` and `C` distinct
or the same object, every vector or view `x`, every schedule and any operation (`*`: times, `+`: adds):
scalar version, by rows, by columns, one row, one column. Untouched lines keep `C`'s elements and
nothing outside `C` changes. -/
theorem C45_dense {A C : Dense α} (hA : A.WF) (hC : C.WF) (same : Bool)
    (hsame : same = true → C = A) (hr : A.rowN = C.rowN) (hc : A.colN = C.colN)
    {a c : Nat → Nat → α} (ha : A.Reads a) (hcr : C.Reads c) (op : α → α → α) :
    (∀ order, Order order A.nnz → ∀ alpha, ∃ C', Dense.scaleS op same order alpha A C = .ok C' ∧
      C.Scaled C' (fun i j => op (a i j) alpha)) ∧
    (∀ x : Win α, ∀ y : Nat → α, (∀ i, i < x.size → x.get i = .ok (y i)) →
      (x.size = A.colN → ∀ order, Order order A.rowN → ∃ C',
        Dense.scaleRows op same order A x C = .ok C' ∧
        C.Scaled C' (fun i j => op (a i j) (y j))) ∧
      (x.size = A.rowN → ∀ order, Order order A.rowN → ∃ C',
        Dense.scaleCols op same order A x C = .ok C' ∧
        C.Scaled C' (fun i j => op (a i j) (y i))) ∧
      (x.size = A.colN → ∀ order, Order order A.colN → ∀ num, num < A.rowN → ∃ C',
        Dense.scaleRow op same order A num x C = .ok C' ∧
        C.Scaled C' (fun i j => if i = num then op (a i j) (y j) else c i j)) ∧
      (x.size = A.rowN → ∀ order, Order order A.rowN → ∀ num, num < A.colN → ∃ C',
        Dense.scaleCol op same order A num x C = .ok C' ∧
        C.Scaled C' (fun i j => if j = num then op (a i j) (y i) else c i j))) := by
  have hshape : cassert (A.sameShape C) = .ok () := by
    unfold Dense.sameShape; exact cassert_decide ⟨hr, hc⟩
  -- a result of the core lemma with a different description of the same function
  have fin : ∀ {w : List α} {f g : Nat → Nat → α}, ({ C with val := w } : Dense α).WF →
      ({ C with val := w } : Dense α).Reads f →
      (∀ i j, i < C.rowN → j < C.colN → f i j = g i j) →
      (∀ k, k < C.first ∨ C.first + C.nnz ≤ k → w[k]? = C.val[k]?) →
      C.Scaled { C with val := w } g := by
    intro w f g h1 h2 h3 h4
    refine ⟨h1, rfl, rfl, rfl, ?_, h4⟩
    intro i j hi hj
    rw [h2 i j hi hj, h3 i j hi hj]
  refine ⟨fun order ho alpha => ?_, fun x y hx => ⟨fun hs order ho => ?_, fun hs order ho => ?_,
    fun hs order ho num hn => ?_, fun hs order ho num hn => ?_⟩⟩
  · have hnn := hA.nnz_eq
    have hlt : ∀ k ∈ order, k < A.rowN * A.colN := fun k hk => by rw [← hnn]; exact ho.mem.mp hk
    obtain ⟨w, h1, h2, h3, h4⟩ := Dense.scale_core hA hC same hsame hr hc ha hcr op
      (fun _ _ => alpha) (order.map (fun k => (k / A.colN, k % A.colN)))
      (by
        refine List.Nodup.map_on ?_ ho.nodup
        intro k hk k' hk' he
        have e1 := (idx_decomp (hlt k hk)).2.2
        have e2 := (idx_decomp (hlt k' hk')).2.2
        simp only [Prod.mk.injEq] at he
        rw [← e1, ← e2, he.1, he.2])
      (by
        intro p hp
        obtain ⟨k, hk, rfl⟩ := List.mem_map.mp hp
        have := idx_decomp (hlt k hk)
        exact ⟨this.1, this.2.1⟩)
      (body := fun p b => do
        let u ← rd (srcBuf same A.val b) (A.first + (A.colN * p.1 + p.2))
        wr b (C.first + (A.colN * p.1 + p.2)) (op u alpha))
      (fun p hp b => rfl)
    refine ⟨{ C with val := w }, ?_, fin h2 h3 ?_ h4⟩
    · unfold Dense.scaleS
      rw [hshape, Res.ok_bind]
      rw [forList_map] at h1
      have e : forList order (fun k b => do
          let u ← rd (srcBuf same A.val b) (A.first + k)
          wr b (C.first + k) (op u alpha)) C.val = .ok w := by
        rw [← h1]
        apply forList_congr
        intro k hk t
        simp only [(idx_decomp (hlt k hk)).2.2]
      rw [e]; rfl
    · intro i j hi hj
      rw [if_pos]
      rw [List.mem_map]
      refine ⟨A.colN * i + j, ho.mem.mpr (hA.idx_lt (by omega) (by omega)), ?_⟩
      rw [idx_div (by omega), idx_mod (by omega)]
  · obtain ⟨hnd, hmem⟩ := order_product (N := A.colN) ho
    obtain ⟨w, h1, h2, h3, h4⟩ := Dense.scale_core hA hC same hsame hr hc ha hcr op
      (fun _ j => y j) _ hnd (fun p hp => (hmem p).mp hp)
      (body := fun p b => do
        let u ← rd (srcBuf same A.val b) (A.first + (p.1 * A.colN + p.2))
        let z ← rd x.buf (x.off + p.2)
        wr b (C.first + (p.1 * A.colN + p.2)) (op u z))
      (fun p hp b => by
        have := hx p.2 (by have := (hmem p).mp hp; omega)
        unfold Win.get at this
        simp only [this, Res.ok_bind, Nat.mul_comm])
    refine ⟨{ C with val := w }, ?_, fin h2 h3 ?_ h4⟩
    · unfold Dense.scaleRows
      rw [hshape, Res.ok_bind, cassert_decide hs.symm, Res.ok_bind]
      simp only [forN_eq_forList]
      rw [forList_product, h1]; rfl
    · intro i j hi hj
      rw [if_pos ((hmem _).mpr ⟨by omega, by omega⟩)]
  · obtain ⟨hnd, hmem⟩ := order_product (N := A.colN) ho
    obtain ⟨w, h1, h2, h3, h4⟩ := Dense.scale_core hA hC same hsame hr hc ha hcr op
      (fun i _ => y i) _ hnd (fun p hp => (hmem p).mp hp)
      (body := fun p b => do
        let u ← rd (srcBuf same A.val b) (A.first + (p.1 * A.colN + p.2))
        let z ← rd x.buf (x.off + p.1)
        wr b (C.first + (p.1 * A.colN + p.2)) (op u z))
      (fun p hp b => by
        have := hx p.1 (by have := (hmem p).mp hp; omega)
        unfold Win.get at this
        simp only [this, Res.ok_bind, Nat.mul_comm])
    refine ⟨{ C with val := w }, ?_, fin h2 h3 ?_ h4⟩
    · unfold Dense.scaleCols
      rw [hshape, Res.ok_bind, cassert_decide hs.symm, Res.ok_bind]
      simp only [forN_eq_forList]
      rw [forList_product, h1]; rfl
    · intro i j hi hj
      rw [if_pos ((hmem _).mpr ⟨by omega, by omega⟩)]
  · obtain ⟨w, h1, h2, h3, h4⟩ := Dense.scale_core hA hC same hsame hr hc ha hcr op
      (fun _ j => y j) (order.map (fun j => (num, j)))
      (List.Nodup.map_on (by intro p _ q _ he; exact (Prod.mk.inj he).2) ho.nodup)
      (by
        intro p hp
        obtain ⟨k, hk, rfl⟩ := List.mem_map.mp hp
        exact ⟨hn, ho.mem.mp hk⟩)
      (body := fun p b => do
        let u ← rd (srcBuf same A.val b) (A.first + (num * A.colN + p.2))
        let z ← rd x.buf (x.off + p.2)
        wr b (C.first + (num * A.colN + p.2)) (op u z))
      (fun p hp b => by
        obtain ⟨k, hk, rfl⟩ := List.mem_map.mp hp
        have := hx k (by have := ho.mem.mp hk; omega)
        unfold Win.get at this
        simp only [this, Res.ok_bind, Nat.mul_comm])
    refine ⟨{ C with val := w }, ?_, fin h2 h3 ?_ h4⟩
    · unfold Dense.scaleRow
      rw [hshape, Res.ok_bind, cassert_decide hs.symm, Res.ok_bind, cassert_decide (by omega),
        Res.ok_bind]
      rw [forList_map] at h1
      rw [h1]; rfl
    · intro i j hi hj
      by_cases hi' : i = num
      · rw [if_pos hi', if_pos]
        rw [List.mem_map]
        exact ⟨j, ho.mem.mpr (by omega), by rw [hi']⟩
      · rw [if_neg hi', if_neg]
        rw [List.mem_map]
        rintro ⟨k, _, he⟩
        exact hi' (Prod.mk.inj he).1.symm
  · obtain ⟨w, h1, h2, h3, h4⟩ := Dense.scale_core hA hC same hsame hr hc ha hcr op
      (fun i _ => y i) (order.map (fun i => (i, num)))
      (List.Nodup.map_on (by intro p _ q _ he; exact (Prod.mk.inj he).1) ho.nodup)
      (by
        intro p hp
        obtain ⟨k, hk, rfl⟩ := List.mem_map.mp hp
        exact ⟨ho.mem.mp hk, hn⟩)
      (body := fun p b => do
        let u ← rd (srcBuf same A.val b) (A.first + (p.1 * A.colN + num))
        let z ← rd x.buf (x.off + p.1)
        wr b (C.first + (p.1 * A.colN + num)) (op u z))
      (fun p hp b => by
        obtain ⟨k, hk, rfl⟩ := List.mem_map.mp hp
        have := hx k (by have := ho.mem.mp hk; omega)
        unfold Win.get at this
        simp only [this, Res.ok_bind, Nat.mul_comm])
    refine ⟨{ C with val := w }, ?_, fin h2 h3 ?_ h4⟩
    · unfold Dense.scaleCol
      rw [hshape, Res.ok_bind, cassert_decide hs.symm, Res.ok_bind, cassert_decide (by omega),
        Res.ok_bind]
      rw [forList_map] at h1
      rw [h1]; rfl
    · intro i j hi hj
      by_cases hj' : j = num
      · rw [if_pos hj', if_pos]
        rw [List.mem_map]
        exact ⟨i, ho.mem.mpr (by omega), by rw [hj']⟩
      · rw [if_neg hj', if_neg]
        rw [List.mem_map]
        rintro ⟨k, _, he⟩
        exact hj' (Prod.mk.inj he).2.symm

/-- Line numbers: `num > rows` is rejected, but `num = rows` passes the assertion and the row after the
last one is accessed. -/
theorem C45_line_bound_violated :
    (∀ (op : α → α → α) (same : Bool) (order : List Nat) (A C : Dense α) (x : Win α) (num : Nat),
      A.sameShape C = true → x.size = A.colN → A.rowN < num →
      ∃ m, Dense.scaleRow op same order A num x C = .abort m) ∧
    (∃ (A : Dense Int) (x : Win Int), A.WF ∧ x.size = A.colN ∧
      ∃ m, Dense.scaleRow (· * ·) true [0] A A.rowN x A = .ub m) := by
  refine ⟨?_, ⟨⟨1, 1, [5], 1, 1, 0, true⟩, ⟨[2], 0, 1⟩, ⟨rfl, rfl, by decide⟩, rfl, _, rfl⟩⟩
  intro op same order A C x num hs hx hn
  refine ⟨"assert", ?_⟩
  unfold Dense.scaleRow
  rw [hs, cassert_true, Res.ok_bind, cassert_decide hx.symm, Res.ok_bind,
    show decide (A.rowN ≥ num) = false by rw [decide_eq_false_iff_not]; omega]
  rfl

/-- `x` of the wrong length or matrices of different shapes are rejected -/
theorem C45_dense_sizes (op : α → α → α) (same : Bool) (order : List Nat) (A C : Dense α) (x : Win α)
    (alpha : α) :
    ((A.rowN ≠ C.rowN ∨ A.colN ≠ C.colN) →
      (∃ m, Dense.scaleS op same order alpha A C = .abort m) ∧
      (∃ m, Dense.scaleRows op same order A x C = .abort m) ∧
      ∃ m, Dense.scaleCols op same order A x C = .abort m) ∧
    (x.size ≠ A.colN → ∃ m, Dense.scaleRows op same order A x C = .abort m) ∧
    (x.size ≠ A.rowN → ∃ m, Dense.scaleCols op same order A x C = .abort m) := by
  have key : ∀ {β : Type} (c : Bool) (f : Unit → Res β), c = false → ∃ m,
      (cassert c >>= f) = .abort m := by
    intro β c f hc; subst hc; exact ⟨"assert", rfl⟩
  have key2 : ∀ {β : Type} (c d : Bool) (f : Unit → Res β), d = false → ∃ m,
      (cassert c >>= fun _ => cassert d >>= f) = .abort m := by
    intro β c d f hc; subst hc; cases c <;> exact ⟨"assert", rfl⟩
  refine ⟨fun h => ?_, fun h => ?_, fun h => ?_⟩
  · have hs : A.sameShape C = false := by
      unfold Dense.sameShape; rw [decide_eq_false_iff_not]; omega
    exact ⟨key _ _ hs, key _ _ hs, key _ _ hs⟩
  · exact key2 _ _ _ (by rw [decide_eq_false_iff_not]; omega)
  · exact key2 _ _ _ (by rw [decide_eq_false_iff_not]; omega)

example : Dense.scaleRows (· * ·) false [1, 0] (.mk 2 2 [(1 : Int), 2, 3, 4] 4 4 0 true)
    ⟨[9, 10, 20], 1, 2⟩ (.mk 2 2 [0, 0, 0, 0, 7] 4 5 1 false) =
    .ok (.mk 2 2 [0, 10, 40, 30, 80] 4 5 1 false) := by decide
example : Dense.scaleCol (· + ·) true [1, 0] (.mk 2 2 [(1 : Int), 2, 3, 4] 4 4 0 true) 1
    ⟨[10, 20], 0, 2⟩ (.mk 2 2 [(1 : Int), 2, 3, 4] 4 4 0 true) =
    .ok (.mk 2 2 [1, 12, 3, 24] 4 4 0 true) := by decide

/-! ### CRS -/

theorem Crs.rowEntries_get (A : Crs α) (i t : Nat) : (A.rowEntries i)[t]? =
    if A.ptr i + t < A.ptr (i + 1) then
      ((A.colInd.zip A.val)[A.ptr i + t]?).map (fun p => (i, p.1, p.2)) else none := by
  unfold Crs.rowEntries
  simp only [List.getElem?_map, List.getElem?_drop, List.getElem?_take]
  split <;> rfl

/-- Row loops that overwrite stored elements: element `k` of row `i` with column `c` is replaced by
`g i k` of its old value when `sel i c`. -/
theorem Crs.rows_core {A C : Crs α} (h : A.Tiled) (hC : C.Tiled) (hnnz : A.nnz = C.nnz)
    {order : List Nat} (ho : Order order A.rowN) (sel : Nat → Nat → Prop)
    [∀ i c, Decidable (sel i c)] (g : Nat → Nat → α → α) {cell : Nat → Nat → List α → Res (List α)}
    (hcell : ∀ i k c u, ∀ b : List α, i < A.rowN → A.ptr i ≤ k → k < A.ptr (i + 1) →
      A.colInd[k]? = some c → b[k]? = some u →
      cell i k b = if sel i c then wr b k (g i k u) else .ok b) :
    ∃ w, forList order (fun i b => do
        let p ← rd A.rowPtr i
        let q ← rd A.rowPtr (i + 1)
        forRange p q (cell i) b) C.val = .ok w ∧ w.length = C.val.length ∧
      (∀ i k c u, i < A.rowN → A.ptr i ≤ k → k < A.ptr (i + 1) → A.colInd[k]? = some c →
        C.val[k]? = some u → w[k]? = some (if sel i c then g i k u else u)) ∧
      ∀ k, A.nnz ≤ k → w[k]? = C.val[k]? := by
  have hS := h.toSafe
  have hlC := hS.lenC
  have hlV := hC.toSafe.lenV
  have hnz := hC.toSafe.nnz_le
  have hcol : ∀ j, j < A.nnz → ∃ c, A.colInd[j]? = some c := fun j hj =>
    ⟨_, List.getElem?_eq_getElem (by omega)⟩
  obtain ⟨w, h1, h2, h3⟩ := forList_cells order
    (fun i k u => if A.ptr i ≤ k ∧ k < A.ptr (i + 1) ∧ (∃ c, A.colInd[k]? = some c ∧ sel i c)
      then g i k u else u) C.val
    (body := fun i b => do
        let p ← rd A.rowPtr i
        let q ← rd A.rowPtr (i + 1)
        forRange p q (cell i) b)
    (by
      intro i t hi htl
      have hin := ho.mem.mp hi
      rw [rd_ptr hS.lenP (by omega), Res.ok_bind, rd_ptr hS.lenP (by omega), Res.ok_bind]
      have hq := hS.ptr_le (i + 1) (by omega)
      unfold forRange
      rw [forFrom_eq_forList]
      obtain ⟨t', e1, e2, e3, e4⟩ := forList_points (List.range' (A.ptr i) (A.ptr (i + 1) - A.ptr i))
        (fun j => j) (fun j u => if ∃ c, A.colInd[j]? = some c ∧ sel i c then g i j u else u)
        (by simpa using List.nodup_range') t (body := cell i)
        (by intro j hj; rw [List.mem_range'_1] at hj; omega)
        (by
          intro j b u hj hbl hu
          rw [List.mem_range'_1] at hj
          obtain ⟨c, hc⟩ := hcol j (by omega)
          rw [hcell i j c u b hin (by omega) (by omega) hc hu]
          by_cases hsel : sel i c
          · rw [if_pos hsel, if_pos ⟨c, hc, hsel⟩]
          · rw [if_neg hsel, if_neg]
            · have hjl : j < b.length := by
                by_contra hge
                rw [List.getElem?_eq_none (by omega)] at hu
                cases hu
              rw [wr_ok hjl]
              congr 1
              apply List.ext_getElem?
              intro k
              by_cases hk : j = k
              · subst hk; rw [List.getElem?_set_self hjl, hu]
              · rw [List.getElem?_set_ne hk]
            · rintro ⟨c', hc', hs'⟩
              rw [hc] at hc'
              injection hc' with hc'
              exact hsel (hc' ▸ hs'))
      refine ⟨t', e1, by rw [e2, htl], ?_⟩
      intro k
      by_cases hk : A.ptr i ≤ k ∧ k < A.ptr (i + 1)
      · have hkl : k < t.length := by omega
        have := e3 k t[k] (by rw [List.mem_range'_1]; omega) (List.getElem?_eq_getElem hkl)
        rw [this, List.getElem?_eq_getElem hkl, Option.map_some]
        congr 1
        by_cases hc : ∃ c, A.colInd[k]? = some c ∧ sel i c
        · rw [if_pos hc, if_pos ⟨hk.1, hk.2, hc⟩]
        · rw [if_neg hc, if_neg (fun q => hc q.2.2)]
      · rw [e4 k (by intro j hj hkj; rw [List.mem_range'_1] at hj; omega)]
        cases t[k]? with
        | none => rfl
        | some u => rw [Option.map_some, if_neg (fun q => hk ⟨q.1, q.2.1⟩)])
  refine ⟨w, h1, h2, ?_, ?_⟩
  · intro i k c u hi hk1 hk2 hc hu
    rw [h3, hu, Option.map_some]
    congr 1
    rw [foldl_single order (fun i u => if A.ptr i ≤ k ∧ k < A.ptr (i + 1) ∧
        (∃ c, A.colInd[k]? = some c ∧ sel i c) then g i k u else u) u ho.nodup (ho.mem.mpr hi)
        (fun j hj hji u => if_neg (fun q => hji
          (h.row_unique (ho.mem.mp hj) hi q.1 q.2.1 hk1 hk2)))]
    by_cases hs : sel i c
    · rw [if_pos ⟨hk1, hk2, c, hc, hs⟩, if_pos hs]
    · rw [if_neg, if_neg hs]
      rintro ⟨_, _, c', hc', hs'⟩
      rw [hc] at hc'
      injection hc' with hc'
      exact hs (hc' ▸ hs')
  · intro k hk
    rw [h3]
    cases C.val[k]? with
    | none => rfl
    | some u =>
      rw [Option.map_some, foldl_id]
      intro j hj u
      rw [if_neg]
      rintro ⟨_, q2, _⟩
      have := hS.ptr_le (j + 1) (by have := ho.mem.mp hj; omega)
      omega

/-- Rows of the result, from element-wise knowledge of the new values. -/
theorem Crs.rowEntries_update {A C : Crs α} (hA : A.Tiled) (hC : C.Tiled) (hAC : SameStructure A C)
    {w : List α} (F : Nat → Nat → α → α → α)
    (hw : ∀ i k c u v, i < A.rowN → A.ptr i ≤ k → k < A.ptr (i + 1) → A.colInd[k]? = some c →
      A.val[k]? = some u → C.val[k]? = some v → w[k]? = some (F i c u v)) {i : Nat} (hi : i < A.rowN) :
    ({ C with val := w } : Crs α).rowEntries i =
      List.zipWith (fun a b => (b.1, b.2.1, F b.1 b.2.1 a.2.2 b.2.2)) (A.rowEntries i)
        (C.rowEntries i) := by
  have hp : ∀ j, C.ptr j = A.ptr j := fun j => by unfold Crs.ptr; rw [hAC.ptr]
  apply List.ext_getElem?
  intro t
  rw [List.getElem?_zipWith, A.rowEntries_get, C.rowEntries_get, Crs.rowEntries_get]
  change (if C.ptr i + t < C.ptr (i + 1) then ((C.colInd.zip w)[C.ptr i + t]?).map _ else none) = _
  simp only [hp]
  by_cases ht : A.ptr i + t < A.ptr (i + 1)
  · simp only [if_pos ht]
    have hle := hA.toSafe.ptr_le (i + 1) (by omega)
    have h1 := hA.toSafe.lenC; have h2 := hA.toSafe.lenV; have h3 := hA.toSafe.nnz_le
    have h4 := hC.toSafe.lenC; have h5 := hC.toSafe.lenV; have h6 := hC.toSafe.nnz_le
    have h7 := hAC.nnz
    have hcA : A.ptr i + t < A.colInd.length := by omega
    have hvA : A.ptr i + t < A.val.length := by omega
    have hcC : A.ptr i + t < C.colInd.length := by omega
    have hvC : A.ptr i + t < C.val.length := by omega
    have hcc : C.colInd[A.ptr i + t]? = some A.colInd[A.ptr i + t] := by
      have := congrArg (fun l => l[A.ptr i + t]?) hAC.ind
      simp only [List.getElem?_take] at this
      rw [if_pos (by omega), if_pos (by omega), List.getElem?_eq_getElem hcA] at this
      exact this.symm
    have hnew := hw i (A.ptr i + t) _ _ _ hi (by omega) ht (List.getElem?_eq_getElem hcA)
      (List.getElem?_eq_getElem hvA) (List.getElem?_eq_getElem hvC)
    have e1 : (C.colInd.zip w)[A.ptr i + t]? = some (A.colInd[A.ptr i + t],
        F i A.colInd[A.ptr i + t] A.val[A.ptr i + t] C.val[A.ptr i + t]) := by
      rw [List.getElem?_zip_eq_some]; exact ⟨hcc, hnew⟩
    have e2 : (C.colInd.zip C.val)[A.ptr i + t]? = some (A.colInd[A.ptr i + t],
        C.val[A.ptr i + t]) := by
      rw [List.getElem?_zip_eq_some]; exact ⟨hcc, List.getElem?_eq_getElem hvC⟩
    have e3 : (A.colInd.zip A.val)[A.ptr i + t]? = some (A.colInd[A.ptr i + t],
        A.val[A.ptr i + t]) := by
      rw [List.getElem?_zip_eq_some]
      exact ⟨List.getElem?_eq_getElem hcA, List.getElem?_eq_getElem hvA⟩
    simp only [e1, e2, e3, Option.map_some]
  · simp only [if_neg ht]

theorem Crs.rowEntries_update_all {A C : Crs α} (hA : A.Tiled) (hC : C.Tiled) (hAC : SameStructure A C)
    {w : List α} (F : Nat → Nat → α → α)
    (hw : ∀ i k c u v, i < A.rowN → A.ptr i ≤ k → k < A.ptr (i + 1) → A.colInd[k]? = some c →
      A.val[k]? = some u → C.val[k]? = some v → w[k]? = some (F i c u)) :
    ({ C with val := w } : Crs α).entries = A.entries.map (fun e => (e.1, e.2.1, F e.1 e.2.1 e.2.2)) := by
  unfold Crs.entries
  rw [List.map_flatMap, List.flatMap_def, List.flatMap_def]
  change ((List.range C.rowN).map _).flatten = _
  rw [hAC.row]
  congr 1
  apply List.map_congr_left
  intro i hi
  rw [List.mem_range, ← hAC.row] at hi
  rw [Crs.rowEntries_update hA hC hAC (fun i c u _ => F i c u) hw hi]
  have hlA := hA.toSafe.length_rowEntries hi
  have hlC := hC.toSafe.length_rowEntries (i := i) (by rw [← hAC.row]; exact hi)
  have hp : ∀ j, C.ptr j = A.ptr j := fun j => by unfold Crs.ptr; rw [hAC.ptr]
  have hAS := hA.toSafe
  apply List.ext_getElem?
  intro t
  rw [List.getElem?_zipWith, List.getElem?_map]
  by_cases ht : t < (A.rowEntries i).length
  · have htC : t < (C.rowEntries i).length := by rw [hlC, hp, hp]; omega
    rw [List.getElem?_eq_getElem ht, List.getElem?_eq_getElem htC]
    simp only [Option.map_some, Option.some.injEq]
    have eA := List.getElem?_eq_getElem ht
    have eC := List.getElem?_eq_getElem htC
    rw [A.rowEntries_get] at eA
    rw [C.rowEntries_get, hp, hp] at eC
    split at eA
    · rename_i hlt
      rw [if_pos hlt] at eC
      rw [Option.map_eq_some_iff] at eA eC
      obtain ⟨p, hp1, hp2⟩ := eA
      obtain ⟨q, hq1, hq2⟩ := eC
      rw [List.getElem?_zip_eq_some] at hp1 hq1
      have hle := hA.toSafe.ptr_le (i + 1) (by omega)
      have := congrArg (fun l => l[A.ptr i + t]?) hAC.ind
      simp only [List.getElem?_take] at this
      have hnn := hAC.nnz
      rw [if_pos (by omega), if_pos (by omega), hp1.1, hq1.1] at this
      injection this with this
      rw [← hp2, ← hq2]
      simp only [this]
    · cases eA
  · rw [List.getElem?_eq_none (by omega)]
    rfl

/-- `C'` has the structure and storage of `C` -/
structure HCrs.SameFrame (C C' : HCrs α) : Prop where
  tiled : C'.mat.Tiled
  hash : C'.hash = C.hash
  row : C'.mat.rowN = C.mat.rowN
  col : C'.mat.colN = C.mat.colN
  ptr : C'.mat.rowPtr = C.mat.rowPtr
  ind : C'.mat.colInd = C.mat.colInd
  frame : ∀ k, C.mat.nnz ≤ k → C'.mat.val[k]? = C.mat.val[k]?

theorem HCrs.sameFrame_val {C : HCrs α} (hC : C.mat.Tiled) {w : List α}
    (hl : w.length = C.mat.val.length) (hf : ∀ k, C.mat.nnz ≤ k → w[k]? = C.mat.val[k]?) :
    HCrs.SameFrame C { C with mat := { C.mat with val := w } } :=
  ⟨{ created := hC.created, lenV := hl.trans hC.lenV, nnz_le := hC.nnz_le, lenP := hC.lenP
     ptr_le := hC.ptr_le, lenC := hC.lenC, col_lt := hC.col_lt, tile := hC.tile },
    rfl, rfl, rfl, rfl, rfl, hf⟩

/-- **C45 (CRS).** For all CRS matrices `A`, `C` with the same structure (and equal stored hash, so
that the assertion passes), distinct or the same object, every vector or view, every schedule, any
operation: by a scalar, by rows, by columns, one row, one column. -/
theorem C45_crs {A C : HCrs α} (hA : A.mat.Tiled) (hC : C.mat.Tiled)
    (hAC : SameStructure A.mat C.mat) (hh : A.hash = C.hash) (same : Bool)
    (hsame : same = true → C = A) (op : α → α → α) :
    (∀ order, Order order A.mat.nnz → ∀ alpha, ∃ C', HCrs.scaleS op same order alpha A C = .ok C' ∧
      C.SameFrame C' ∧
      C'.mat.entries = A.mat.entries.map (fun e => (e.1, e.2.1, op e.2.2 alpha))) ∧
    (∀ x : Win α, ∀ y : Nat → α, (∀ i, i < x.size → x.get i = .ok (y i)) →
      (x.size = A.mat.colN → ∀ order, Order order A.mat.rowN → ∃ C',
        HCrs.scaleRows op same order A x C = .ok C' ∧ C.SameFrame C' ∧
        C'.mat.entries = A.mat.entries.map (fun e => (e.1, e.2.1, op e.2.2 (y e.2.1)))) ∧
      (x.size = A.mat.rowN → ∀ order, Order order A.mat.rowN → ∃ C',
        HCrs.scaleCols op same order A x C = .ok C' ∧ C.SameFrame C' ∧
        C'.mat.entries = A.mat.entries.map (fun e => (e.1, e.2.1, op e.2.2 (y e.1)))) ∧
      (x.size = A.mat.colN → ∀ num, num < A.mat.rowN → ∀ order,
        Order order (A.mat.ptr (num + 1) - A.mat.ptr num) → ∃ C',
        HCrs.scaleRow op same order A num x C = .ok C' ∧ C.SameFrame C' ∧
        ∀ i, i < A.mat.rowN → C'.mat.rowEntries i = List.zipWith (fun a c =>
          if c.1 = num then (c.1, c.2.1, op a.2.2 (y c.2.1)) else c)
          (A.mat.rowEntries i) (C.mat.rowEntries i)) ∧
      (x.size = A.mat.rowN → ∀ num, num < A.mat.colN → ∀ order, Order order A.mat.rowN → ∃ C',
        HCrs.scaleCol op same order A num x C = .ok C' ∧ C.SameFrame C' ∧
        ∀ i, i < A.mat.rowN → C'.mat.rowEntries i = List.zipWith (fun a c =>
          if c.2.1 = num then (c.1, c.2.1, op a.2.2 (y c.1)) else c)
          (A.mat.rowEntries i) (C.mat.rowEntries i))) := by
  have hstr : cassert (A.isSameStructure C) = .ok () :=
    cassert_of (by simp [HCrs.isSameStructure, hh, hAC.row, hAC.col])
  have hn := hAC.nnz
  have hAS := hA.toSafe
  have hCS := hC.toSafe
  have l1 := hAS.lenC; have l2 := hAS.lenV; have l3 := hAS.nnz_le
  have l4 := hCS.lenV; have l5 := hCS.nnz_le
  -- the value a load of `A` sees
  have hsrc : ∀ k u v (b : List α), A.mat.val[k]? = some u → C.mat.val[k]? = some v →
      (same = true → b[k]? = some v) → rd (srcBuf same A.mat.val b) k = .ok u := by
    intro k u v b hu hv hb
    cases same with
    | true =>
      have := hsame rfl
      subst this
      rw [hu] at hv
      rw [show srcBuf true C.mat.val b = b from rfl, rd_of_getElem? (hb rfl)]
      injection hv with hv
      rw [hv]
    | false => rw [show srcBuf false A.mat.val b = A.mat.val from rfl, rd_of_getElem? hu]
  -- the loaded value as a function of what the destination holds
  let ld : Nat → α → α := fun k u => if same then u else (A.mat.val[k]?).getD u
  have hld : ∀ k u (b : List α), k < A.mat.nnz → b[k]? = some u →
      rd (srcBuf same A.mat.val b) k = .ok (ld k u) := by
    intro k u b hk hu
    cases same with
    | true => exact rd_of_getElem? hu
    | false =>
      rw [show srcBuf false A.mat.val b = A.mat.val from rfl]
      apply rd_of_getElem?
      simp only [ld, Bool.false_eq_true, if_false]
      rw [List.getElem?_eq_getElem (by omega)]; rfl
  have hld2 : ∀ k u v, A.mat.val[k]? = some u → C.mat.val[k]? = some v → ld k v = u := by
    intro k u v hu hv
    cases same with
    | true =>
      have := hsame rfl
      subst this
      rw [hu] at hv
      injection hv with hv
      simp [ld, hv]
    | false => simp [ld, hu]
  have hcA : ∀ i k c, i < A.mat.rowN → k < A.mat.ptr (i + 1) → A.mat.colInd[k]? = some c →
      k < A.mat.nnz ∧ c < A.mat.colN := by
    intro i k c hi hk hc
    have := hAS.ptr_le (i + 1) (by omega)
    refine ⟨by omega, ?_⟩
    have hlt : k < A.mat.colInd.length := by omega
    rw [List.getElem?_eq_getElem hlt] at hc
    injection hc with hc
    rw [← hc]; exact hAS.col_lt k hlt (by omega)
  refine ⟨fun order ho alpha => ?_, fun x y hx => ⟨fun hs order ho => ?_, fun hs order ho => ?_,
    fun hs num hnum order ho => ?_, fun hs num hnum order ho => ?_⟩⟩
  · obtain ⟨w, h1, h2, h3, h4⟩ := forList_points order (fun k => k)
      (fun k u => op (ld k u) alpha) (by simpa using ho.nodup) C.mat.val
      (body := fun k b => do
        let u ← rd (srcBuf same A.mat.val b) k
        wr b k (op u alpha))
      (by intro k hk; have := ho.mem.mp hk; omega)
      (by
        intro k b u hk hbl hu
        rw [hld k u b (ho.mem.mp hk) hu, Res.ok_bind])
    refine ⟨{ C with mat := { C.mat with val := w } }, ?_, HCrs.sameFrame_val hC h2 ?_, ?_⟩
    · unfold HCrs.scaleS
      rw [hstr, Res.ok_bind, h1]; rfl
    · intro k hk
      apply h4
      intro j hj he
      have := ho.mem.mp hj
      omega
    · refine Crs.rowEntries_update_all hA hC hAC (fun _ _ u => op u alpha) ?_
      intro i k c u v hi hk1 hk2 hc hu hv
      have := (hcA i k c hi hk2 hc).1
      rw [h3 k v (ho.mem.mpr this) hv, hld2 k u v hu hv]
  · obtain ⟨w, h1, h2, h3, h4⟩ := Crs.rows_core hA hC hn ho (fun _ _ => True)
      (fun _ k u => op (ld k u) (y ((A.mat.colInd[k]?).getD 0)))
      (cell := fun i j b => do
        let u ← rd (srcBuf same A.mat.val b) j
        let c ← rd A.mat.colInd j
        let y ← rd x.buf (x.off + c)
        wr b j (op u y))
      (by
        intro i k c u b hi hk1 hk2 hc hu
        have hb := hcA i k c hi hk2 hc
        have hy := hx c (by omega)
        unfold Win.get at hy
        rw [hld k u b hb.1 hu, Res.ok_bind, rd_of_getElem? hc, Res.ok_bind, hy, Res.ok_bind,
          if_pos trivial, hc]; rfl)
    refine ⟨{ C with mat := { C.mat with val := w } }, ?_, HCrs.sameFrame_val hC h2 ?_, ?_⟩
    · unfold HCrs.scaleRows
      rw [hstr, Res.ok_bind, cassert_decide hs.symm, Res.ok_bind, h1]; rfl
    · intro k hk; exact h4 k (by omega)
    · refine Crs.rowEntries_update_all hA hC hAC (fun _ c u => op u (y c)) ?_
      intro i k c u v hi hk1 hk2 hc hu hv
      rw [h3 i k c v hi hk1 hk2 hc hv, if_pos trivial, hld2 k u v hu hv, hc]; rfl
  · obtain ⟨w, h1, h2, h3, h4⟩ := Crs.rows_core hA hC hn ho (fun _ _ => True)
      (fun i k u => op (ld k u) (y i))
      (cell := fun i j b => do
        let u ← rd (srcBuf same A.mat.val b) j
        let y ← rd x.buf (x.off + i)
        wr b j (op u y))
      (by
        intro i k c u b hi hk1 hk2 hc hu
        have hb := hcA i k c hi hk2 hc
        have hy := hx i (by omega)
        unfold Win.get at hy
        rw [hld k u b hb.1 hu, Res.ok_bind, hy, Res.ok_bind, if_pos trivial])
    refine ⟨{ C with mat := { C.mat with val := w } }, ?_, HCrs.sameFrame_val hC h2 ?_, ?_⟩
    · unfold HCrs.scaleCols
      rw [hstr, Res.ok_bind, cassert_decide hs.symm, Res.ok_bind, h1]; rfl
    · intro k hk; exact h4 k (by omega)
    · refine Crs.rowEntries_update_all hA hC hAC (fun i _ u => op u (y i)) ?_
      intro i k c u v hi hk1 hk2 hc hu hv
      rw [h3 i k c v hi hk1 hk2 hc hv, if_pos trivial, hld2 k u v hu hv]
  · have hle := hAS.ptr_le (num + 1) (by omega)
    have hcol : ∀ k, k < A.mat.nnz → ∃ c, A.mat.colInd[k]? = some c := fun j hj =>
      ⟨_, List.getElem?_eq_getElem (by omega)⟩
    obtain ⟨w, h1, h2, h3, h4⟩ := forList_points order (fun t => A.mat.ptr num + t)
      (fun t u => op (ld (A.mat.ptr num + t) u) (y ((A.mat.colInd[A.mat.ptr num + t]?).getD 0)))
      (List.Nodup.map_on (by intro p _ q _ he; omega) ho.nodup) C.mat.val
      (body := fun t b => do
        let u ← rd (srcBuf same A.mat.val b) (A.mat.ptr num + t)
        let c ← rd A.mat.colInd (A.mat.ptr num + t)
        let y ← rd x.buf (x.off + c)
        wr b (A.mat.ptr num + t) (op u y))
      (by intro k hk; have := ho.mem.mp hk; omega)
      (by
        intro t b u ht hbl hu
        have htl := ho.mem.mp ht
        obtain ⟨c, hc⟩ := hcol (A.mat.ptr num + t) (by omega)
        have hb := hcA num (A.mat.ptr num + t) c hnum (by omega) hc
        have hy := hx c (by omega)
        unfold Win.get at hy
        rw [hld _ u b hb.1 hu, Res.ok_bind, rd_of_getElem? hc, Res.ok_bind, hy, Res.ok_bind, hc]
        rfl)
    refine ⟨{ C with mat := { C.mat with val := w } }, ?_, HCrs.sameFrame_val hC h2 ?_, ?_⟩
    · unfold HCrs.scaleRow
      rw [hstr, Res.ok_bind, cassert_decide hs.symm, Res.ok_bind, cassert_decide (by omega),
        Res.ok_bind, rd_ptr hAS.lenP (by omega), Res.ok_bind, rd_ptr hAS.lenP (by omega), Res.ok_bind,
        h1]
      rfl
    · intro k hk
      apply h4
      intro j hj he
      have := ho.mem.mp hj
      omega
    · intro i hi
      rw [Crs.rowEntries_update hA hC hAC (fun i c u v => if i = num then op u (y c) else v) ?_ hi]
      · congr 1
        funext a b
        by_cases hb : b.1 = num
        · rw [if_pos hb, if_pos hb]
        · rw [if_neg hb, if_neg hb]
      · intro i k c u v hi hk1 hk2 hc hu hv
        by_cases hin : i = num
        · subst hin
          rw [if_pos rfl]
          have := h3 (k - A.mat.ptr i) v (ho.mem.mpr (by omega))
            (by rw [show A.mat.ptr i + (k - A.mat.ptr i) = k by omega]; exact hv)
          rw [show A.mat.ptr i + (k - A.mat.ptr i) = k by omega] at this
          rw [this, hld2 k u v hu hv, hc]; rfl
        · rw [if_neg hin, h4, hv]
          intro t ht he
          have := ho.mem.mp ht
          exact hin (hA.row_unique hi hnum hk1 hk2 (by omega) (by omega))
  · obtain ⟨w, h1, h2, h3, h4⟩ := Crs.rows_core hA hC hn ho (fun _ c => c = num)
      (fun i k u => op (ld k u) (y i))
      (cell := fun i j b => do
        let c ← rd A.mat.colInd j
        if c = num then do
          let u ← rd (srcBuf same A.mat.val b) j
          let y ← rd x.buf (x.off + i)
          wr b j (op u y)
        else .ok b)
      (by
        intro i k c u b hi hk1 hk2 hc hu
        have hb := hcA i k c hi hk2 hc
        have hy := hx i (by omega)
        unfold Win.get at hy
        rw [rd_of_getElem? hc, Res.ok_bind, hld k u b hb.1 hu, Res.ok_bind, hy, Res.ok_bind])
    refine ⟨{ C with mat := { C.mat with val := w } }, ?_, HCrs.sameFrame_val hC h2 ?_, ?_⟩
    · unfold HCrs.scaleCol
      rw [hstr, Res.ok_bind, cassert_decide hs.symm, Res.ok_bind, cassert_decide (by omega),
        Res.ok_bind, h1]
      rfl
    · intro k hk; exact h4 k (by omega)
    · intro i hi
      rw [Crs.rowEntries_update hA hC hAC (fun i c u v => if c = num then op u (y i) else v) ?_ hi]
      · congr 1
        funext a b
        by_cases hb : b.2.1 = num
        · rw [if_pos hb, if_pos hb]
        · rw [if_neg hb, if_neg hb]
      · intro i k c u v hi hk1 hk2 hc hu hv
        rw [h3 i k c v hi hk1 hk2 hc hv, hld2 k u v hu hv]

example : HCrs.scaleRows (· * ·) true [1, 0]
    ⟨.mk 2 3 [0, 2, 3] [0, 2, 1] [(5 : Int), 6, 7] 3 3 true, 1⟩ ⟨[9, 10, 20, 30], 1, 3⟩
    ⟨.mk 2 3 [0, 2, 3] [0, 2, 1] [(5 : Int), 6, 7] 3 3 true, 1⟩ =
    .ok ⟨.mk 2 3 [0, 2, 3] [0, 2, 1] [50, 180, 140] 3 3 true, 1⟩ := by decide
example : HCrs.scaleCol (· * ·) false [1, 0]
    ⟨.mk 2 3 [0, 2, 3] [0, 2, 2] [(5 : Int), 6, 7] 3 3 true, 1⟩ 2 ⟨[10, 20], 0, 2⟩
    ⟨.mk 2 3 [0, 2, 3] [0, 2, 2] [(1 : Int), 1, 1] 3 3 true, 1⟩ =
    .ok ⟨.mk 2 3 [0, 2, 3] [0, 2, 2] [1, 60, 140] 3 3 true, 1⟩ := by decide

end Verif
