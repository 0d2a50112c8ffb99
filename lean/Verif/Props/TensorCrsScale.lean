import Verif.Props.TensorCrsCopy
import Verif.Props.TensorCrsMul
import Verif.Props.Scale

/-!
C51: scaling a `tensor_CRS` by a number or by a vector along its last axis.
-/

namespace Verif

open Spec TDense

variable {α : Type}

namespace TCrs

/-- Row loops that overwrite every stored element of a CRS matrix kept at offset `o` of a buffer. -/
theorem rows_at {M : Crs α} (h : M.Tiled) {s : List α} {o : Nat} (hs : o + M.nnz ≤ s.length)
    {order : List Nat} (ho : Order order M.rowN) (g : Nat → α → α) {cell : Nat → List α → Res (List α)}
    (hcell : ∀ k u, ∀ b : List α, k < M.nnz → b[o + k]? = some u → cell k b = wr b (o + k) (g k u)) :
    ∃ w, forList order (fun i b => do
        let p ← rd M.rowPtr i
        let q ← rd M.rowPtr (i + 1)
        forRange p q cell b) s = .ok w ∧ w.length = s.length ∧
      (∀ i k u, i < M.rowN → M.ptr i ≤ k → k < M.ptr (i + 1) → s[o + k]? = some u →
        w[o + k]? = some (g k u)) ∧
      ∀ p, p < o ∨ o + M.nnz ≤ p → w[p]? = s[p]? := by
  have hS := h.toSafe
  obtain ⟨w, h1, h2, h3⟩ := forList_cells order
    (fun i p u => if o + M.ptr i ≤ p ∧ p < o + M.ptr (i + 1) then g (p - o) u else u) s
    (body := fun i b => do
        let p ← rd M.rowPtr i
        let q ← rd M.rowPtr (i + 1)
        forRange p q cell b)
    (by
      intro i t hi htl
      have hin := ho.mem.mp hi
      rw [rd_ptr hS.lenP (by omega), Res.ok_bind, rd_ptr hS.lenP (by omega), Res.ok_bind]
      have hq := hS.ptr_le (i + 1) (by omega)
      unfold forRange
      rw [forFrom_eq_forList]
      obtain ⟨t', e1, e2, e3, e4⟩ := forList_points (List.range' (M.ptr i) (M.ptr (i + 1) - M.ptr i))
        (fun j => o + j) g
        (List.Nodup.map (fun a b (hab : o + a = o + b) => by omega) List.nodup_range') t (body := cell)
        (by intro j hj; rw [List.mem_range'_1] at hj; omega)
        (by
          intro j b u hj hbl hu
          rw [List.mem_range'_1] at hj
          exact hcell j u b (by omega) hu)
      refine ⟨t', e1, by rw [e2, htl], ?_⟩
      intro k
      by_cases hk : o + M.ptr i ≤ k ∧ k < o + M.ptr (i + 1)
      · have hkl : k < t.length := by omega
        have := e3 (k - o) t[k] (by rw [List.mem_range'_1]; omega) (by
          rw [show o + (k - o) = k by omega]; exact List.getElem?_eq_getElem hkl)
        rw [show o + (k - o) = k by omega] at this
        rw [this, List.getElem?_eq_getElem hkl, Option.map_some, if_pos hk]
      · rw [e4 k (by intro j hj hkj; rw [List.mem_range'_1] at hj; omega)]
        cases t[k]? with
        | none => rfl
        | some u => rw [Option.map_some, if_neg hk])
  refine ⟨w, h1, h2, ?_, ?_⟩
  · intro i k u hi hk1 hk2 hu
    rw [h3, hu, Option.map_some]
    congr 1
    rw [foldl_single order (fun i u => if o + M.ptr i ≤ o + k ∧ o + k < o + M.ptr (i + 1)
        then g (o + k - o) u else u) u ho.nodup (ho.mem.mpr hi)
        (fun j hj hji u => if_neg (fun q => hji
          (h.row_unique (ho.mem.mp hj) hi (by omega) (by omega) hk1 hk2)))]
    rw [if_pos (by omega)]
    congr 1
    omega
  · intro k hk
    rw [h3]
    cases s[k]? with
    | none => rfl
    | some u =>
      rw [Option.map_some, foldl_id]
      intro j hj u
      rw [if_neg]
      rintro ⟨q1, q2⟩
      have := hS.ptr_le (j + 1) (by have := ho.mem.mp hj; omega)
      omega

theorem slice_val {us : List Nat} {R C : Nat} {A : TCrs α} (hA : A.Tiled us R C) {d k : Nat}
    (hd : d < volume us) (hk : k < (A.slice R C d).nnz) :
    (A.slice R C d).val[k]? = A.val[A.first + (k + A.offset d)]? := by
  simp only [slice] at hk ⊢
  rw [List.getElem?_take_of_lt hk, List.getElem?_drop]
  congr 1; omega

theorem offset_lt {us : List Nat} {R C : Nat} {A : TCrs α} (hA : A.Tiled us R C) {d : Nat}
    (hd : d < volume us) : A.offset d + (A.slice R C d).nnz ≤ A.nnz := by
  have hot := offset_le (T := A) (n := volume us) (by rw [hA.lenC]) (d + 1) hd
  rw [hA.total, offset_succ (by rw [hA.lenC]; exact hd)] at hot
  exact hot

/-- same shape and same index arrays -/
structure SameShape (A C : TCrs α) : Prop where
  shape : C.shape = A.shape
  ptrs : C.rowPtrs = A.rowPtrs
  inds : C.colInds = A.colInds
  nnz : C.nnz = A.nnz

theorem SameShape.slice {A C : TCrs α} (h : SameShape A C) (R N d : Nat) :
    SameStructure (A.slice R N d) (C.slice R N d) := by
  constructor <;> simp only [TCrs.slice, h.ptrs, h.inds]

theorem SameShape.offset {A C : TCrs α} (h : SameShape A C) (d : Nat) : C.offset d = A.offset d := by
  unfold TCrs.offset; rw [h.inds]

/-- the elements of the result slice by slice, from its values -/
theorem entries_of_vals {us : List Nat} {R N : Nat} {A C : TCrs α} (hA : A.Tiled us R N)
    (hC : C.Tiled us R N) (hs : SameShape A C) {v : List α} (hv : v.length = C.val.length)
    {F : Nat → α → α} {d : Nat} (hd : d < volume us)
    (hw : ∀ i k c u, i < R → (A.slice R N d).ptr i ≤ k → k < (A.slice R N d).ptr (i + 1) →
      (A.slice R N d).colInd[k]? = some c → A.val[A.first + (k + A.offset d)]? = some u →
      v[C.first + (k + A.offset d)]? = some (F c u)) :
    (({ C with val := v } : TCrs α).slice R N d).entries =
      (A.slice R N d).entries.map (fun e => (e.1, e.2.1, F e.2.1 e.2.2)) := by
  have hC' := offset_lt hC hd
  refine Crs.rowEntries_update_all (hA.tiled d hd) (hC.tiled d hd) (hs.slice R N d) (fun _ => F)
    (w := (({ C with val := v } : TCrs α).slice R N d).val) ?_
  intro i k c u _ hi h1 h2 hc hu _
  have hk : k < (A.slice R N d).nnz := Nat.lt_of_lt_of_le h2 ((hA.tiled d hd).ptr_le _ (by
    have : i < (A.slice R N d).rowN := hi
    omega))
  rw [slice_val hA hd hk] at hu
  have := hw i k c u hi h1 h2 hc hu
  have e : (C.colInds.getD d []).length = (A.slice R N d).nnz := by simp [TCrs.slice, hs.inds]
  have eo : ({ C with val := v } : TCrs α).offset d = A.offset d := hs.offset d
  simp only [TCrs.slice]
  rw [List.getElem?_take_of_lt (by rw [e]; exact hk), List.getElem?_drop, eo, ← this]
  congr 1; omega

theorem tiled_val {us : List Nat} {R N : Nat} {C : TCrs α} (hC : C.Tiled us R N) {v : List α}
    (hv : v.length = C.val.length) : ({ C with val := v } : TCrs α).Tiled us R N := by
  refine ⟨hC.shape, hC.lenP, hC.lenC, hC.total, hv.trans hC.lenV, hC.window, ?_⟩
  intro d hd
  have h := hC.tiled d hd
  have hl := offset_lt hC hd
  have := hC.window
  have := hC.lenV
  exact { created := h.created, lenV := by
            simp only [TCrs.slice] at hl ⊢
            have eo : ({ C with val := v } : TCrs α).offset d = C.offset d := rfl
            rw [List.length_take, List.length_drop, eo]; omega
          nnz_le := h.nnz_le, lenP := h.lenP, ptr_le := h.ptr_le, lenC := h.lenC, col_lt := h.col_lt
          tile := h.tile }

/-- what a load of `A` sees while `b` is the destination buffer, at an element not yet overwritten -/
theorem load {us : List Nat} {R N : Nat} {A C : TCrs α} (hA : A.Tiled us R N) (same : Bool)
    (hsame : same = true → C = A) {p : Nat} (hp : p < A.nnz) {b : List α} {u : α}
    (hb : b[C.first + p]? = some u) :
    rd (if same then b else A.val) (A.first + p) =
      .ok (if same then u else (A.val[A.first + p]?).getD u) := by
  cases same with
  | true => rw [hsame rfl] at hb; exact rd_of_getElem? hb
  | false =>
    have := hA.window
    have := hA.lenV
    apply rd_of_getElem?
    simp only [Bool.false_eq_true, if_false]
    rw [List.getElem?_eq_getElem (by omega)]; rfl

end TCrs

/-- **C51 (times by a number).** For all tensors `A`, `C` with the same structure, distinct or the same
object, and every schedule: `times(alpha, A, C)` gives every stored element of `A` times `alpha`, slice by
slice. -/
theorem C51_times [Mul α] {us : List Nat} {R N : Nat} {A C : TCrs α} (hA : A.Tiled us R N)
    (hC : C.Tiled us R N) (hs : TCrs.SameShape A C) (same : Bool) (hsame : same = true → C = A)
    (alpha : α) (order : List Nat) (ho : Order order A.nnz) :
    ∃ C', A.timesS true same order alpha C = .ok C' ∧ C'.Tiled us R N ∧ TCrs.SameShape C C' ∧
      (∀ p, p < C.first ∨ C.first + C.nnz ≤ p → C'.val[p]? = C.val[p]?) ∧
      ∀ d, d < volume us → (C'.slice R N d).entries =
        (A.slice R N d).entries.map (fun e => (e.1, e.2.1, e.2.2 * alpha)) := by
  have w1 := hC.window
  have w2 := hC.lenV
  have w3 := hs.nnz
  obtain ⟨v, h1, h2, h3, h4⟩ := forList_points order (fun k => C.first + k)
    (fun k u => (if same then u else (A.val[A.first + k]?).getD u) * alpha)
    (List.Nodup.map (fun a b (hab : C.first + a = C.first + b) => by omega) ho.nodup) C.val
    (body := fun k b => do
      let u ← rd (if same then b else A.val) (A.first + k)
      wr b (C.first + k) (u * alpha))
    (by intro i hi; have := ho.mem.mp hi; omega)
    (by
      intro i b u hi hbl hu
      rw [TCrs.load hA same hsame (ho.mem.mp hi) hu, Res.ok_bind])
  refine ⟨{ C with val := v }, ?_, TCrs.tiled_val hC h2, ⟨rfl, rfl, rfl, rfl⟩, ?_, ?_⟩
  · unfold TCrs.timesS
    rw [show cassert true = .ok () from rfl, Res.ok_bind, h1, Res.ok_bind]
  · intro p hp
    refine h4 p ?_
    intro i hi
    have := ho.mem.mp hi
    omega
  · intro d hd
    refine TCrs.entries_of_vals hA hC hs h2 (F := fun _ u => u * alpha) hd ?_
    intro i k c u hi k1 k2 hc hu
    have hk : k < (A.slice R N d).nnz := Nat.lt_of_lt_of_le k2 ((hA.tiled d hd).ptr_le _ (by
      have : i < (A.slice R N d).rowN := hi
      omega))
    have hkn : k + A.offset d < A.nnz := by have := TCrs.offset_lt hA hd; omega
    have hg : C.val[C.first + (k + A.offset d)]? = some (C.val[C.first + (k + A.offset d)]'(by omega)) :=
      List.getElem?_eq_getElem (by omega)
    rw [h3 _ _ (ho.mem.mpr hkn) hg]
    congr 2
    cases same with
    | true =>
      have := hsame rfl
      subst this
      rw [hg] at hu
      injection hu
    | false => simp [hu]

/-- **C51 (times by a vector along the last axis).** `times_row(A, x, C)` multiplies every stored element
of `A` by the component of `x` of its last index; same tensors and schedules as above (one schedule per
slice). -/
theorem C51_times_row [Mul α] {us : List Nat} {R N : Nat} {A C : TCrs α} (hA : A.Tiled us R N)
    (hC : C.Tiled us R N) (hs : TCrs.SameShape A C) (same : Bool) (hsame : same = true → C = A)
    (x : Win α) (hx : x.size = N) (y : Nat → α) (hy : ∀ i, i < x.size → x.get i = .ok (y i))
    (orders : Nat → List Nat) (ho : ∀ d, d < volume us → Order (orders d) R) :
    ∃ C', A.timesRow true same orders x C = .ok C' ∧ C'.Tiled us R N ∧ TCrs.SameShape C C' ∧
      (∀ p, p < C.first ∨ C.first + C.nnz ≤ p → C'.val[p]? = C.val[p]?) ∧
      ∀ d, d < volume us → (C'.slice R N d).entries =
        (A.slice R N d).entries.map (fun e => (e.1, e.2.1, e.2.2 * y e.2.1)) := by
  have w1 := hC.window
  have w2 := hC.lenV
  have w3 := hs.nnz
  let ld : Nat → α → α := fun p u => if same then u else (A.val[A.first + p]?).getD u
  have hloop := forN_sat (n := A.rowPtrs.length) (body := fun d (s : Nat × List α) => do
    let rp ← rd A.rowPtrs d
    let ci ← rd A.colInds d
    let b ← forList (orders d) (fun i b => do
      let p ← rd rp i
      let q ← rd rp (i + 1)
      forRange p q (fun j b => do
        let u ← rd (if same then b else A.val) (A.first + (j + s.1))
        let c ← rd ci j
        let y ← rd x.buf (x.off + c)
        wr b (C.first + (j + s.1)) (u * y)) b) s.2
    Res.ok (s.1 + ci.length, b)) (s := (0, C.val))
    (fun n s => s.1 = A.offset n ∧ s.2.length = C.val.length ∧
      (∀ p, p < C.first ∨ C.first + A.offset n ≤ p → s.2[p]? = C.val[p]?) ∧
      ∀ d, d < n → ∀ i k c u, i < R → (A.slice R N d).ptr i ≤ k → k < (A.slice R N d).ptr (i + 1) →
        (A.slice R N d).colInd[k]? = some c → C.val[C.first + (k + A.offset d)]? = some u →
        s.2[C.first + (k + A.offset d)]? = some (ld (k + A.offset d) u * y c))
    ⟨by simp [TCrs.offset], rfl, by intros; rfl, by intro d hd; omega⟩ (by
    rintro n ⟨ns, b⟩ hn ⟨e1, e2, e3, e4⟩
    dsimp only at e1 e2 e3 e4 ⊢
    subst e1
    rw [hA.lenP] at hn
    have hlt := TCrs.offset_lt hA hn
    have ht := hA.tiled n hn
    have hS := ht.toSafe
    rw [TCrs.getD_rd (by rw [hA.lenP]; exact hn) [], Res.ok_bind,
      TCrs.getD_rd (by rw [hA.lenC]; exact hn) [], Res.ok_bind]
    have hcl : (A.colInds.getD n []).length = (A.slice R N n).nnz := rfl
    obtain ⟨w, g1, g2, g3, g4⟩ := TCrs.rows_at (M := A.slice R N n) ht (s := b) (o := C.first + A.offset n)
      (by omega) (ho n hn)
      (fun k u => ld (k + A.offset n) u * y ((A.colInds.getD n []).getD k 0))
      (cell := fun j b => do
        let u ← rd (if same then b else A.val) (A.first + (j + A.offset n))
        let c ← rd (A.colInds.getD n []) j
        let y ← rd x.buf (x.off + c)
        wr b (C.first + (j + A.offset n)) (u * y))
      (by
        intro k u b hk hu
        have e : C.first + A.offset n + k = C.first + (k + A.offset n) := by omega
        rw [e] at hu ⊢
        rw [TCrs.load hA same hsame (by omega) hu, Res.ok_bind, TCrs.getD_rd (by omega) 0, Res.ok_bind]
        have hc : (A.colInds.getD n []).getD k 0 < N := by
          have := hS.col_lt k hk hk
          rw [List.getD_eq_getElem?_getD, List.getElem?_eq_getElem (by omega)]
          exact this
        have := hy _ (by rw [hx]; exact hc)
        rw [show rd x.buf (x.off + (A.colInds.getD n []).getD k 0) = x.get _ from rfl, this, Res.ok_bind])
    rw [show (A.slice R N n).rowPtr = A.rowPtrs.getD n [] from rfl] at g1
    rw [g1, Res.ok_bind, Res.sat_ok]
    refine ⟨?_, by rw [g2, e2], ?_, ?_⟩
    · rw [TCrs.offset_succ (by rw [hA.lenC]; exact hn)]
    · intro p hp
      rw [TCrs.offset_succ (by rw [hA.lenC]; exact hn), hcl] at hp
      rw [g4 p (by omega)]
      exact e3 p (by omega)
    · intro d hd i k c u hi k1 k2 hc hu
      have hdU : d < volume us := by omega
      have hk : k < (A.slice R N d).nnz := Nat.lt_of_lt_of_le k2 ((hA.tiled d hdU).ptr_le _ (by
        have : i < (A.slice R N d).rowN := hi
        omega))
      rcases Nat.lt_or_eq_of_le (Nat.le_of_lt_succ hd) with h | h
      · have := TCrs.offset_le (T := A) (n := n) (by rw [hA.lenC]; omega) (d + 1) h
        rw [TCrs.offset_succ (by rw [hA.lenC]; omega)] at this
        have hk' : k < (A.colInds.getD d []).length := hk
        rw [g4 _ (by omega)]
        exact e4 d h i k c u hi k1 k2 hc hu
      · subst h
        have e : C.first + (k + A.offset d) = C.first + A.offset d + k := by omega
        have hbu : b[C.first + A.offset d + k]? = some u := by
          rw [← e, e3 _ (by omega)]; exact hu
        have := g3 i k u hi k1 k2 hbu
        rw [e, this]
        have hcd : (A.colInds.getD d []).getD k 0 = c := by
          rw [List.getD_eq_getElem?_getD]
          rw [show (A.colInds.getD d [])[k]? = some c from hc]; rfl
        rw [hcd])
  obtain ⟨⟨ns, v⟩, h1, h2, h3, h4, h5⟩ := hloop
  dsimp only at h2 h3 h4 h5
  rw [hA.lenP] at h4 h5
  rw [hA.total] at h4
  refine ⟨{ C with val := v }, ?_, TCrs.tiled_val hC h3, ⟨rfl, rfl, rfl, rfl⟩, ?_, ?_⟩
  · unfold TCrs.timesRow
    have hl : TDense.lastExtent A.shape = .ok N := by
      rw [hA.shape, show us ++ [R, N] = (us ++ [R]) ++ [N] by simp, lastExtent_append]
    rw [show cassert true = .ok () from rfl, Res.ok_bind, hl, Res.ok_bind, cassert_decide hx.symm,
      Res.ok_bind, h1, Res.ok_bind]
  · intro p hp
    exact h4 p (by rw [w3] at hp; exact hp)
  · intro d hd
    refine TCrs.entries_of_vals hA hC hs h3 (F := fun c u => u * y c) hd ?_
    intro i k c u hi k1 k2 hc hu
    have hk : k < (A.slice R N d).nnz := Nat.lt_of_lt_of_le k2 ((hA.tiled d hd).ptr_le _ (by
      have : i < (A.slice R N d).rowN := hi
      omega))
    have hkn : k + A.offset d < A.nnz := by have := TCrs.offset_lt hA hd; omega
    have hg : C.val[C.first + (k + A.offset d)]? = some (C.val[C.first + (k + A.offset d)]'(by omega)) :=
      List.getElem?_eq_getElem (by omega)
    rw [h5 d hd i k c _ hi k1 k2 hc hg]
    congr 2
    simp only [ld]
    cases same with
    | true =>
      have := hsame rfl
      subst this
      rw [hg] at hu
      injection hu
    | false => simp [hu]

/-- the hypotheses are met by a tensor of rank 3 with two slices, in place and out of place -/
example : ∃ A : TCrs Int, TCrs.ofCoo (TCoo.ofZ [2, 2, 2] [([0, 0, 1], 4), ([1, 1, 0], 5)] 2) = .ok A ∧
    A.Tiled [2] 2 2 ∧ TCrs.SameShape A A ∧ Order [1, 0] A.nnz ∧ (∀ d, d < volume [2] → Order [1, 0] 2) ∧
    (A.timesRow true true (fun _ => [1, 0]) ⟨[7, 10, 100], 1, 2⟩ A).Sat
      (fun C => C.val = [400, 50]) := by
  obtain ⟨A, h1, h2, _⟩ := C47_convert [2] 2 2
    (TCoo.ofZ [2, 2, 2] [([0, 0, 1], (4 : Int)), ([1, 1, 0], 5)] 2) ⟨rfl, rfl, rfl, by decide⟩ rfl (by
      intro e he
      simp [TCoo.entries, TCoo.ofZ] at he
      rcases he with rfl | rfl <;>
        exact List.Forall₂.cons (by decide) (List.Forall₂.cons (by decide)
          (List.Forall₂.cons (by decide) List.Forall₂.nil))) (by unfold SortedT; decide)
  cases h1.symm.trans (show TCrs.ofCoo _ = .ok _ from rfl)
  refine ⟨_, rfl, h2, ⟨rfl, rfl, rfl, rfl⟩, ?_, ?_, _, rfl, rfl⟩
  · exact List.Perm.swap 0 1 []
  · intro d _
    exact List.Perm.swap 0 1 []

/-- the hypotheses of `C51_tensvec`, `C51_tensmat` and `C51_tensmul` are met by a rank-3 tensor with two
slices, a storage window with an offset, and a non-trivial schedule; the results are what they say -/
example : ∃ A : TCrs Int, TCrs.ofCoo (TCoo.ofZ [2, 2, 2] [([0, 0, 1], 4), ([1, 1, 0], 5)] 2) = .ok A ∧
    A.Tiled [2] 2 2 ∧
    (A.tensvec [1, 0] 1 ⟨[7, 10, 100], 1, 2⟩ 0 ⟨[2, 2], [9, 9, 9, 9, 9], 4, 5, 1, true⟩).Sat
      (fun C => C.val = [9, 400, 0, 0, 50]) ∧
    (A.tensmat [1, 0] 2 ⟨2, 2, [1, 2, 3, 4], 4, 4, 0, true⟩ 1
      ⟨[2, 2, 2], [1, 1, 1, 1, 1, 1, 1, 1], 8, 8, 0, true⟩).Sat
      (fun C => C.val = [25, 33, 1, 1, 1, 1, 11, 21]) ∧
    (A.tensmul [1, 0] 2 ⟨[2, 1, 2], [1, 2, 3, 4], 4, 4, 0, true⟩ 1
      ⟨[2, 2, 1, 2], [1, 1, 1, 1, 1, 1, 1, 1], 8, 8, 0, true⟩).Sat
      (fun C => C.val = [25, 33, 1, 1, 1, 1, 11, 21]) := by
  obtain ⟨A, h1, h2, _⟩ := C47_convert [2] 2 2
    (TCoo.ofZ [2, 2, 2] [([0, 0, 1], (4 : Int)), ([1, 1, 0], 5)] 2) ⟨rfl, rfl, rfl, by decide⟩ rfl (by
      intro e he
      simp [TCoo.entries, TCoo.ofZ] at he
      rcases he with rfl | rfl <;>
        exact List.Forall₂.cons (by decide) (List.Forall₂.cons (by decide)
          (List.Forall₂.cons (by decide) List.Forall₂.nil))) (by unfold SortedT; decide)
  cases h1.symm.trans (show TCrs.ofCoo _ = .ok _ from rfl)
  exact ⟨_, rfl, h2, ⟨_, rfl, rfl⟩, ⟨_, rfl, rfl⟩, ⟨_, rfl, rfl⟩⟩

end Verif
