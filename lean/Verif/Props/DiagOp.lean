import Verif.Props.Getvec

/-! C20: `diag_add`, `diag_sub`, `diag_mul`, `diag_div` on Dense and CRS. -/

namespace Verif

open Spec

variable {α : Type}

/-! ### Dense -/

theorem Dense.diag_core {A : Dense α} (h : A.WF) (hfirst : A.first = 0) {f : Nat → Nat → α}
    (hf : A.Reads f) {order : List Nat} (ho : Order order (min A.rowN A.colN)) (g : Nat → α → α)
    {body : Nat → List α → Res (List α)}
    (hb : ∀ i, i < min A.rowN A.colN → ∀ b u, b[A.colN * i + i]? = some u →
      body i b = wr b (A.colN * i + i) (g i u)) :
    ∃ w, forList order body A.val = .ok w ∧ ({ A with val := w } : Dense α).WF ∧
      ({ A with val := w } : Dense α).Reads (fun i j => if i = j then g i (f i j) else f i j) ∧
      ∀ k, A.nnz ≤ k → w[k]? = A.val[k]? := by
  have hw := h.window
  have hl := h.lenV
  have hlt : ∀ i, i < min A.rowN A.colN → A.colN * i + i < A.nnz := fun i hi =>
    h.idx_lt (by omega) (by omega)
  obtain ⟨w, h1, h2, h3, h4⟩ := forList_points order (fun i => A.colN * i + i) g
    (by
      refine List.Nodup.map_on ?_ ho.nodup
      intro i hi i' hi' he
      have := ho.mem.mp hi
      have := ho.mem.mp hi'
      exact (idx_inj (by omega) (by omega) he).1)
    A.val (body := body)
    (by
      intro i hi
      have := hlt i (ho.mem.mp hi)
      omega)
    (by
      intro i t u hi _ hu
      exact hb i (ho.mem.mp hi) t u hu)
  have hwf : ({ A with val := w } : Dense α).WF := ⟨h2.trans h.lenV, h.nnz_eq, h.window⟩
  refine ⟨w, h1, hwf, ?_, ?_⟩
  · intro i j hi hj
    change i < A.rowN at hi
    change j < A.colN at hj
    have hold := hf i j hi hj
    rw [Dense.at_eq_rd h hi hj, rd_eq_ok, hfirst, Nat.zero_add] at hold
    apply Dense.at_of_getElem? hwf hi hj
    simp only [hfirst, Nat.zero_add]
    by_cases hij : i = j
    · subst hij
      rw [if_pos rfl]
      exact h3 i _ (ho.mem.mpr (by omega)) hold
    · rw [if_neg hij, h4, hold]
      intro i' hi' he
      have := ho.mem.mp hi'
      have := idx_inj hj (show i' < A.colN by omega) he
      omega
  · intro k hk
    apply h4
    intro i hi he
    have := hlt i (ho.mem.mp hi)
    omega

/-- **C20 (Dense), partial**: for every dense matrix stored from offset 0, every shape, every schedule
and every operation `op` (add, sub, mul, div), `diag_op` with a scalar or with a vector (or view of
any offset) of the right length replaces exactly the elements `(i, i)`; everything else, including
the allocated storage beyond the matrix, is unchanged. -/
theorem C20_dense_partial {A : Dense α} (h : A.WF) (hfirst : A.first = 0) {f : Nat → Nat → α}
    (hf : A.Reads f) {order : List Nat} (ho : Order order (min A.rowN A.colN)) (op : α → α → α) :
    (∀ alpha, ∃ w, A.diagOpS op order alpha = .ok { A with val := w } ∧
      ({ A with val := w } : Dense α).WF ∧
      ({ A with val := w } : Dense α).Reads (fun i j => if i = j then op (f i j) alpha else f i j) ∧
      ∀ k, A.nnz ≤ k → w[k]? = A.val[k]?) ∧
    (∀ d : Win α, d.Ok → d.size = min A.rowN A.colN → ∀ y : Nat → α,
      (∀ i, i < d.size → d.get i = .ok (y i)) →
      ∃ w, A.diagOpV op order d = .ok { A with val := w } ∧
      ({ A with val := w } : Dense α).WF ∧
      ({ A with val := w } : Dense α).Reads (fun i j => if i = j then op (f i j) (y i) else f i j) ∧
      ∀ k, A.nnz ≤ k → w[k]? = A.val[k]?) := by
  refine ⟨fun alpha => ?_, fun d hd hs y hy => ?_⟩
  · obtain ⟨w, h1, h2⟩ := Dense.diag_core h hfirst hf ho (fun _ u => op u alpha)
      (body := fun i b => do
        let x ← rd b (A.colN * i + i)
        wr b (A.colN * i + i) (op x alpha))
      (fun i hi b u hu => by rw [rd_of_getElem? hu, Res.ok_bind])
    exact ⟨w, by unfold Dense.diagOpS; rw [h1]; rfl, h2⟩
  · obtain ⟨w, h1, h2⟩ := Dense.diag_core h hfirst hf ho (fun i u => op u (y i))
      (body := fun i b => do
        let x ← rd b (A.colN * i + i)
        let y ← rd d.buf (d.off + i)
        wr b (A.colN * i + i) (op x y))
      (fun i hi b u hu => by
        have := hy i (by omega)
        unfold Win.get at this
        rw [rd_of_getElem? hu, Res.ok_bind, this, Res.ok_bind])
    refine ⟨w, ?_, h2⟩
    unfold Dense.diagOpV Dense.diagLen
    rw [cassert_decide (by rw [hs]; split <;> omega), Res.ok_bind, h1]; rfl

/-- a vector of the wrong length is rejected -/
theorem C20_dense_sizes (op : α → α → α) (A : Dense α) (order : List Nat) (d : Win α)
    (h : d.size ≠ min A.rowN A.colN) : ∃ m, A.diagOpV op order d = .abort m := by
  refine ⟨"assert", ?_⟩
  unfold Dense.diagOpV Dense.diagLen
  rw [show decide ((if A.rowN < A.colN then A.rowN else A.colN) = d.size) = false by
    rw [decide_eq_false_iff_not]; split <;> omega]
  rfl

/-- **C20 violated (Dense with a data offset).** A 1 × 1 matrix that aliases element 1 of a buffer (as
`move` from an offset view makes it, and likewise a `view_Dense` with an offset): `diag_add` changes
element 0 of the buffer, which is not part of the matrix, and leaves the matrix as it was. -/
theorem C20_dense_violated :
    ∃ (A A' : Dense Int), A.WF ∧ A.diagOpS (· + ·) [0] 5 = .ok A' ∧ A'.at_ 0 0 = A.at_ 0 0 ∧
      A.at_ 0 0 = .ok 2 ∧ A'.val[0]? ≠ A.val[0]? :=
  ⟨⟨1, 1, [1, 2], 1, 2, 1, false⟩, ⟨1, 1, [6, 2], 1, 2, 1, false⟩, ⟨rfl, rfl, by decide⟩, by decide,
    by decide, by decide, by decide⟩

example : (Dense.mk 2 3 [(1 : Int), 2, 3, 4, 5, 6] 6 6 0 true).diagOpV (· * ·) [1, 0]
    ⟨[9, 10, 20], 1, 2⟩ = .ok ⟨2, 3, [10, 2, 3, 4, 100, 6], 6, 6, 0, true⟩ := by decide

/-! ### CRS -/

theorem Crs.Tiled.row_unique {A : Crs α} (h : A.Tiled) {i i' k : Nat} (hi : i < A.rowN)
    (hi' : i' < A.rowN) (h1 : A.ptr i ≤ k) (h2 : k < A.ptr (i + 1)) (h3 : A.ptr i' ≤ k)
    (h4 : k < A.ptr (i' + 1)) : i = i' := by
  obtain ⟨m, hm, h0, hmn, hmono, htail⟩ := h.tile
  have hmle : ∀ b, b ≤ m → ∀ a, a ≤ b → A.ptr a ≤ A.ptr b := by
    intro b
    induction b with
    | zero => intro _ a ha; rw [Nat.le_zero.mp ha]
    | succ b ih =>
      intro hb a ha
      by_cases hab : a = b + 1
      · rw [hab]
      · exact Nat.le_trans (ih (by omega) a (by omega)) (hmono b (by omega))
  have him : i < m := by
    by_contra hc
    have := htail i (by omega) hi
    omega
  have him' : i' < m := by
    by_contra hc
    have := htail i' (by omega) hi'
    omega
  rcases Nat.lt_trichotomy i i' with hlt | heq | hgt
  · have := hmle i' (by omega) (i + 1) (by omega)
    omega
  · exact heq
  · have := hmle i (by omega) (i' + 1) (by omega)
    omega

theorem Crs.diag_core {A : Crs α} (h : A.Tiled) {n : Nat} (hn : n ≤ A.rowN) {order : List Nat}
    (ho : Order order n) (g : Nat → α → α) {body : Nat → List α → Res (List α)}
    (hb : ∀ i, i < n → ∀ b : List α, b.length = A.val.length → body i b = (do
      let p ← rd A.rowPtr i
      let q ← rd A.rowPtr (i + 1)
      forRange p q (fun j b => do
        let c ← rd A.colInd j
        if i = c then do
          let x ← rd b j
          wr b j (g i x)
        else .ok b) b)) :
    ∃ w, forList order body A.val = .ok w ∧ ({ A with val := w } : Crs α).Tiled ∧
      ({ A with val := w } : Crs α).entries = A.entries.map (fun e =>
        if e.1 = e.2.1 ∧ e.1 < n then (e.1, e.2.1, g e.1 e.2.2) else e) ∧
      ∀ k, A.nnz ≤ k → w[k]? = A.val[k]? := by
  have hS := h.toSafe
  have hlV := hS.lenV
  have hnz := hS.nnz_le
  have hlC := hS.lenC
  obtain ⟨w, h1, h2, h3⟩ := forList_cells order
    (fun i k u => if A.ptr i ≤ k ∧ k < A.ptr (i + 1) ∧ A.colInd[k]? = some i then g i u else u)
    A.val (body := body)
    (by
      intro i t hi htl
      have hin := ho.mem.mp hi
      rw [hb i hin t htl, rd_ptr hS.lenP (by omega), Res.ok_bind, rd_ptr hS.lenP (by omega),
        Res.ok_bind]
      have hq := hS.ptr_le (i + 1) (by omega)
      unfold forRange
      rw [forFrom_eq_forList]
      have hcol : ∀ j, j < A.nnz → ∃ c, A.colInd[j]? = some c := fun j hj =>
        ⟨_, List.getElem?_eq_getElem (by omega)⟩
      obtain ⟨t', e1, e2, e3, e4⟩ := forList_points (List.range' (A.ptr i) (A.ptr (i + 1) - A.ptr i))
        (fun j => j) (fun j u => if A.colInd[j]? = some i then g i u else u)
        (by simpa using List.nodup_range') t
        (body := fun j b => do
          let c ← rd A.colInd j
          if i = c then do
            let x ← rd b j
            wr b j (g i x)
          else .ok b)
        (by
          intro j hj
          rw [List.mem_range'_1] at hj
          omega)
        (by
          intro j b u hj hbl hu
          rw [List.mem_range'_1] at hj
          obtain ⟨c, hc⟩ := hcol j (by omega)
          rw [rd_of_getElem? hc, Res.ok_bind, hc]
          by_cases hic : i = c
          · subst hic
            rw [if_pos rfl, if_pos rfl, rd_of_getElem? hu, Res.ok_bind]
          · rw [if_neg hic, if_neg (by simpa using fun q => hic q.symm)]
            have hjl : j < b.length := by
              by_contra hge
              rw [List.getElem?_eq_none (by omega)] at hu
              cases hu
            rw [wr_ok hjl]
            congr 1
            apply List.ext_getElem?
            intro k
            by_cases hk : j = k
            · subst hk; rw [List.getElem?_set_self hjl, hu]
            · rw [List.getElem?_set_ne hk])
      refine ⟨t', e1, by rw [e2, htl], ?_⟩
      intro k
      by_cases hk : A.ptr i ≤ k ∧ k < A.ptr (i + 1)
      · have hkl : k < t.length := by omega
        have := e3 k t[k] (by rw [List.mem_range'_1]; omega) (List.getElem?_eq_getElem hkl)
        rw [this, List.getElem?_eq_getElem hkl, Option.map_some]
        congr 1
        by_cases hc : A.colInd[k]? = some i
        · rw [if_pos hc, if_pos ⟨hk.1, hk.2, hc⟩]
        · rw [if_neg hc, if_neg (fun q => hc q.2.2)]
      · rw [e4 k (by intro j hj hkj; rw [List.mem_range'_1] at hj; omega)]
        cases t[k]? with
        | none => rfl
        | some u => rw [Option.map_some, if_neg (fun q => hk ⟨q.1, q.2.1⟩)])
  have hval : ∀ i k, i < A.rowN → A.ptr i ≤ k → k < A.ptr (i + 1) → w[k]? = A.val[k]?.map (fun u =>
      if A.colInd[k]? = some i ∧ i < n then g i u else u) := by
    intro i k hi hk1 hk2
    rw [h3]
    cases A.val[k]? with
    | none => rfl
    | some u =>
      rw [Option.map_some, Option.map_some]
      congr 1
      by_cases hin : i < n
      · rw [foldl_single order (fun i u => if A.ptr i ≤ k ∧ k < A.ptr (i + 1) ∧
          A.colInd[k]? = some i then g i u else u) u ho.nodup (ho.mem.mpr hin)
          (fun j hj hji u => if_neg (fun q => hji
            (h.row_unique (by have := ho.mem.mp hj; omega) hi q.1 q.2.1 hk1 hk2)))]
        by_cases hc : A.colInd[k]? = some i
        · rw [if_pos ⟨hk1, hk2, hc⟩, if_pos ⟨hc, hin⟩]
        · rw [if_neg (fun q => hc q.2.2), if_neg (fun q => hc q.1)]
      · rw [if_neg (fun q => hin q.2), foldl_id]
        intro j hj u
        rw [if_neg]
        rintro ⟨q1, q2, _⟩
        have hjn := ho.mem.mp hj
        have := h.row_unique (by omega) hi q1 q2 hk1 hk2
        omega
  refine ⟨w, h1, ?_, ?_, ?_⟩
  · exact { created := hS.created, lenV := h2.trans hS.lenV, nnz_le := hS.nnz_le, lenP := hS.lenP
            ptr_le := hS.ptr_le, lenC := hS.lenC, col_lt := hS.col_lt, tile := h.tile }
  · unfold Crs.entries
    rw [List.map_flatMap]
    rw [List.flatMap_def, List.flatMap_def]
    congr 1
    apply List.map_congr_left
    intro i hi
    change i ∈ List.range A.rowN at hi
    rw [List.mem_range] at hi
    unfold Crs.rowEntries
    rw [List.map_map]
    apply List.ext_getElem?
    intro t
    simp only [List.getElem?_map, List.getElem?_drop, List.getElem?_take]
    change Option.map _ (if A.ptr i + t < A.ptr (i + 1) then _ else none) =
      Option.map _ (if A.ptr i + t < A.ptr (i + 1) then _ else none)
    by_cases ht : A.ptr i + t < A.ptr (i + 1)
    · rw [if_pos ht, if_pos ht]
      have hv := hval i (A.ptr i + t) hi (by omega) ht
      have hle := hS.ptr_le (i + 1) (by omega)
      change Option.map _ ((A.colInd.zip w)[A.ptr i + t]?) = _
      have hcl : A.ptr i + t < A.colInd.length := by omega
      have hvl : A.ptr i + t < A.val.length := by omega
      rw [List.getElem?_eq_getElem hcl, List.getElem?_eq_getElem hvl, Option.map_some] at hv
      have e1 : (A.colInd.zip w)[A.ptr i + t]? = some (A.colInd[A.ptr i + t],
          if some A.colInd[A.ptr i + t] = some i ∧ i < n then g i A.val[A.ptr i + t]
          else A.val[A.ptr i + t]) := by
        rw [List.getElem?_zip_eq_some]
        exact ⟨List.getElem?_eq_getElem hcl, hv⟩
      have e2 : (A.colInd.zip A.val)[A.ptr i + t]? = some (A.colInd[A.ptr i + t],
          A.val[A.ptr i + t]) := by
        rw [List.getElem?_zip_eq_some]
        exact ⟨List.getElem?_eq_getElem hcl, List.getElem?_eq_getElem hvl⟩
      rw [e1, e2, Option.map_some, Option.map_some]
      congr 1
      simp only [Function.comp]
      by_cases hc : i = A.colInd[A.ptr i + t] ∧ i < n
      · rw [if_pos ⟨by rw [← hc.1], hc.2⟩, if_pos hc]
      · rw [if_neg (fun q => hc ⟨(Option.some.inj q.1).symm, q.2⟩), if_neg hc]
    · rw [if_neg ht, if_neg ht]; rfl
  · intro k hk
    rw [h3]
    cases A.val[k]? with
    | none => rfl
    | some u =>
      rw [Option.map_some, foldl_id]
      intro j hj u
      rw [if_neg]
      rintro ⟨_, q2, _⟩
      have := hS.ptr_le (j + 1) (by have := ho.mem.mp hj; omega)
      omega

/-- **C20 (CRS).** For every CRS matrix as the library builds it, every shape, every schedule, every
operation: `diag_op` with a scalar, or with a vector or view of the right length, replaces the stored
elements `(i, i)`, keeps every other stored element, the structure, and the storage beyond. -/
theorem C20_crs {A : Crs α} (h : A.Tiled) (op : α → α → α) :
    (∀ (order : List Nat), Order order A.rowN → ∀ alpha, ∃ A', A.diagOpS op order alpha = .ok A' ∧
      A'.Tiled ∧ A'.rowPtr = A.rowPtr ∧ A'.colInd = A.colInd ∧
      A'.entries = A.entries.map (fun e =>
        if e.1 = e.2.1 then (e.1, e.2.1, op e.2.2 alpha) else e) ∧
      ∀ k, A.nnz ≤ k → A'.val[k]? = A.val[k]?) ∧
    (∀ (order : List Nat), Order order (min A.rowN A.colN) → ∀ d : Win α, d.Ok →
      d.size = min A.rowN A.colN → ∀ y : Nat → α, (∀ i, i < d.size → d.get i = .ok (y i)) →
      ∃ A', A.diagOpV op order d = .ok A' ∧
      A'.Tiled ∧ A'.rowPtr = A.rowPtr ∧ A'.colInd = A.colInd ∧
      A'.entries = A.entries.map (fun e =>
        if e.1 = e.2.1 then (e.1, e.2.1, op e.2.2 (y e.1)) else e) ∧
      ∀ k, A.nnz ≤ k → A'.val[k]? = A.val[k]?) := by
  have hent : ∀ n (g : Nat → α → α), min A.rowN A.colN ≤ n → A.entries.map (fun e =>
        if e.1 = e.2.1 ∧ e.1 < n then (e.1, e.2.1, g e.1 e.2.2) else e) = A.entries.map (fun e =>
        if e.1 = e.2.1 then (e.1, e.2.1, g e.1 e.2.2) else e) := by
    intro n g hn
    apply List.map_congr_left
    intro e he
    have := h.toSafe.col_lt_of_mem he
    by_cases hd : e.1 = e.2.1
    · rw [if_pos hd, if_pos ⟨hd, by omega⟩]
    · rw [if_neg hd, if_neg (fun q => hd q.1)]
  refine ⟨fun order ho alpha => ?_, fun order ho d hd hs y hy => ?_⟩
  · obtain ⟨w, h1, h2, h3, h4⟩ := Crs.diag_core h (Nat.le_refl _) ho (fun _ u => op u alpha)
      (body := fun i b => do
        let p ← rd A.rowPtr i
        let q ← rd A.rowPtr (i + 1)
        forRange p q (fun j b => do
          let c ← rd A.colInd j
          if i = c then do
            let x ← rd b j
            wr b j (op x alpha)
          else .ok b) b)
      (fun i hi b hbl => rfl)
    refine ⟨_, by unfold Crs.diagOpS; rw [h1]; rfl, h2, rfl, rfl, ?_, h4⟩
    exact h3.trans (hent A.rowN (fun _ u => op u alpha) (by omega))
  · obtain ⟨w, h1, h2, h3, h4⟩ := Crs.diag_core h (n := min A.rowN A.colN) (by omega) ho
      (fun i u => op u (y i))
      (body := fun i b => do
        let p ← rd A.rowPtr i
        let q ← rd A.rowPtr (i + 1)
        forRange p q (fun j b => do
          let c ← rd A.colInd j
          if i = c then do
            let x ← rd b j
            let y ← rd d.buf (d.off + i)
            wr b j (op x y)
          else .ok b) b)
      (fun i hi b hbl => by
        have := hy i (by omega)
        unfold Win.get at this
        simp only [this, Res.ok_bind])
    refine ⟨{ A with val := w }, ?_, h2, rfl, rfl, ?_, h4⟩
    · unfold Crs.diagOpV
      rw [cassert_decide (by rw [hs]; split <;> omega), Res.ok_bind, h1]; rfl
    · exact h3.trans (hent _ (fun i u => op u (y i)) (Nat.le_refl _))

/-- a vector of the wrong length is rejected -/
theorem C20_crs_sizes (op : α → α → α) (A : Crs α) (order : List Nat) (d : Win α)
    (h : d.size ≠ min A.rowN A.colN) : ∃ m, A.diagOpV op order d = .abort m := by
  refine ⟨"assert", ?_⟩
  unfold Crs.diagOpV
  rw [show decide ((if A.rowN < A.colN then A.rowN else A.colN) = d.size) = false by
    rw [decide_eq_false_iff_not]; split <;> omega]
  rfl

example : (Crs.mk 2 3 [0, 2, 4] [0, 2, 0, 1] [(5 : Int), 6, 7, 8] 4 4 true).diagOpS (· - ·) [1, 0] 3 =
    .ok ⟨2, 3, [0, 2, 4], [0, 2, 0, 1], [2, 6, 7, 5], 4, 4, true⟩ := by decide
example : (Crs.mk 3 2 [0, 2, 4, 5] [0, 1, 0, 1, 0] [(5 : Int), 6, 7, 8, 9] 5 5 true).diagOpV (· * ·)
    [1, 0] ⟨[1, 10, 20], 1, 2⟩ =
    .ok ⟨3, 2, [0, 2, 4, 5], [0, 1, 0, 1, 0], [50, 6, 7, 160, 9], 5, 5, true⟩ := by decide

end Verif
