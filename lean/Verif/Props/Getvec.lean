import Verif.Model.Getvec
import Verif.Lemmas.RowLoop
import Verif.Lemmas.Prod
import Verif.Lemmas.CooBasic
import Verif.Lemmas.DenseBasic
import Verif.Lemmas.Entries
import Verif.Spec.CooSpec
import Verif.Props.Matmul

/-! C19: row, column and diagonal extraction. -/

namespace Verif

open Spec

variable {α : Type}

theorem Coo.WF.rd_entry {A : Coo α} (h : A.WF) {k : Nat} (hk : k < A.nnz) :
    ∃ e, A.entries[k]? = some e ∧ rd A.rowIdx k = .ok e.1 ∧ rd A.colIdx k = .ok e.2.1 ∧
      rd A.val k = .ok e.2.2 := by
  have hl := h.length_entries
  have hn := h.nnz_le
  have h1 := h.lenR; have h2 := h.lenC; have h3 := h.lenV
  have hk' : k < A.entries.length := by omega
  refine ⟨A.entries[k], List.getElem?_eq_getElem hk', ?_, ?_, ?_⟩
  · rw [rd_ok (by omega)]; simp [Coo.entries]
  · rw [rd_ok (by omega)]; simp [Coo.entries]
  · rw [rd_ok (by omega)]; simp [Coo.entries]

/-- The common part of COO extraction: `P t` is the matrix position of element `t` of the result. -/
theorem Coo.extract_ok [Zero α] {A : Coo α} (h : A.WF) {sel : Nat → Nat → Option Nat}
    {P : Nat → Nat × Nat} {v : Win α} (hv : v.Ok)
    (hsel : ∀ r c t, sel r c = some t ↔ r = (P t).1 ∧ c = (P t).2)
    (hin : ∀ e ∈ A.entries, ∀ t, e.1 = (P t).1 → e.2.1 = (P t).2 → t < v.size) :
    ∃ v', A.extract sel v = .ok v' ∧ v.Updated v' ∧
      ∀ t, t < v.size → v'.get t = .ok (lastAt A.entries (P t).1 (P t).2) := by
  unfold Coo.extract
  rw [forN_eq_forList]
  obtain ⟨b0, hb0, hl0, hg0⟩ := forList_write (fun _ => (0 : α)) v.off (List.range v.size) v.buf
    (body := fun i b => wr b (v.off + i) 0) (fun i _ t _ => rfl)
    (fun i hi => by have := List.mem_range.mp hi; have := hv; unfold Win.Ok at this; omega)
  rw [hb0, Res.ok_bind]
  have hlen := h.length_entries
  obtain ⟨b, hb, hbl, hbf, hbg⟩ := forN_sat (n := A.nnz) (s := b0)
    (body := fun k b => do
      let r ← rd A.rowIdx k
      let c ← rd A.colIdx k
      match sel r c with
      | some t => do
        let x ← rd A.val k
        wr b (v.off + t) x
      | none => .ok b)
    (fun k b => b.length = v.buf.length ∧
      (∀ q, q < v.off ∨ v.off + v.size ≤ q → b[q]? = v.buf[q]?) ∧
      ∀ t, t < v.size → b[v.off + t]? = some (lastAt (A.entries.take k) (P t).1 (P t).2))
    (by
      refine ⟨hl0, ?_, ?_⟩
      · intro q hq
        rw [hg0, if_neg]
        rintro ⟨h1, h2⟩
        have := List.mem_range.mp h2
        omega
      · intro t ht
        rw [hg0, if_pos ⟨by omega, by rw [List.mem_range]; omega⟩]
        simp [lastAt_nil])
    (by
      rintro k b hk ⟨hbl, hbf, hbg⟩
      obtain ⟨e, he, h1, h2, h3⟩ := h.rd_entry hk
      have hk' : k < A.entries.length := by omega
      have htake : A.entries.take (k + 1) = A.entries.take k ++ [e] := by
        rw [List.take_succ_eq_append_getElem hk']
        rw [List.getElem?_eq_getElem hk'] at he
        injection he with he
        rw [he]
      have hmem : e ∈ A.entries := List.mem_of_getElem? he
      simp only [h1, h2, h3, Res.ok_bind]
      cases hs : sel e.1 e.2.1 with
      | none =>
        simp only [Res.sat_ok]
        refine ⟨hbl, hbf, ?_⟩
        intro t ht
        rw [hbg t ht, htake, lastAt_append_singleton, if_neg]
        intro hp
        rw [(hsel _ _ _).mpr hp] at hs
        cases hs
      | some t0 =>
        have hp0 := (hsel _ _ _).mp hs
        have ht0 := hin e hmem t0 hp0.1 hp0.2
        have hin' : v.off + t0 < b.length := by rw [hbl]; unfold Win.Ok at hv; omega
        simp only [wr_ok hin', Res.sat_ok]
        refine ⟨by simpa using hbl, ?_, ?_⟩
        · intro q hq
          rw [List.getElem?_set_ne (by omega)]
          exact hbf q hq
        · intro t ht
          rw [htake, lastAt_append_singleton]
          by_cases hpt : e.1 = (P t).1 ∧ e.2.1 = (P t).2
          · rw [if_pos hpt]
            have : t = t0 := by
              have := (hsel _ _ _).mpr hpt
              rw [hs] at this
              injection this with this
              exact this.symm
            subst this
            rw [List.getElem?_set_self hin']
          · rw [if_neg hpt, List.getElem?_set_ne, hbg t ht]
            intro heq
            have : t0 = t := by omega
            subst this
            exact hpt hp0)
  refine ⟨{ v with buf := b }, ?_, ⟨rfl, rfl, hbl, hbf⟩, ?_⟩
  · rw [Res.bind_eq_ok]
    exact ⟨b, hb, rfl⟩
  intro t ht
  rw [Win.get, rd_of_getElem? (hbg t ht), List.take_of_length_le (by omega)]

/-- **C19 (COO diagonal).** For every COO matrix, any shape, any history, any target window (vector or
view at any offset): element `i` becomes what `at(i, i)` returns, nothing outside the window changes. -/
theorem C19_coo_diag [Zero α] {A : Coo α} (h : A.WF) (hin : Within A.rowN A.colN A.entries)
    {v : Win α} (hv : v.Ok) (hs : v.size = min A.rowN A.colN) :
    ∃ v', A.diag v = .ok v' ∧ v.Updated v' ∧
      ∀ i, i < min A.rowN A.colN → v'.get i = .ok (lastAt A.entries i i) := by
  unfold Coo.diag
  rw [cassert_decide (by rw [hs]; split <;> omega), Res.ok_bind]
  obtain ⟨v', h1, h2, h3⟩ := Coo.extract_ok h (P := fun t => (t, t)) hv
    (sel := fun r c => if r = c then some r else none)
    (by
      intro r c t
      dsimp only
      by_cases hrc : r = c
      · rw [if_pos hrc]; simp; omega
      · rw [if_neg hrc]; simp; omega)
    (by
      intro e he t h1 h2
      have := hin e he
      dsimp only at h1 h2
      omega)
  exact ⟨v', h1, h2, fun i hi => h3 i (by omega)⟩

/-- **C19 (COO row).** -/
theorem C19_coo_row [Zero α] {A : Coo α} (h : A.WF) (hin : Within A.rowN A.colN A.entries) (r : Nat)
    {v : Win α} (hv : v.Ok) (hs : v.size = A.colN) :
    ∃ v', A.row r v = .ok v' ∧ v.Updated v' ∧
      ∀ j, j < A.colN → v'.get j = .ok (lastAt A.entries r j) := by
  unfold Coo.row
  rw [cassert_decide hs.symm, Res.ok_bind]
  obtain ⟨v', h1, h2, h3⟩ := Coo.extract_ok h (P := fun t => (r, t)) hv
    (sel := fun r' c => if r' = r then some c else none)
    (by
      intro r' c t
      dsimp only
      by_cases hrc : r' = r
      · rw [if_pos hrc]; simp; omega
      · rw [if_neg hrc]; simp; omega)
    (by
      intro e he t h1 h2
      have := hin e he
      dsimp only at h1 h2
      omega)
  exact ⟨v', h1, h2, fun i hi => h3 i (by omega)⟩

/-- **C19 (COO column).** -/
theorem C19_coo_col [Zero α] {A : Coo α} (h : A.WF) (hin : Within A.rowN A.colN A.entries) (c : Nat)
    {v : Win α} (hv : v.Ok) (hs : v.size = A.rowN) :
    ∃ v', A.col c v = .ok v' ∧ v.Updated v' ∧
      ∀ i, i < A.rowN → v'.get i = .ok (lastAt A.entries i c) := by
  unfold Coo.col
  rw [cassert_decide hs.symm, Res.ok_bind]
  obtain ⟨v', h1, h2, h3⟩ := Coo.extract_ok h (P := fun t => (t, c)) hv
    (sel := fun r c' => if c' = c then some r else none)
    (by
      intro r c' t
      dsimp only
      by_cases hrc : c' = c
      · rw [if_pos hrc]; simp; omega
      · rw [if_neg hrc]; simp; omega)
    (by
      intro e he t h1 h2
      have := hin e he
      dsimp only at h1 h2
      omega)
  exact ⟨v', h1, h2, fun i hi => h3 i (by omega)⟩

/-- a vector of the wrong length is rejected by an assertion -/
theorem C19_coo_sizes [Zero α] (A : Coo α) (r c : Nat) (v : Win α) :
    (v.size ≠ min A.rowN A.colN → ∃ m, A.diag v = .abort m) ∧
    (v.size ≠ A.colN → ∃ m, A.row r v = .abort m) ∧
    (v.size ≠ A.rowN → ∃ m, A.col c v = .abort m) := by
  refine ⟨fun h => ⟨"assert", ?_⟩, fun h => ⟨"assert", ?_⟩, fun h => ⟨"assert", ?_⟩⟩
  · unfold Coo.diag
    rw [show decide ((if A.rowN > A.colN then A.colN else A.rowN) = v.size) = false by
      rw [decide_eq_false_iff_not]; split <;> omega]
    rfl
  · unfold Coo.row
    rw [show decide (A.colN = v.size) = false by rw [decide_eq_false_iff_not]; omega]
    rfl
  · unfold Coo.col
    rw [show decide (A.rowN = v.size) = false by rw [decide_eq_false_iff_not]; omega]
    rfl

/-- a 2 × 3 matrix with a duplicate, and a view at offset 1 -/
example :
    (Coo.mk 2 3 [0, 1, 0, 1] [0, 1, 0, 2] [(4 : Int), 5, 6, 7] 4 4 true).diag
      ⟨[9, 9, 9, 9], 1, 2⟩ = .ok ⟨[9, 6, 5, 9], 1, 2⟩ := by decide
example :
    (Coo.mk 2 3 [0, 1, 0, 1] [0, 1, 0, 2] [(4 : Int), 5, 6, 7] 4 4 true).row 1
      ⟨[9, 9, 9, 9], 1, 3⟩ = .ok ⟨[9, 0, 5, 7], 1, 3⟩ := by decide
example :
    (Coo.mk 2 3 [0, 1, 0, 1] [0, 1, 0, 2] [(4 : Int), 5, 6, 7] 4 4 true).col 0
      ⟨[9, 9, 9, 9], 0, 2⟩ = .ok ⟨[6, 0, 9, 9], 0, 2⟩ := by decide

/-! ### CRS -/

theorem Crs.filter_entries (A : Crs α) {i : Nat} (hi : i < A.rowN) (j : Nat) :
    A.entries.filter (fun e => e.1 == i && e.2.1 == j) =
      (A.rowEntries i).filter (fun e => e.1 == i && e.2.1 == j) := by
  have key : ∀ n, (A.entriesTo n).filter (fun e => e.1 == i && e.2.1 == j) =
      if i < n then (A.rowEntries i).filter (fun e => e.1 == i && e.2.1 == j) else [] := by
    intro n
    induction n with
    | zero => simp [Crs.entriesTo]
    | succ n ih =>
      rw [Crs.entriesTo_succ, List.filter_append, ih]
      by_cases h : n = i
      · subst h; simp
      · have : (A.rowEntries n).filter (fun e => e.1 == i && e.2.1 == j) = [] := by
          rw [List.filter_eq_nil_iff]
          intro e he
          simp [A.rowEntries_fst n e he, h]
        rw [this, List.append_nil]
        by_cases h2 : i < n
        · rw [if_pos h2, if_pos (by omega)]
        · rw [if_neg h2, if_neg (by omega)]
  have h1 : A.entries = A.entriesTo A.rowN := rfl
  rw [h1, key, if_pos hi]

theorem lastAt_filter [Zero α] (L : List (Entry α)) (i j : Nat) :
    lastAt L i j = lastAt (L.filter (fun e => e.1 == i && e.2.1 == j)) i j := by
  unfold lastAt
  rw [← List.filter_reverse, List.find?_filter]
  have : (fun a : Entry α => decide ((a.1 == i && a.2.1 == j) = true ∧
      (a.1 == i && a.2.1 == j) = true)) = fun a => a.1 == i && a.2.1 == j := by
    funext a; simp only [and_self, Bool.decide_eq_true]
  rw [this]

theorem Crs.lastAt_entries [Zero α] (A : Crs α) {i : Nat} (hi : i < A.rowN) (j : Nat) :
    lastAt A.entries i j = lastAt (A.rowEntries i) i j := by
  rw [lastAt_filter, A.filter_entries hi, ← lastAt_filter]

/-- The common part of `CRS::diag` and `CRS::col`, on a target without offset. -/
theorem Crs.pick_ok [Zero α] {A : Crs α} (h : A.Safe) {zo order : List Nat} {n : Nat}
    (hz : Order zo n) (ho : Order order n) (hn : n ≤ A.rowN) (want : Nat → Nat) {v : Win α}
    (hv : v.Ok) (hoff : v.off = 0) (hs : v.size = n) :
    ∃ v', A.pick zo order want v = .ok v' ∧ v.Updated v' ∧
      ∀ i, i < n → v'.get i = .ok (lastAt A.entries i (want i)) := by
  have hvl : n ≤ v.buf.length := by unfold Win.Ok at hv; omega
  unfold Crs.pick
  obtain ⟨b0, hb0, hl0, hg0⟩ := forList_write (fun _ => (0 : α)) 0 zo v.buf
    (body := fun i b => wr b i 0) (fun i _ t _ => by rw [Nat.zero_add])
    (fun i hi => by have := hz.mem.mp hi; omega)
  rw [hb0, Res.ok_bind]
  obtain ⟨b, hb, hbl, hbg⟩ := forList_cells order
    (fun i k u => if k = i ∧ ∃ e ∈ A.rowEntries i, e.2.1 = want i then
      lastAt (A.rowEntries i) i (want i) else u) b0
    (body := fun i b => do
      let p ← rd A.rowPtr i
      let q ← rd A.rowPtr (i + 1)
      forRange p q (fun j b => do
        let c ← rd A.colInd j
        if want i = c then do
          let x ← rd A.val j
          wr b i x
        else .ok b) b)
    (by
      intro i t hi htl
      have hin := ho.mem.mp hi
      obtain ⟨t', ht', h1, h2⟩ := h.row_sat (i := i) (by omega) (s := t)
        (body := fun j b => do
          let c ← rd A.colInd j
          if want i = c then do
            let x ← rd A.val j
            wr b i x
          else .ok b)
        (fun L b => b.length = b0.length ∧ ∀ k, b[k]? = t[k]?.map (fun u =>
          if k = i ∧ ∃ e ∈ L, e.2.1 = want i then lastAt L i (want i) else u))
        ⟨htl, by intro k; simp⟩
        (by
          rintro L e R b k hE he hp ⟨hbl, hbg⟩
          obtain ⟨hc, hx⟩ := Crs.rd_col_of_pair hp
          simp only [hc, Res.ok_bind, hx]
          by_cases hw : want i = e.2.1
          · rw [if_pos hw, wr_ok (by omega), Res.sat_ok]
            refine ⟨by simpa using hbl, ?_⟩
            intro k
            by_cases hk : k = i
            · subst hk
              rw [List.getElem?_set_self (by omega), List.getElem?_eq_getElem (show k < t.length by omega)]
              simp only [Option.map_some, true_and]
              rw [if_pos ⟨e, by simp, hw.symm⟩, lastAt_append_singleton, if_pos ⟨he, hw.symm⟩]
            · rw [List.getElem?_set_ne (fun q => hk q.symm), hbg]
              simp [hk]
          · rw [if_neg hw, Res.sat_ok]
            refine ⟨hbl, ?_⟩
            intro k
            rw [hbg]
            congr 1
            funext u
            have hlast : lastAt (L ++ [e]) i (want i) = lastAt L i (want i) := by
              rw [lastAt_append_singleton, if_neg (fun q : e.1 = i ∧ e.2.1 = want i => hw q.2.symm)]
            rw [hlast]
            have : (∃ x ∈ L ++ [e], x.2.1 = want i) ↔ ∃ x ∈ L, x.2.1 = want i := by
              simp only [List.mem_append, List.mem_singleton]
              constructor
              · rintro ⟨x, hx | rfl, hxw⟩
                · exact ⟨x, hx, hxw⟩
                · exact absurd hxw.symm hw
              · rintro ⟨x, hx, hxw⟩; exact ⟨x, Or.inl hx, hxw⟩
            simp only [this])
      exact ⟨t', ht', h1, h2⟩)
  simp only [hb, Res.ok_bind]
  refine ⟨_, rfl, ⟨rfl, rfl, hbl.trans hl0, ?_⟩, ?_⟩
  · intro k hk
    rw [hbg, hg0, if_neg]
    · cases v.buf[k]? with
      | none => rfl
      | some u =>
        rw [Option.map_some, foldl_id]
        intro i hi u
        have := ho.mem.mp hi
        rw [if_neg (by omega)]
    · rintro ⟨_, h2⟩
      have := hz.mem.mp h2
      omega
  · intro i hi
    unfold Win.get
    simp only [hoff, Nat.zero_add]
    apply rd_of_getElem?
    rw [hbg, hg0, if_pos ⟨by omega, by rw [hz.mem]; omega⟩]
    simp only [Option.map_some]
    rw [foldl_single order (fun j u => if i = j ∧ ∃ e ∈ A.rowEntries j, e.2.1 = want j then
      lastAt (A.rowEntries j) j (want j) else u) 0 ho.nodup (ho.mem.mpr hi)
      (fun j _ hji u => if_neg (fun q => hji q.1.symm))]
    rw [A.lastAt_entries (by omega)]
    by_cases hex : ∃ e ∈ A.rowEntries i, e.2.1 = want i
    · rw [if_pos ⟨rfl, hex⟩]
    · rw [if_neg (fun q => hex q.2), lastAt_of_not_mem]
      intro e he hp
      exact hex ⟨e, he, hp.2⟩

/-- **C19 (CRS diagonal), partial**: every safe CRS matrix of any shape, every schedule of both
parallel loops, target without offset. (For a view with an offset the code writes elsewhere:
`C19_crs_view_violated`.) -/
theorem C19_crs_diag_partial [Zero α] {A : Crs α} (h : A.Safe) {zo order : List Nat}
    (hz : Order zo (min A.rowN A.colN)) (ho : Order order (min A.rowN A.colN)) {v : Win α}
    (hv : v.Ok) (hoff : v.off = 0) (hs : v.size = min A.rowN A.colN) :
    ∃ v', A.diag zo order v = .ok v' ∧ v.Updated v' ∧
      ∀ i, i < min A.rowN A.colN → v'.get i = .ok (lastAt A.entries i i) := by
  unfold Crs.diag
  rw [cassert_decide (by rw [hs]; split <;> omega), Res.ok_bind]
  exact Crs.pick_ok h hz ho (by omega) _ hv hoff hs

/-- **C19 (CRS column), partial**: square matrices, target without offset. The function takes
`get_col()` as the length of a column, see `C19_crs_col_violated`. -/
theorem C19_crs_col_partial [Zero α] {A : Crs α} (h : A.Safe) (hsq : A.colN = A.rowN)
    {zo order : List Nat} (hz : Order zo A.rowN) (ho : Order order A.rowN) (c : Nat) {v : Win α}
    (hv : v.Ok) (hoff : v.off = 0) (hs : v.size = A.rowN) :
    ∃ v', A.col zo order c v = .ok v' ∧ v.Updated v' ∧
      ∀ i, i < A.rowN → v'.get i = .ok (lastAt A.entries i c) := by
  unfold Crs.col
  rw [cassert_decide (by omega), Res.ok_bind]
  exact Crs.pick_ok h hz ho (Nat.le_refl _) (fun _ => c) hv hoff hs

/-- **C19 (CRS row), partial**: square matrices, each column stored at most once in the row, target
without offset, every schedule. The function takes `get_row()` as the length of a row, see
`C19_crs_row_violated`. -/
theorem C19_crs_row_partial [Zero α] {A : Crs α} (h : A.Safe) (hsq : A.colN = A.rowN)
    (hd : DistinctPos A.entries) {r : Nat} (hr : r < A.rowN) {zo order : List Nat}
    (hz : Order zo A.rowN) (ho : Order order (A.ptr (r + 1) - A.ptr r)) {v : Win α}
    (hv : v.Ok) (hoff : v.off = 0) (hs : v.size = A.rowN) :
    ∃ v', A.row zo order r v = .ok v' ∧ v.Updated v' ∧
      ∀ j, j < A.colN → v'.get j = .ok (lastAt A.entries r j) := by
  have hvl : A.rowN ≤ v.buf.length := by unfold Win.Ok at hv; omega
  unfold Crs.row
  rw [cassert_decide hs.symm, Res.ok_bind]
  obtain ⟨b0, hb0, hl0, hg0⟩ := forList_write (fun _ => (0 : α)) 0 zo v.buf
    (body := fun i b => wr b i 0) (fun i _ t _ => by rw [Nat.zero_add])
    (fun i hi => by have := hz.mem.mp hi; omega)
  rw [hb0, Res.ok_bind, rd_ptr h.lenP (by omega), Res.ok_bind]
  have hlr := h.length_rowEntries hr
  -- the entry read by iteration `t`
  let E : Nat → Entry α := fun t => ((A.rowEntries r)[t]?).getD (0, 0, 0)
  have hE : ∀ t, t < A.ptr (r + 1) - A.ptr r → (A.rowEntries r)[t]? = some (E t) := by
    intro t ht
    simp only [E]
    rw [List.getElem?_eq_getElem (by omega)]; rfl
  have hEd : ∀ t, t < A.ptr (r + 1) - A.ptr r → (E t).1 = r ∧ (E t).2.1 < A.colN ∧
      rd A.colInd (A.ptr r + t) = .ok (E t).2.1 ∧ rd A.val (A.ptr r + t) = .ok (E t).2.2 := by
    intro t ht
    have h1 := h.getElem_rowEntries hr (hE t ht)
    have h2 := Crs.rd_col_of_pair h1.2
    exact ⟨h1.1, h.rowEntries_col hr _ (List.mem_of_getElem? (hE t ht)), h2.1, h2.2⟩
  have hrowD : DistinctPos (A.rowEntries r) := by
    unfold DistinctPos at hd ⊢
    refine hd.sublist ?_
    unfold Crs.entries
    exact List.sublist_flatten_of_mem (List.mem_map.mpr ⟨r, List.mem_range.mpr hr, rfl⟩)
  have hinj : ∀ t t', t < A.ptr (r + 1) - A.ptr r → t' < A.ptr (r + 1) - A.ptr r →
      (E t).2.1 = (E t').2.1 → t = t' := by
    intro t t' ht ht' he
    by_contra hne
    have hp := List.pairwise_iff_getElem.mp hrowD
    have e1 := hE t ht
    have e2 := hE t' ht'
    rw [List.getElem?_eq_getElem (by omega)] at e1 e2
    injection e1 with e1
    injection e2 with e2
    rcases Nat.lt_or_gt_of_ne hne with hlt | hlt
    · have := hp t t' (by omega) (by omega) hlt
      rw [e1, e2] at this
      exact this ⟨by rw [(hEd t ht).1, (hEd t' ht').1], he⟩
    · have := hp t' t (by omega) (by omega) hlt
      rw [e1, e2] at this
      exact this ⟨by rw [(hEd t ht).1, (hEd t' ht').1], he.symm⟩
  obtain ⟨b, hb, hbl, hbg, hbf⟩ := forList_points order (fun t => (E t).2.1)
    (fun t _ => (E t).2.2)
    (by
      refine List.Nodup.map_on ?_ ho.nodup
      intro t ht t' ht' he
      exact hinj t t' (ho.mem.mp ht) (ho.mem.mp ht') he)
    b0
    (body := fun t b => do
      let c ← rd A.colInd (A.ptr r + t)
      let x ← rd A.val (A.ptr r + t)
      wr b c x)
    (by
      intro t ht
      have := (hEd t (ho.mem.mp ht)).2.1
      omega)
    (by
      intro t b u ht _ _
      obtain ⟨_, _, h3, h4⟩ := hEd t (ho.mem.mp ht)
      simp only [h3, h4, Res.ok_bind])
  simp only [hb, Res.ok_bind]
  refine ⟨_, rfl, ⟨rfl, rfl, hbl.trans hl0, ?_⟩, ?_⟩
  · intro k hk
    rw [hbf, hg0, if_neg]
    · rintro ⟨_, h2⟩
      have := hz.mem.mp h2
      omega
    · intro t ht
      have := (hEd t (ho.mem.mp ht)).2.1
      omega
  · intro j hj
    unfold Win.get
    simp only [hoff, Nat.zero_add]
    apply rd_of_getElem?
    have h0 : b0[j]? = some 0 := by
      rw [hg0, if_pos ⟨by omega, by rw [hz.mem]; omega⟩]
    rw [A.lastAt_entries hr]
    by_cases hex : ∃ e ∈ A.rowEntries r, e.2.1 = j
    · obtain ⟨e, he, hej⟩ := hex
      obtain ⟨t, ht⟩ := List.getElem?_of_mem he
      have htl : t < A.ptr (r + 1) - A.ptr r := by
        rw [← hlr]
        exact (List.getElem?_eq_some_iff.mp ht).1
      have : E t = e := by have := hE t htl; rw [ht] at this; injection this with this; exact this.symm
      have h2 := hbg t 0 (ho.mem.mpr htl) (by rw [this, hej]; exact h0)
      rw [this, hej] at h2
      rw [h2, ← hej, ← A.rowEntries_fst r e he, lastAt_of_mem (A.rowEntries_fst r e he ▸ hrowD)
        (A.rowEntries_fst r e he ▸ he)]
    · rw [hbf, h0, lastAt_of_not_mem]
      · intro e he hp
        exact hex ⟨e, he, hp.2⟩
      · intro t ht heq
        exact hex ⟨E t, List.mem_of_getElem? (hE t (ho.mem.mp ht)), heq.symm⟩

/-- **C19 violated (CRS row).** For every rectangular CRS matrix `row` rejects a vector of the right
length `cols`, and `col` rejects a vector of the right length `rows`. -/
theorem C19_crs_rectangular_violated [Zero α] (A : Crs α) (h : A.rowN ≠ A.colN) (zo order : List Nat)
    (r c : Nat) (v w : Win α) (hv : v.size = A.colN) (hw : w.size = A.rowN) :
    (∃ m, A.row zo order r v = .abort m) ∧ (∃ m, A.col zo order c w = .abort m) := by
  refine ⟨⟨"assert", ?_⟩, ⟨"assert", ?_⟩⟩
  · unfold Crs.row
    rw [show decide (A.rowN = v.size) = false by rw [decide_eq_false_iff_not]; omega]
    rfl
  · unfold Crs.col
    rw [show decide (A.colN = w.size) = false by rw [decide_eq_false_iff_not]; omega]
    rfl

/-- ... and with the only length it accepts, `row` of a 1 × 2 matrix writes past the vector -/
theorem C19_crs_row_overflow :
    ∃ (A : Crs Int) (v : Win Int), A.Safe ∧ v.Ok ∧ v.size = A.rowN ∧
      ∃ m, A.row [0] [0] 0 v = .ub m :=
  ⟨⟨1, 2, [0, 1], [1], [5], 1, 1, true⟩, ⟨[9], 0, 1⟩,
    { created := rfl, lenV := rfl, nnz_le := by decide, lenP := rfl
      ptr_le := by
        intro i hi
        have h1 : i ≤ 1 := hi
        rcases Nat.le_one_iff_eq_zero_or_eq_one.mp h1 with rfl | rfl <;> decide
      lenC := by decide
      col_lt := by
        intro k h1 _
        have h2 : k < 1 := h1
        have : k = 0 := by omega
        subst this; show 1 < 2; decide },
    by decide, rfl, _, rfl⟩

/-- **C19 violated (CRS, views with an offset).** `diag` of a 2 × 2 matrix into a view of two elements
at offset 1 writes elements 0 and 1 of the underlying buffer instead of 1 and 2. -/
theorem C19_crs_view_violated :
    ∃ (A : Crs Int) (v v' : Win Int), v.Ok ∧ v.size = min A.rowN A.colN ∧
      A.diag [0, 1] [0, 1] v = .ok v' ∧ v'.get 1 ≠ .ok (lastAt A.entries 1 1) ∧ ¬ v.Updated v' :=
  ⟨⟨2, 2, [0, 1, 2], [0, 1], [5, 6], 2, 2, true⟩, ⟨[9, 9, 9], 1, 2⟩, ⟨[5, 6, 9], 1, 2⟩,
    by decide, rfl, by decide, by decide,
    fun h => by have := h.frame 0 (Or.inl (by decide)); revert this; decide⟩

/-- a 2 × 3 matrix, loops in different orders -/
example : (Crs.mk 2 3 [0, 2, 4] [0, 2, 0, 1] [(5 : Int), 6, 7, 8] 4 4 true).diag [1, 0] [0, 1]
    ⟨[9, 9, 9], 0, 2⟩ = .ok ⟨[5, 8, 9], 0, 2⟩ := by decide
example : (Crs.mk 2 2 [0, 1, 3] [1, 0, 1] [(5 : Int), 6, 7] 3 3 true).col [1, 0] [1, 0] 0
    ⟨[9, 9, 9], 0, 2⟩ = .ok ⟨[0, 6, 9], 0, 2⟩ := by decide
example : (Crs.mk 2 2 [0, 1, 3] [1, 0, 1] [(5 : Int), 6, 7] 3 3 true).row [1, 0] [1, 0] 1
    ⟨[9, 9, 9], 0, 2⟩ = .ok ⟨[6, 7, 9], 0, 2⟩ := by decide

/-! ### Dense -/

/-- a loop that writes `f i` to element `i` of a window without offset -/
theorem Win.fill_ok {v : Win α} (hv : v.Ok) (hoff : v.off = 0) {order : List Nat}
    (ho : Order order v.size) (f : Nat → α) {body : Nat → List α → Res (List α)}
    (hb : ∀ i, i < v.size → ∀ b, body i b = wr b i (f i)) :
    ∃ b, forList order body v.buf = .ok b ∧ v.Updated { v with buf := b } ∧
      ∀ i, i < v.size → Win.get { v with buf := b } i = .ok (f i) := by
  obtain ⟨b, h1, h2, h3⟩ := forList_write f 0 order v.buf (body := body)
    (fun i hi t _ => by rw [hb i (ho.mem.mp hi), Nat.zero_add])
    (fun i hi => by have := ho.mem.mp hi; unfold Win.Ok at hv; omega)
  refine ⟨b, h1, ⟨rfl, rfl, h2, ?_⟩, ?_⟩
  · intro k hk
    dsimp only
    rw [h3, if_neg]
    rintro ⟨_, hm⟩
    have := ho.mem.mp hm
    omega
  · intro i hi
    unfold Win.get
    simp only [hoff, Nat.zero_add]
    apply rd_of_getElem?
    rw [h3, if_pos ⟨by omega, by rw [ho.mem]; omega⟩]
    rfl

/-- **C19 (Dense), partial**: for every dense matrix that starts at offset 0 of its buffer, every shape,
every schedule, every target without offset: `diag`, `row r`, `col c` write `A(i,i)`, `A(r,j)`,
`A(i,c)` and nothing else. -/
theorem C19_dense_partial {A : Dense α} (h : A.WF) (hfirst : A.first = 0) {f : Nat → Nat → α}
    (hf : A.Reads f) {v : Win α} (hv : v.Ok) (hoff : v.off = 0) {order : List Nat}
    (ho : Order order v.size) :
    (v.size = min A.rowN A.colN → ∃ v', A.diag order v = .ok v' ∧ v.Updated v' ∧
      ∀ i, i < v.size → v'.get i = .ok (f i i)) ∧
    (∀ r, r < A.rowN → v.size = A.colN → ∃ v', A.row order r v = .ok v' ∧ v.Updated v' ∧
      ∀ j, j < v.size → v'.get j = .ok (f r j)) ∧
    (∀ c, c < A.colN → v.size = A.rowN → ∃ v', A.col order c v = .ok v' ∧ v.Updated v' ∧
      ∀ i, i < v.size → v'.get i = .ok (f i c)) := by
  have hrd : ∀ i j, i < A.rowN → j < A.colN → rd A.val (A.colN * i + j) = .ok (f i j) := by
    intro i j hi hj
    have := hf i j hi hj
    rwa [Dense.at_eq_rd h hi hj, hfirst, Nat.zero_add] at this
  refine ⟨fun hs => ?_, fun r hr hs => ?_, fun c hc hs => ?_⟩
  · obtain ⟨b, h1, h2, h3⟩ := Win.fill_ok hv hoff ho (fun i => f i i)
      (body := fun i b => do
        let x ← rd A.val (A.colN * i + i)
        wr b i x)
      (fun i hi b => by rw [hrd i i (by omega) (by omega), Res.ok_bind])
    exact ⟨_, by unfold Dense.diag; rw [cassert_decide hs.symm, Res.ok_bind, h1]; rfl, h2, h3⟩
  · obtain ⟨b, h1, h2, h3⟩ := Win.fill_ok hv hoff ho (fun j => f r j)
      (body := fun i b => do
        let x ← rd A.val (r * A.colN + i)
        wr b i x)
      (fun i hi b => by rw [Nat.mul_comm, hrd r i hr (by omega), Res.ok_bind])
    exact ⟨_, by unfold Dense.row; rw [cassert_decide hs.symm, Res.ok_bind, h1]; rfl, h2, h3⟩
  · obtain ⟨b, h1, h2, h3⟩ := Win.fill_ok hv hoff ho (fun i => f i c)
      (body := fun i b => do
        let x ← rd A.val (i * A.colN + c)
        wr b i x)
      (fun i hi b => by rw [Nat.mul_comm, hrd i c (by omega) hc, Res.ok_bind])
    exact ⟨_, by unfold Dense.col; rw [cassert_decide hs.symm, Res.ok_bind, h1]; rfl, h2, h3⟩

/-- **C19 violated (Dense).** A dense matrix that aliases a tensor buffer from offset 2 on (as `move`
from an offset view makes it): `row 0` reads elements 0 and 1 of the buffer; and a target view at
offset 1 is written at offset 0. -/
theorem C19_dense_violated :
    (∃ (A : Dense Int) (v v' : Win Int), A.WF ∧ v.Ok ∧ v.off = 0 ∧ v.size = A.colN ∧
      A.row [0, 1] 0 v = .ok v' ∧ v'.get 0 ≠ A.at_ 0 0) ∧
    (∃ (A : Dense Int) (v v' : Win Int), A.WF ∧ A.first = 0 ∧ v.Ok ∧ v.size = A.colN ∧
      A.row [0, 1] 0 v = .ok v' ∧ v'.get 1 ≠ A.at_ 0 1 ∧ ¬ v.Updated v') :=
  ⟨⟨⟨1, 2, [1, 2, 3, 4], 2, 4, 2, false⟩, ⟨[9, 9], 0, 2⟩, ⟨[1, 2], 0, 2⟩,
      ⟨rfl, rfl, by decide⟩, by decide, rfl, rfl, by decide, by decide⟩,
    ⟨⟨1, 2, [3, 4], 2, 2, 0, true⟩, ⟨[9, 9, 9], 1, 2⟩, ⟨[3, 4, 9], 1, 2⟩,
      ⟨rfl, rfl, by decide⟩, rfl, by decide, rfl, by decide, by decide,
      fun h => by have := h.frame 0 (Or.inl (by decide)); revert this; decide⟩⟩

example : (Dense.mk 2 3 [(1 : Int), 2, 3, 4, 5, 6] 6 6 0 true).diag [1, 0] ⟨[9, 9, 9], 0, 2⟩ =
    .ok ⟨[1, 5, 9], 0, 2⟩ := by decide
example : (Dense.mk 2 3 [(1 : Int), 2, 3, 4, 5, 6] 6 6 0 true).col [1, 0] 2 ⟨[9, 9, 9], 0, 2⟩ =
    .ok ⟨[3, 6, 9], 0, 2⟩ := by decide

end Verif
