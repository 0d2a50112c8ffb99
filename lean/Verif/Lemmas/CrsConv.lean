import Verif.Spec.CrsSpec
import Verif.Lemmas.CooBasic

/-! Lemmas on CRS buffers and on `CRS::convert(COO)`. -/

namespace Verif

open Spec

variable {α : Type}

/-- number of entries in rows before `r` -/
def countBelow (L : List (Entry α)) (r : Nat) : Nat := (L.filter (fun e => decide (e.1 < r))).length

theorem countBelow_zero (L : List (Entry α)) : countBelow L 0 = 0 := by
  simp [countBelow]

theorem countBelow_le (L : List (Entry α)) (r : Nat) : countBelow L r ≤ L.length :=
  List.length_filter_le _ _

theorem countBelow_append (L : List (Entry α)) (e : Entry α) (r : Nat) :
    countBelow (L ++ [e]) r = countBelow L r + if e.1 < r then 1 else 0 := by
  simp only [countBelow, List.filter_append, List.length_append]
  split <;> simp_all

theorem countBelow_all {L : List (Entry α)} {r : Nat} (h : ∀ e ∈ L, e.1 < r) :
    countBelow L r = L.length := by
  unfold countBelow; rw [List.filter_eq_self.2]; intro a ha; simpa using h a ha

theorem countBelow_mono (L : List (Entry α)) {r s : Nat} (h : r ≤ s) :
    countBelow L r ≤ countBelow L s := by
  induction L with
  | nil => simp [countBelow]
  | cons a L ih =>
    simp only [countBelow, List.filter_cons] at *
    by_cases h1 : a.1 < r
    · have h2 : a.1 < s := by omega
      simp [h1, h2]; exact ih
    · by_cases h2 : a.1 < s <;> simp [h1, h2] <;> omega

theorem filter_lt_eq_take {L : List (Entry α)} (h : SortedRows L) (r : Nat) :
    L.filter (fun e => decide (e.1 < r)) = L.take (countBelow L r) := by
  induction L with
  | nil => rfl
  | cons a L ih =>
    unfold SortedRows at h
    rw [List.pairwise_cons] at h
    by_cases h1 : a.1 < r
    · have : countBelow (a :: L) r = countBelow L r + 1 := by simp [countBelow, h1]
      rw [this, List.take_succ_cons, ← ih h.2]
      simp [h1]
    · have hall : L.filter (fun e => decide (e.1 < r)) = [] := by
        rw [List.filter_eq_nil_iff]
        intro x hx; have := h.1 x hx; simp; omega
      have : countBelow (a :: L) r = 0 := by simp [countBelow, h1, hall]
      rw [this]; simp [h1, hall]

theorem filter_lt_succ {L : List (Entry α)} (h : SortedRows L) (r : Nat) :
    L.filter (fun e => decide (e.1 < r + 1)) =
      L.filter (fun e => decide (e.1 < r)) ++ L.filter (fun e => e.1 == r) := by
  induction L with
  | nil => rfl
  | cons a L ih =>
    unfold SortedRows at h
    rw [List.pairwise_cons] at h
    have ih := ih h.2
    by_cases h1 : a.1 < r
    · have h2 : a.1 < r + 1 := by omega
      have h3 : (a.1 == r) = false := by simp; omega
      simp [h1, h2, h3, ih]
    · have hall : L.filter (fun e => decide (e.1 < r)) = [] := by
        rw [List.filter_eq_nil_iff]
        intro x hx; have := h.1 x hx; simp; omega
      rw [hall] at ih
      by_cases h2 : a.1 = r
      · have h3 : a.1 < r + 1 := by omega
        simp [h2, hall, ih]
      · have h3 : ¬ a.1 < r + 1 := by omega
        have h4 : (a.1 == r) = false := by simp; omega
        simp [h1, h3, h4, hall, ih]

/-- for row-sorted entries, the slice between the two counts is the row -/
theorem slice_eq_filter {L : List (Entry α)} (h : SortedRows L) (r : Nat) :
    (L.take (countBelow L (r + 1))).drop (countBelow L r) = L.filter (fun e => e.1 == r) := by
  rw [← filter_lt_eq_take h, filter_lt_succ h, List.drop_append]
  have : countBelow L r = (L.filter (fun e => decide (e.1 < r))).length := rfl
  rw [this]
  simp

theorem flatMap_rows_sorted {L : List (Entry α)} (h : SortedRows L) : ∀ n,
    (List.range n).flatMap (fun i => L.filter (fun e => e.1 == i)) =
      L.filter (fun e => decide (e.1 < n)) := by
  intro n
  induction n with
  | zero => simp
  | succ n ih =>
    rw [List.range_succ, List.flatMap_append, ih, filter_lt_succ h]
    simp

/-! ### buffers -/

theorem forRange_fill {v : α} : ∀ (lo hi : Nat) (b : List α), hi ≤ b.length →
    ∃ b', forRange lo hi (Crs.fillFrom v) b = .ok b' ∧ b'.length = b.length := by
  intro lo hi b hb
  by_cases hlh : lo ≤ hi
  · obtain ⟨b', h1, h2⟩ := forRange_sat (lo := lo) (hi := hi) (body := Crs.fillFrom v) (s := b)
      (fun _ s => s.length = b.length) hlh rfl (by
        intro i s _ h2 hs
        unfold Crs.fillFrom
        rw [wr_ok (by omega), Res.sat_ok]; simpa using hs)
    exact ⟨b', h1, h2⟩
  · exact ⟨b, forRange_empty _ _ (by omega), rfl⟩

namespace Crs

theorem resize_ok {A : Crs α} (h : A.BufOk) (N : Nat) (v : α) :
    ∃ V a, resize A N v = .ok { A with val := V, alloc := a, nnz := N } ∧ V.length = a ∧ N ≤ a := by
  obtain ⟨hc, hl, hn⟩ := h
  unfold resize
  by_cases hN : N < A.alloc
  · rw [if_pos hN]
    obtain ⟨b', h1, h2⟩ := forRange_fill (v := v) A.nnz N A.val (by omega)
    rw [h1, Res.ok_bind]
    exact ⟨b', A.alloc, rfl, by omega, by omega⟩
  · rw [if_neg hN, if_pos hc, reallocCopy_ok (by omega), Res.ok_bind]
    exact ⟨_, N, rfl, by simp; omega, Nat.le_refl _⟩

theorem empty_bufOk : (empty : Crs α).BufOk := ⟨rfl, rfl, Nat.le_refl _⟩

end Crs

/-! ### the row-pointer loop -/

theorem getD_set {l : List Nat} {i j : Nat} {x : Nat} (hi : i < l.length) :
    (l.set i x).getD j 0 = if j = i then x else l.getD j 0 := by
  simp only [List.getD_eq_getElem?_getD, List.getElem?_set]
  by_cases h : i = j
  · subst h; simp [hi]
  · have : ¬ j = i := fun h' => h h'.symm
    simp [h, this]

/-- value of `row_ptr[r]` after the first `i` entries `L`, when it was `s r` initially -/
def convPtr (s : Nat → Nat) (L : List (Entry α)) (c r : Nat) : Nat :=
  if r = 0 then 0
  else if r = 1 ∧ countBelow L 1 = 0 then s 1
  else if r ≤ c + 1 then countBelow L r else s r

theorem convInner {rp : List Nat} {a b i : Nat} (hb : b < rp.length) (hab : a ≤ b) :
    (forRange a b (fun j rp => wr rp (j + 1) i) rp).Sat (fun rp' =>
      rp'.length = rp.length ∧
      ∀ r, rp'.getD r 0 = if a + 1 ≤ r ∧ r ≤ b then i else rp.getD r 0) := by
  refine (forRange_sat (fun k s => s.length = rp.length ∧
      ∀ r, s.getD r 0 = if a + 1 ≤ r ∧ r ≤ k then i else rp.getD r 0) hab ⟨rfl, ?_⟩ ?_).mono ?_
  · intro r; rw [if_neg (by omega)]
  · rintro k s h1 h2 ⟨hl, hs⟩
    rw [wr_ok (by omega), Res.sat_ok]
    refine ⟨by simpa using hl, ?_⟩
    intro r
    rw [getD_set (by omega), hs]
    by_cases e : r = k + 1
    · subst e; simp; omega
    · rw [if_neg e]
      by_cases h' : a + 1 ≤ r ∧ r ≤ k
      · rw [if_pos h', if_pos (by omega)]
      · rw [if_neg h', if_neg (by omega)]
  · intro s h; exact h

theorem convLoop {M : Nat} {L : List (Entry α)} {R : List Nat} {rp0 : List Nat}
    (hR : ∀ k (h : k < L.length), rd R k = .ok L[k].1)
    (hlen : rp0.length = M + 1) (h0 : rp0.getD 0 0 = 0)
    (hM : ∀ e ∈ L, e.1 < M) (hs : SortedRows L) :
    ∃ c rp, forN L.length (Crs.convStep R) (0, rp0) = .ok (c, rp) ∧ rp.length = M + 1 ∧
      (∀ r, r ≤ M → rp.getD r 0 = convPtr (fun r => rp0.getD r 0) L c r) ∧
      (∀ e ∈ L, e.1 ≤ c) ∧ (∀ e, L.getLast? = some e → c = e.1) := by
  have := forN_sat (n := L.length) (body := Crs.convStep R) (s := (0, rp0))
    (fun i st => st.2.length = M + 1 ∧
      (∀ r, r ≤ M → st.2.getD r 0 = convPtr (fun r => rp0.getD r 0) (L.take i) st.1 r) ∧
      (∀ e ∈ L.take i, e.1 ≤ st.1) ∧ (i = 0 → st.1 = 0) ∧
      (∀ e, (L.take i).getLast? = some e → st.1 = e.1))
    (by
      refine ⟨hlen, ?_, by simp, fun _ => rfl, by simp⟩
      intro r hr
      unfold convPtr
      by_cases e0 : r = 0
      · subst e0; simpa using h0
      · simp only [e0, if_false, List.take_zero]
        by_cases e1 : r = 1
        · subst e1; simp [countBelow]
        · have : ¬ r ≤ 0 + 1 := by omega
          simp [e1, this])
    (by
      rintro i ⟨c, rp⟩ hi ⟨hl, hp, hle, hc0, hclast⟩
      simp only at hl hp hle hc0 hclast
      have htake : L.take (i + 1) = L.take i ++ [L[i]] := List.take_succ_eq_append_getElem hi
      have hmem : L[i] ∈ L := List.getElem_mem _
      have hqM : L[i].1 < M := hM _ hmem
      have hlenP : (L.take i).length = i := by simp; omega
      have hcq : c ≤ L[i].1 := by
        by_cases e0 : i = 0
        · rw [hc0 e0]; omega
        · have hsp := List.pairwise_iff_getElem.1 hs
          have hl1 : (L.take i).getLast? = some (L[i-1]'(by omega)) := by
            have e2 := List.take_succ_eq_append_getElem (l := L) (i := i - 1) (by omega)
            rw [show i - 1 + 1 = i by omega] at e2
            rw [e2]
            exact List.getLast?_concat
          rw [hclast _ hl1]
          exact hsp (i-1) i (by omega) hi (by omega)
      have hall : ∀ r, c < r → countBelow (L.take i) r = i := by
        intro r hr
        rw [countBelow_all (fun e he => by have := hle e he; omega), hlenP]
      have hlast : ∀ e, (L.take (i+1)).getLast? = some e → L[i].1 = e.1 := by
        intro e he
        rw [htake, List.getLast?_concat] at he
        exact congrArg (·.1) (Option.some.inj he)
      unfold Crs.convStep
      rw [hR i hi, Res.ok_bind]
      by_cases hcase : c = L[i].1
      · rw [if_pos hcase, wr_ok (by simp only; omega), Res.ok_bind, Res.sat_ok]
        refine ⟨by simpa using hl, ?_, ?_, by omega, ?_⟩
        · intro r hr
          simp only
          rw [getD_set (by omega), hp r hr, htake]
          unfold convPtr
          simp only [countBelow_append]
          by_cases e1 : r = c + 1
          · have a1 : r ≠ 0 := by omega
            have a2 : L[i].1 < r := by omega
            have a3 := hall r (by omega)
            rw [if_pos e1, if_neg a1]
            by_cases e2 : r = 1
            · have : L[i].1 < 1 := by omega
              subst e2
              simp [this]; omega
            · simp [e2, a2, a3]; omega
          · rw [if_neg e1]
            by_cases e0 : r = 0
            · simp [e0]
            · by_cases e3 : r ≤ c
              · have a1 : ¬ L[i].1 < r := by omega
                have a2 : ¬ L[i].1 < 1 := by omega
                simp [a1, a2]
              · have a1 : ¬ r ≤ c + 1 := by omega
                have a2 : ¬ r = 1 := by omega
                simp [e0, a1, a2]
        · intro e he
          rw [htake] at he
          simp only [List.mem_append, List.mem_singleton] at he
          rcases he with he | he
          · exact hle e he
          · subst he; simp only; omega
        · intro e he; rw [← hlast e he]; exact hcase
      · have hlt : c < L[i].1 := by omega
        rw [if_neg hcase]
        simp only
        refine Res.Sat.bind (convInner (by omega) (by omega)) ?_
        rintro rp' ⟨hl', hp'⟩
        rw [wr_ok (by omega), Res.ok_bind, Res.sat_ok]
        refine ⟨by simp; omega, ?_, ?_, by omega, ?_⟩
        · intro r hr
          simp only
          rw [getD_set (by omega), hp' r, hp r hr, htake]
          unfold convPtr
          simp only [countBelow_append]
          by_cases e1 : r = L[i].1 + 1
          · have a1 : r ≠ 0 := by omega
            have a2 : L[i].1 < r := by omega
            have a3 := hall r (by omega)
            have a4 : r ≠ 1 := by omega
            rw [if_pos e1, if_neg a1]
            simp [a2, a3, a4]; omega
          · rw [if_neg e1]
            by_cases e2 : c + 1 + 1 ≤ r ∧ r ≤ L[i].1
            · have a1 : r ≠ 0 := by omega
              have a2 : ¬ L[i].1 < r := by omega
              have a3 := hall r (by omega)
              have a4 : r ≠ 1 := by omega
              have a5 : r ≤ L[i].1 + 1 := by omega
              rw [if_pos e2, if_neg a1]
              simp [a2, a3, a4, a5]
            · rw [if_neg e2]
              by_cases e0 : r = 0
              · simp [e0]
              · by_cases e3 : r ≤ c + 1
                · have a1 : ¬ L[i].1 < r := by omega
                  have a2 : ¬ L[i].1 < 1 := by omega
                  have a3 : r ≤ L[i].1 + 1 := by omega
                  simp [a1, a2, e3, a3]
                · have a1 : ¬ r ≤ L[i].1 + 1 := by omega
                  have a2 : ¬ r = 1 := by omega
                  simp [e0, a1, a2, e3]
        · intro e he
          rw [htake] at he
          simp only [List.mem_append, List.mem_singleton] at he
          rcases he with he | he
          · have := hle e he; simp only; omega
          · subst he; simp only; omega
        · intro e he; rw [← hlast e he])
  obtain ⟨⟨c, rp⟩, he, h1, h2, h3, _, h5⟩ := this
  rw [List.take_length] at h2 h3 h5
  exact ⟨c, rp, he, h1, h2, h3, h5⟩


/-- initial row pointer of the conversion loop: what the target held, resized, with `[0] = 0` -/
def convInit (A : Crs α) (M : Nat) : List Nat := (stdResize A.rowPtr (M + 1) 0).set 0 0

theorem entries_snd {A : Coo α} (h : A.WF) :
    A.entries.map (·.2) = (A.colIdx.zip A.val).take A.nnz := by
  obtain ⟨_, h1, h2, h3, h4⟩ := h
  rw [Coo.entries, List.map_take]
  congr 1
  exact List.map_snd_zip (by simp; omega)

theorem convertCoo_ok [Zero α] {A : Crs α} (hA : A.BufOk) {coo : Coo α} (hc : coo.WF)
    (hM : ∀ e ∈ coo.entries, e.1 < coo.rowN) (hs : SortedRows coo.entries) :
    ∃ A' c, Crs.convertCoo A coo = .ok A' ∧ A'.BufOk ∧ A'.rowN = coo.rowN ∧
      A'.colN = coo.colN ∧ A'.nnz = coo.nnz ∧ A'.colInd = coo.colIdx ∧
      (A'.colInd.zip A'.val).take coo.nnz = coo.entries.map (·.2) ∧
      A'.rowPtr.length = coo.rowN + 1 ∧
      (∀ r, r ≤ coo.rowN → A'.ptr r =
        convPtr (fun r => (convInit A coo.rowN).getD r 0) coo.entries c r) ∧
      (∀ e ∈ coo.entries, e.1 ≤ c) ∧ (∀ e, coo.entries.getLast? = some e → c = e.1) := by
  have hb : ({ A with rowN := coo.rowN, colN := coo.colN, created := true } : Crs α).BufOk :=
    ⟨rfl, hA.lenV, hA.nnz_le⟩
  obtain ⟨V, a, hr, hV, ha⟩ := Crs.resize_ok hb coo.nnz 0
  have hlE := hc.length_entries
  have hcV : coo.nnz ≤ coo.val.length := by have := hc.lenV; have := hc.nnz_le; omega
  have hR : ∀ k (h : k < coo.entries.length), rd coo.rowIdx k = .ok coo.entries[k].1 := by
    intro k hk
    have h1 := hc.lenR; have h2 := hc.nnz_le
    rw [rd_ok (by omega)]
    simp [Coo.entries]
  obtain ⟨c, rp, hl, hlen, hp, hle, hlast⟩ := convLoop (rp0 := convInit A coo.rowN) hR
    (by simp [convInit]) (by
      unfold convInit
      rw [getD_set (by simp), if_pos rfl]) hM hs
  have hv := vcopy_ok (dst := V) hcV (by omega)
  rw [hlE] at hl
  refine ⟨{ rowN := coo.rowN, colN := coo.colN, rowPtr := rp, colInd := coo.colIdx,
            val := coo.val.take coo.nnz ++ V.drop coo.nnz, nnz := coo.nnz, alloc := a,
            created := true }, c, ?_, ?_, ?_, ?_, ?_, ?_, ?_, ?_, ?_, hle, hlast⟩
  · unfold Crs.convertCoo
    rw [hr, Res.ok_bind]
    simp only
    rw [hv, Res.ok_bind, wr_ok (by simp), Res.ok_bind]
    have : (stdResize A.rowPtr (coo.rowN + 1) 0).set 0 0 = convInit A coo.rowN := rfl
    rw [this, hl, Res.ok_bind]
  · refine ⟨rfl, ?_, ha⟩
    simp; omega
  · rfl
  · rfl
  · rfl
  · rfl
  · simp only
    rw [entries_snd hc]
    have hlC := hc.lenC
    have := hc.nnz_le
    rw [take_zip, take_zip, List.take_append]
    simp [hcV, List.take_take]
  · simpa using hlen
  · intro r hr'; exact hp r hr'

/-- rows of a CRS matrix in terms of its first `n` (column, value) pairs -/
theorem rowEntries_of_pairs {A : Crs α} {n : Nat} {P : List (Nat × α)}
    (hP : (A.colInd.zip A.val).take n = P) {i : Nat} (hle : A.ptr (i + 1) ≤ n) :
    A.rowEntries i = ((P.take (A.ptr (i + 1))).drop (A.ptr i)).map (fun p => (i, p.1, p.2)) := by
  unfold Crs.rowEntries
  rw [← hP, List.take_take, Nat.min_eq_left hle]

theorem map_row_filter (L : List (Entry α)) (i : Nat) :
    (L.filter (fun e => e.1 == i)).map (fun e => (i, e.2.1, e.2.2)) =
      L.filter (fun e => e.1 == i) := by
  induction L with
  | nil => rfl
  | cons a L ih =>
    by_cases h : a.1 = i
    · subst h; simpa using ih
    · have : (a.1 == i) = false := by simpa using h
      simpa [this] using ih

end Verif
