import Verif.Spec.TensorCrsSpec
import Verif.Lemmas.TensorConv
import Verif.Lemmas.CrsConv
import Verif.Props.CooCrs

/-! Lemmas for `tensor_CRS`: the conversion loop works slice by slice like the matrix conversion. -/

namespace Verif

open Spec

variable {α : Type}

namespace Spec

theorem InShape.split {us : List Nat} {R C : Nat} {pos : List Nat} (h : InShape (us ++ [R, C]) pos) :
    ∃ ps r c, pos = ps ++ [r, c] ∧ InShape us ps ∧ r < R ∧ c < C := by
  have hl := h.length
  have h1 := List.forall₂_take_append _ _ _ h
  have h2 := List.forall₂_drop_append _ _ _ h
  have hd : (pos.drop us.length).length = 2 := by simp at hl ⊢; omega
  obtain ⟨r, c, hrc⟩ := List.length_eq_two.mp hd
  rw [hrc] at h2
  simp at h2
  exact ⟨pos.take us.length, r, c, by rw [← hrc, List.take_append_drop], h1, h2.1, h2.2⟩

theorem split_fields {us ps : List Nat} {r c : Nat} (h : ps.length = us.length) :
    sliceNo us (ps ++ [r, c]) = rowMajor us ps ∧ rowIx us (ps ++ [r, c]) = r ∧
      colIx us (ps ++ [r, c]) = c := by
  unfold sliceNo rowIx colIx
  refine ⟨by rw [← h, List.take_left], ?_, ?_⟩ <;> rw [← h, List.getD_eq_getElem?_getD] <;> simp

theorem rowMajor_split {us ps : List Nat} {R C r c : Nat} (h : InShape us ps) :
    rowMajor (us ++ [R, C]) (ps ++ [r, c]) = rowMajor us ps * (R * C) + (r * C + c) := by
  rw [rowMajor_append h]
  simp [rowMajor, volume]

/-- row-major order is the order by slice, then row -/
theorem order_split {us p q : List Nat} {R C : Nat} (hp : InShape (us ++ [R, C]) p)
    (hq : InShape (us ++ [R, C]) q) (h : rowMajor (us ++ [R, C]) p ≤ rowMajor (us ++ [R, C]) q) :
    sliceNo us p < sliceNo us q ∨ sliceNo us p = sliceNo us q ∧ rowIx us p ≤ rowIx us q := by
  obtain ⟨ps, r, c, rfl, h1, h2, h3⟩ := hp.split
  obtain ⟨qs, r', c', rfl, h1', h2', h3'⟩ := hq.split
  rw [rowMajor_split h1, rowMajor_split h1'] at h
  obtain ⟨e1, e2, _⟩ := split_fields (r := r) (c := c) h1.length
  obtain ⟨e1', e2', _⟩ := split_fields (r := r') (c := c') h1'.length
  rw [e1, e2, e1', e2']
  have key : ∀ {x y : Nat}, x < R → y < C → x * C + y < R * C := by
    intro x y hx hy
    calc x * C + y < x * C + C := by omega
      _ = (x + 1) * C := by ring
      _ ≤ R * C := Nat.mul_le_mul_right _ hx
  have b := key h2 h3
  have b' := key h2' h3'
  rcases Nat.lt_trichotomy (rowMajor us ps) (rowMajor us qs) with hlt | heq | hgt
  · exact Or.inl hlt
  · refine Or.inr ⟨heq, ?_⟩
    rw [heq] at h
    by_contra hc
    have : (r' + 1) * C ≤ r * C := Nat.mul_le_mul_right _ (by omega)
    have e : (r' + 1) * C = r' * C + C := by ring
    omega
  · exfalso
    have : (rowMajor us qs + 1) * (R * C) ≤ rowMajor us ps * (R * C) := Nat.mul_le_mul_right _ hgt
    have e : (rowMajor us qs + 1) * (R * C) = rowMajor us qs * (R * C) + R * C := by ring
    omega

end Spec

namespace TCrs

theorem slices_eq (us : List Nat) (R C : Nat) : slices (us ++ [R, C]) = volume us := by
  have := extent_eq us
  unfold TDense.extent at this
  unfold slices
  have : (us ++ [R, C]).take ((us ++ [R, C]).length - 2) = us := by simp
  rw [this]; assumption

theorem horner_prefix : ∀ {us ps : List Nat} (qs : List Nat) (ind : Nat), ps.length = us.length →
    horner us (ps ++ qs) ind = horner us ps ind
  | [], [], qs, ind, _ => by cases qs <;> rfl
  | u :: us, p :: ps, qs, ind, h => by
    simp only [List.cons_append, horner]
    exact horner_prefix qs _ (by simpa using h)

theorem locate_ok {us pos : List Nat} {R C : Nat} (h : InShape (us ++ [R, C]) pos) :
    locate (us ++ [R, C]) pos = .ok (sliceNo us pos, rowIx us pos, colIx us pos) := by
  obtain ⟨ps, r, c, rfl, h1, h2, h3⟩ := h.split
  obtain ⟨e1, e2, e3⟩ := split_fields (r := r) (c := c) h1.length
  have hl := h1.length
  unfold locate
  have t : (us ++ [R, C]).take ((us ++ [R, C]).length - 2) = us := by simp
  have r1 : rd (ps ++ [r, c]) ((us ++ [R, C]).length - 2) = .ok r := by
    rw [rd_eq_ok]; simp [← hl]
  have r2 : rd (ps ++ [r, c]) ((us ++ [R, C]).length - 1) = .ok c := by
    rw [rd_eq_ok]; simp [← hl]
  rw [if_neg (by simp [hl]), r1, Res.ok_bind, r2, Res.ok_bind, t, e1, e2, e3, horner_prefix _ _ hl,
    horner_eq 0 hl]
  simp

/-! ### the matrix conversion as a function of the list of rows -/

/-- row pointer of the matrix conversion after a list of row numbers -/
def conv (rp0 : List Nat) (rows : List Nat) : Res (Nat × List Nat) :=
  forN rows.length (Crs.convStep rows) (0, rp0)

theorem convStep_eq (rows : List Nat) (i : Nat) (s : Nat × List Nat) :
    Crs.convStep rows i s = (rd rows i >>= fun r => ptrStep r i s) := rfl

theorem conv_append (rp0 rows : List Nat) (r : Nat) :
    conv rp0 (rows ++ [r]) = conv rp0 rows >>= ptrStep r rows.length := by
  unfold conv forN
  rw [List.length_append, List.length_singleton, forFrom_add]
  have h1 : forFrom 0 rows.length (Crs.convStep (rows ++ [r])) (0, rp0) =
      forFrom 0 rows.length (Crs.convStep rows) (0, rp0) := by
    rw [forFrom_eq_forList, forFrom_eq_forList]
    refine forList_congr _ ?_
    intro i hi s
    have hi : i < rows.length := by simpa using hi
    rw [convStep_eq, convStep_eq]
    congr 1
    unfold rd
    rw [List.getElem?_append_left hi]
  rw [h1]
  congr 1
  funext s
  rw [forFrom_succ, Nat.zero_add, convStep_eq, rd_of_getElem? (a := r) (by simp), Res.ok_bind]
  cases ptrStep r rows.length s <;> simp

theorem conv_ok {rp0 : List Nat} {M : Nat} (L : List (Entry α)) (hlen : rp0.length = M + 1)
    (h0 : rp0.getD 0 0 = 0) (hM : ∀ e ∈ L, e.1 < M) (hs : SortedRows L) :
    ∃ s, conv rp0 (L.map (·.1)) = .ok s := by
  obtain ⟨c, rp, h, _⟩ := convLoop (L := L) (R := L.map (·.1)) (rp0 := rp0) (M := M)
    (by intro k hk; rw [rd_eq_ok]; simp [hk]) hlen h0 hM hs
  exact ⟨(c, rp), by unfold conv; simpa using h⟩

/-! ### the loop over all slices -/

/-- slice-tagged matrix entries -/
def sub (E : List (Nat × Entry α)) (d : Nat) : List (Entry α) := (E.filter (fun e => e.1 == d)).map (·.2)

/-- ordered by slice, then row -/
def Ord (E : List (Nat × Entry α)) : Prop :=
  E.Pairwise fun a b => a.1 < b.1 ∨ a.1 = b.1 ∧ a.2.1 ≤ b.2.1

theorem sub_append (E : List (Nat × Entry α)) (e : Nat × Entry α) (d : Nat) :
    sub (E ++ [e]) d = if e.1 = d then sub E d ++ [e.2] else sub E d := by
  unfold sub
  by_cases h : e.1 = d <;> simp [List.filter_append, h]

theorem Ord.sub {E : List (Nat × Entry α)} (h : Ord E) (d : Nat) : SortedRows (sub E d) := by
  unfold SortedRows TCrs.sub
  rw [List.pairwise_map]
  refine List.Pairwise.imp_of_mem ?_ (List.Pairwise.filter _ h)
  intro a b ha hb hab
  have ha := (List.mem_filter.mp ha).2
  have hb := (List.mem_filter.mp hb).2
  simp at ha hb
  omega

theorem mem_sub {E : List (Nat × Entry α)} {d : Nat} {x : Entry α} :
    x ∈ sub E d ↔ (d, x) ∈ E := by
  unfold sub
  simp only [List.mem_map, List.mem_filter, beq_iff_eq]
  constructor
  · rintro ⟨⟨s, y⟩, ⟨h1, rfl⟩, rfl⟩; exact h1
  · intro h; exact ⟨(d, x), ⟨h, rfl⟩, rfl⟩

/-- invariant of the conversion loop after the elements `P` -/
structure Inv (U : Nat) (rp0 : List Nat) (P : List (Nat × Entry α)) (s : Conv) : Prop where
  lenP : s.rowPtrs.length = U
  lenI : s.colInds.length = U
  lenR : s.cRows.length = U
  ptr : ∀ d, d < U → conv rp0 ((sub P d).map (·.1)) = .ok (s.cRows.getD d 0, s.rowPtrs.getD d [])
  cols : ∀ d, d < U → s.colInds.getD d [] = (sub P d).map (·.2.1)
  newI : s.newI = (sub P s.prev).length
  prev : ∀ e ∈ P, e.1 ≤ s.prev
  prevIn : s.prev = 0 ∨ ∃ e ∈ P, e.1 = s.prev

theorem getD_rd {β : Type} {l : List β} {i : Nat} (h : i < l.length) (x : β) :
    rd l i = .ok (l.getD i x) := by
  rw [rd_ok h, List.getD_eq_getElem?_getD, List.getElem?_eq_getElem h]; rfl

theorem getD_set' {β : Type} {l : List β} {i : Nat} (h : i < l.length) (a x : β) (j : Nat) :
    (l.set i a).getD j x = if j = i then a else l.getD j x := by
  simp only [List.getD_eq_getElem?_getD, List.getElem?_set]
  by_cases hj : i = j
  · subst hj; simp [h]
  · have : ¬ j = i := fun h' => hj h'.symm
    simp [hj, this]

theorem convStep_inv {U M : Nat} {rp0 : List Nat} {P : List (Nat × Entry α)} {e : Nat × Entry α}
    {s : Conv} (hlen : rp0.length = M + 1) (h0 : rp0.getD 0 0 = 0)
    (ho : Ord (P ++ [e])) (hM : ∀ x ∈ P ++ [e], x.2.1 < M) (hu : e.1 < U)
    {coo : TCoo α} {i : Nat} {pos : List Nat} (hpos : rd coo.index i = .ok pos)
    (hloc : locate coo.shape pos = .ok (e.1, e.2.1, e.2.2.1)) (hI : Inv U rp0 P s) :
    (convStep coo i s).Sat (Inv U rp0 (P ++ [e])) := by
  obtain ⟨u, r, c, v⟩ := e
  dsimp only at hloc hu
  have hnew : (if u ≠ s.prev then 0 else s.newI) = (sub P u).length := by
    by_cases h : u = s.prev
    · rw [if_neg (by simpa using h), hI.newI, h]
    · rw [if_pos h]
      suffices hs : sub P u = [] by rw [hs]; rfl
      rw [List.eq_nil_iff_forall_not_mem]
      intro x hx
      rw [mem_sub] at hx
      have h1 := hI.prev _ hx
      dsimp only at h1
      rcases hI.prevIn with h2 | ⟨y, hy, h2⟩
      · omega
      · unfold Ord at ho
        rw [List.pairwise_append] at ho
        have := ho.2.2 y hy (u, r, c, v) (by simp)
        dsimp only at this
        omega
  have hconv : ∃ q, ptrStep r (sub P u).length (s.cRows.getD u 0, s.rowPtrs.getD u []) = .ok q := by
    obtain ⟨q, hq⟩ := conv_ok (α := α) (rp0 := rp0) (M := M) (sub (P ++ [(u, r, c, v)]) u) hlen h0
      (by intro x hx; rw [mem_sub] at hx; exact hM _ hx) (ho.sub u)
    rw [sub_append, if_pos rfl, List.map_append, List.map_singleton, conv_append, hI.ptr u hu,
      Res.ok_bind, List.length_map] at hq
    exact ⟨q, hq⟩
  obtain ⟨⟨c', rp'⟩, hq⟩ := hconv
  unfold convStep
  rw [hpos, Res.ok_bind, hloc, Res.ok_bind]
  dsimp only
  rw [hnew, getD_rd (by rw [hI.lenR]; exact hu) 0, Res.ok_bind,
    getD_rd (by rw [hI.lenP]; exact hu) [], Res.ok_bind, hq, Res.ok_bind]
  dsimp only
  rw [wr_ok (by rw [hI.lenR]; exact hu), Res.ok_bind, wr_ok (by rw [hI.lenP]; exact hu), Res.ok_bind,
    getD_rd (by rw [hI.lenI]; exact hu) [], Res.ok_bind, wr_ok (by rw [hI.lenI]; exact hu), Res.ok_bind,
    Res.sat_ok]
  refine ⟨by simpa using hI.lenP, by simpa using hI.lenI, by simpa using hI.lenR, ?_, ?_, ?_, ?_, ?_⟩
  · intro d hd
    dsimp only
    rw [getD_set' (by rw [hI.lenR]; exact hu), getD_set' (by rw [hI.lenP]; exact hu), sub_append]
    by_cases h : u = d
    · subst h
      rw [if_pos rfl, if_pos rfl, if_pos rfl, List.map_append, List.map_singleton, conv_append,
        hI.ptr u hu, Res.ok_bind, List.length_map]
      exact hq
    · rw [if_neg h, if_neg (fun h' => h h'.symm), if_neg (fun h' => h h'.symm)]
      exact hI.ptr d hd
  · intro d hd
    dsimp only
    rw [getD_set' (by rw [hI.lenI]; exact hu), sub_append]
    by_cases h : u = d
    · subst h
      rw [if_pos rfl, hI.cols u hu, if_pos rfl, List.map_append, List.map_singleton]
    · rw [if_neg h, if_neg (fun h' => h h'.symm)]
      exact hI.cols d hd
  · dsimp only
    rw [sub_append]; simp
  · intro x hx
    rw [List.mem_append, List.mem_singleton] at hx
    dsimp only
    rcases hx with hx | rfl
    · unfold Ord at ho
      rw [List.pairwise_append] at ho
      have := ho.2.2 x hx (u, r, c, v) (by simp)
      dsimp only at this
      omega
    · exact Nat.le_refl _
  · exact Or.inr ⟨(u, r, c, v), by simp, rfl⟩

/-! ### one slice as a matrix conversion -/

theorem ofCoo_ofZ [Zero α] (R C : Nat) (L : List (Entry α)) :
    Crs.ofCoo (Coo.ofZ R C L L.length) =
      (conv (List.replicate (R + 1) 0) (L.map (·.1)) >>= fun s =>
        .ok { rowN := R, colN := C, rowPtr := s.2, colInd := L.map (·.2.1), val := L.map (·.2.2),
              nnz := L.length, alloc := L.length, created := true }) := by
  unfold Crs.ofCoo Crs.convertCoo
  have hr : Crs.resize ({ (Crs.empty : Crs α) with rowN := R, colN := C, created := true }) L.length 0 =
      .ok { rowN := R, colN := C, rowPtr := [], colInd := [], val := List.replicate L.length 0,
            nnz := L.length, alloc := L.length, created := true } := by
    unfold Crs.resize
    rw [if_neg (by simp [Crs.empty]), if_pos rfl, reallocCopy_ok (by simp [Crs.empty])]
    simp [Crs.empty]
  have h1 : (Coo.ofZ R C L L.length).rowN = R := rfl
  have h2 : (Coo.ofZ R C L L.length).colN = C := rfl
  have h3 : (Coo.ofZ R C L L.length).nnz = L.length := rfl
  rw [h1, h2, h3, hr, Res.ok_bind]
  have hv : (Coo.ofZ R C L L.length).val = L.map (·.2.2) := rfl
  have hw : (Coo.ofZ R C L L.length).rowIdx = L.map (·.1) := rfl
  have hc : (Coo.ofZ R C L L.length).colIdx = L.map (·.2.1) := rfl
  rw [hv, hw, hc, vcopy_ok (by simp) (by simp), Res.ok_bind]
  dsimp only
  have hz : wr (stdResize ([] : List Nat) (R + 1) 0) 0 0 = .ok (List.replicate (R + 1) 0) := by
    rw [wr_ok (by simp)]
    simp [stdResize, List.replicate_succ]
  rw [hz, Res.ok_bind]
  unfold conv
  rw [List.length_map]
  cases forN L.length (Crs.convStep (L.map (·.1))) (0, List.replicate (R + 1) 0) with
  | ok s => simp
  | throw m => rfl
  | abort m => rfl
  | ub m => rfl

/-! ### the whole conversion -/

/-- an element with its slice -/
def tag (us : List Nat) (e : TEntry α) : Nat × Entry α :=
  (sliceNo us e.1, rowIx us e.1, colIx us e.1, e.2)

theorem sliceOf_eq (us : List Nat) (L : List (TEntry α)) (d : Nat) :
    sliceOf us L d = sub (L.map (tag us)) d := by
  unfold sliceOf sub
  rw [List.filter_map, List.map_map]
  rfl

theorem Ord_tag {us : List Nat} {R C : Nat} {L : List (TEntry α)} (hin : InsideT (us ++ [R, C]) L)
    (hs : SortedT (us ++ [R, C]) L) : Ord (L.map (tag us)) := by
  unfold Ord
  rw [List.pairwise_map]
  refine List.Pairwise.imp_of_mem ?_ hs
  intro a b ha hb h
  exact order_split (hin a ha) (hin b hb) h

/-- slice and value, as an entry keyed by the slice -/
def keyed (E : List (Nat × Entry α)) : List (Entry α) := E.map (fun e => (e.1, 0, e.2.2.2))

theorem keyed_sorted {E : List (Nat × Entry α)} (h : Ord E) : SortedRows (keyed E) := by
  unfold SortedRows keyed
  rw [List.pairwise_map]
  refine List.Pairwise.imp ?_ h
  intro a b hab
  dsimp only
  omega

theorem keyed_filter (E : List (Nat × Entry α)) (d : Nat) :
    ((keyed E).filter (fun e => e.1 == d)).map (·.2.2) = (sub E d).map (·.2.2) := by
  unfold keyed sub
  rw [List.filter_map, List.map_map, List.map_map]
  rfl

theorem countBelow_succ {L : List (Entry α)} (h : SortedRows L) (r : Nat) :
    countBelow L (r + 1) = countBelow L r + (L.filter (fun e => e.1 == r)).length := by
  unfold countBelow
  rw [filter_lt_succ h, List.length_append]

theorem keyed_filter_length (E : List (Nat × Entry α)) (d : Nat) :
    ((keyed E).filter (fun e => e.1 == d)).length = (sub E d).length := by
  have := congrArg List.length (keyed_filter E d)
  simpa using this

theorem offset_eq {T : TCrs α} {E : List (Nat × Entry α)} {U : Nat} (ho : Ord E)
    (hl : T.colInds.length = U)
    (hc : ∀ d, d < U → T.colInds.getD d [] = (sub E d).map (·.2.1)) :
    ∀ d, d ≤ U → T.offset d = countBelow (keyed E) d := by
  intro d
  induction d with
  | zero => intro _; simp [offset, countBelow]
  | succ d ih =>
    intro hd
    have h1 := hc d (by omega)
    rw [List.getD_eq_getElem?_getD, List.getElem?_eq_getElem (by omega)] at h1
    have h2 : T.offset (d + 1) = T.offset d + (sub E d).length := by
      unfold offset
      rw [List.take_succ_eq_append_getElem (by omega), List.map_append, List.sum_append]
      simp only [Option.getD_some] at h1
      rw [h1]; simp
    rw [h2, ih (by omega), countBelow_succ (keyed_sorted ho), keyed_filter_length]

theorem drop_take_vals {E : List (Nat × Entry α)} (ho : Ord E) (d : Nat) :
    ((E.map (·.2.2.2)).drop (countBelow (keyed E) d)).take (sub E d).length =
      (sub E d).map (·.2.2) := by
  have h := slice_eq_filter (keyed_sorted ho) d
  rw [← keyed_filter, ← h, countBelow_succ (keyed_sorted ho), keyed_filter_length, List.map_drop,
    List.map_take, List.drop_take]
  have : (keyed E).map (·.2.2) = E.map (·.2.2.2) := by
    unfold keyed; rw [List.map_map]; rfl
  rw [this]
  congr 1
  omega

theorem ofCoo_ok [Zero α] {us : List Nat} {R C : Nat} {coo : TCoo α} (hc : coo.WF)
    (hsh : coo.shape = us ++ [R, C]) (hin : InsideT coo.shape coo.entries)
    (hs : SortedT coo.shape coo.entries) :
    ∃ A, ofCoo coo = .ok A ∧ A.Tiled us R C ∧ A.nnz = coo.nnz ∧ A.first = 0 ∧
      ∀ d, d < volume us →
        Crs.ofCoo (Coo.ofZ R C (sliceOf us coo.entries d) (sliceOf us coo.entries d).length) =
          .ok (A.slice R C d) := by
  rw [hsh] at hin hs
  have ho := Ord_tag hin hs
  have hlE : coo.entries.length = coo.nnz := by
    obtain ⟨_, h1, h2, h3⟩ := hc
    simp [TCoo.entries]; omega
  have hent : ∀ i (h : i < coo.nnz), rd coo.index i = .ok (coo.entries[i]'(by omega)).1 ∧
      rd coo.val i = .ok (coo.entries[i]'(by omega)).2 := by
    intro i h
    obtain ⟨_, h1, h2, h3⟩ := hc
    simp only [TCoo.entries, List.getElem_take, List.getElem_zip]
    exact ⟨rd_ok (by omega), rd_ok (by omega)⟩
  set E := coo.entries.map (tag us) with hE
  have hlE' : E.length = coo.nnz := by simp [hE, hlE]
  -- the loop
  have hM : ∀ x ∈ E, x.2.1 < R := by
    intro x hx
    rw [hE, List.mem_map] at hx
    obtain ⟨e, he, rfl⟩ := hx
    obtain ⟨ps, r, c, hp, h1, h2, h3⟩ := (hin e he).split
    have := (split_fields (r := r) (c := c) h1.length).2.1
    simp only [tag, hp, this]; exact h2
  have hU : ∀ x ∈ E, x.1 < volume us := by
    intro x hx
    rw [hE, List.mem_map] at hx
    obtain ⟨e, he, rfl⟩ := hx
    obtain ⟨ps, r, c, hp, h1, h2, h3⟩ := (hin e he).split
    have := (split_fields (r := r) (c := c) h1.length).1
    simp only [tag, hp, this]; exact rowMajor_lt h1
  set rp0 : List Nat := List.replicate (R + 1) 0 with hrp0
  have hloop := forN_sat (n := coo.nnz) (body := convStep coo)
    (s := { rowPtrs := List.replicate (volume us) rp0, colInds := List.replicate (volume us) [],
            cRows := List.replicate (volume us) 0, newI := 0, prev := 0 })
    (fun i s => Inv (volume us) rp0 (E.take i) s)
    ⟨by simp, by simp, by simp, by
      intro d hd
      simp [List.getD_eq_getElem?_getD, hd, sub, conv], by
      intro d hd
      simp [List.getD_eq_getElem?_getD, hd, sub], by simp [sub], by simp, Or.inl rfl⟩ (by
    intro i s hi hI
    have hi' : i < E.length := by omega
    have e1 : E.take (i + 1) = E.take i ++ [E[i]] := List.take_succ_eq_append_getElem hi'
    rw [e1]
    have hmem : coo.entries[i]'(by omega) ∈ coo.entries := List.getElem_mem _
    have hEi : E[i] = tag us (coo.entries[i]'(by omega)) := by simp [hE]
    refine convStep_inv (M := R) (by simp [hrp0]) (by simp [hrp0, List.getD_eq_getElem?_getD]) ?_ ?_ ?_ (hent i hi).1 ?_ hI
    · rw [← e1]; exact List.Pairwise.sublist (List.take_sublist _ _) ho
    · rw [← e1]; intro x hx; exact hM x (List.mem_of_mem_take hx)
    · exact hU _ (List.getElem_mem _)
    · rw [hsh, hEi]; exact locate_ok (hin _ hmem))
  obtain ⟨s, hs1, hI⟩ := hloop
  rw [← hlE', List.take_length] at hI
  -- unfold the conversion
  have hres : resize ({ (empty : TCrs α) with shape := coo.shape, created := true }) coo.nnz 0 =
      .ok { shape := coo.shape, rowPtrs := [], colInds := [], val := List.replicate coo.nnz 0,
            nnz := coo.nnz, alloc := coo.nnz, first := 0, created := true } := by
    unfold resize
    rw [if_neg (by simp [empty]), if_pos rfl, reallocCopy_ok (by simp [empty])]
    simp [empty]
  have hval : forN coo.nnz (fun i b => do
      let x ← rd coo.val i
      wr b (0 + i) x) (List.replicate coo.nnz (0 : α)) = .ok (E.map (·.2.2.2)) := by
    obtain ⟨b, hb, hP⟩ := forN_sat (n := coo.nnz) (body := fun i b => do
        let x ← rd coo.val i
        wr b (0 + i) x) (s := List.replicate coo.nnz (0 : α))
      (fun i b => b.length = coo.nnz ∧ b.take i = (E.map (·.2.2.2)).take i) ⟨by simp, by simp⟩ (by
        rintro i b hi ⟨h1, h2⟩
        rw [(hent i hi).2, Res.ok_bind, wr_ok (by omega), Res.sat_ok, Nat.zero_add]
        refine ⟨by simpa using h1, ?_⟩
        rw [List.take_succ_eq_append_getElem (by simpa using (by omega : i < b.length)),
          List.take_succ_eq_append_getElem (by simpa using (by omega : i < E.length)),
          List.take_set_of_le (Nat.le_refl _), h2]
        simp [hE, tag])
    rw [hb]
    congr 1
    have h2 := hP.2
    rwa [List.take_of_length_le (by omega), List.take_of_length_le (by simp; omega)] at h2
  have hshl : coo.shape.length = us.length + 2 := by rw [hsh]; simp
  have hR : rd coo.shape (coo.shape.length - 2) = .ok R := by
    rw [rd_eq_ok, hshl, hsh]; simp
  have hsl : slices coo.shape = volume us := by rw [hsh, slices_eq]
  let A : TCrs α :=
    { shape := coo.shape, rowPtrs := s.rowPtrs, colInds := s.colInds,
      val := E.map (·.2.2.2), nnz := coo.nnz, alloc := coo.nnz, first := 0, created := true }
  have hA : ofCoo coo = .ok A := by
    unfold ofCoo convertCoo
    rw [hres, Res.ok_bind]
    dsimp only [empty]
    rw [hval, Res.ok_bind, if_neg (by omega), hR, Res.ok_bind, hsl]
    have e1 : (stdResize ([] : List (List Nat)) (volume us) []).map (fun p => stdResize p (R + 1) 0) =
        List.replicate (volume us) rp0 := by
      simp [stdResize, hrp0]
    have e2 : stdResize ([] : List (List Nat)) (volume us) [] = List.replicate (volume us) [] := by
      simp [stdResize]
    rw [e1, e2, hs1, Res.ok_bind]
  have hslice : ∀ d, d < volume us →
      Crs.ofCoo (Coo.ofZ R C (sliceOf us coo.entries d) (sliceOf us coo.entries d).length) =
        .ok (A.slice R C d) := by
    intro d hd
    rw [ofCoo_ofZ, sliceOf_eq, hI.ptr d hd, Res.ok_bind]
    have hci : A.colInds.getD d [] = (sub E d).map (·.2.1) := hI.cols d hd
    have hoff := offset_eq (T := A) ho hI.lenI hI.cols d (by omega)
    have hv : (A.val.drop (A.first + A.offset d)).take ((sub E d).map (·.2.1)).length =
        (sub E d).map (·.2.2) := by
      rw [hoff, List.length_map]
      show ((E.map (·.2.2.2)).drop (0 + countBelow (keyed E) d)).take (sub E d).length = _
      rw [Nat.zero_add]
      exact drop_take_vals ho d
    unfold slice
    rw [hci, hv]
    simp [A, hE]
  refine ⟨A, hA, ⟨hsh, hI.lenP, hI.lenI, ?_, ?_, ?_, ?_⟩, rfl, rfl, hslice⟩
  · rw [offset_eq (T := A) ho hI.lenI hI.cols _ (Nat.le_refl _), countBelow_all]
    · simp [keyed, hlE', A]
    · intro e he
      simp only [keyed, List.mem_map] at he
      obtain ⟨x, hx, rfl⟩ := he
      exact hU x hx
  · simp [A, hlE']
  · simp [A]
  · intro d hd
    obtain ⟨B, hB, _, _, _, ht, _⟩ := C06_convert_rows
      (Coo.ofZ R C (sliceOf us coo.entries d) (sliceOf us coo.entries d).length)
      (Coo.ofZ_wf (Nat.le_refl _)) (by
        rw [Coo.entries_ofZ, List.take_length]
        intro e he
        rw [sliceOf_eq, mem_sub, List.mem_map] at he
        obtain ⟨x, hx, hxe⟩ := he
        obtain ⟨ps, r, c, hp, h1, h2, h3⟩ := (hin x hx).split
        obtain ⟨-, f2, f3⟩ := split_fields (r := r) (c := c) h1.length
        simp only [tag, hp, f2, f3, Prod.mk.injEq] at hxe
        rw [← hxe.2]
        exact ⟨h2, h3⟩) (by
        rw [Coo.entries_ofZ, List.take_length, sliceOf_eq]
        exact ho.sub d)
    rw [hslice d hd] at hB
    cases hB
    exact ht

end TCrs
end Verif
