import Verif.Spec.TensorCrsHashSpec
import Verif.Props.TensorCrsScale
import Verif.Props.TensorCrsMul

/-!
# C111: `tensor_CRS` objects with the same structure can be used together
-/

namespace Verif.HTCrs

open Verif.Spec

variable {α : Type}

/-! ### the hash as a function of the shape and the lengths of the column arrays -/

/-- one slice -/
def keyStep (sch : Nat → Sched) (s0 R : Nat) (h : BitVec 64) (n : Nat) : BitVec 64 :=
  vhash (sch n) [] (vhash (sch (R + 1)) [] (BitVec.ofNat 64 s0 ||| h))

def key (sch : Nat → Sched) (s0 R : Nat) (lens : List Nat) : BitVec 64 := lens.foldl (keyStep sch s0 R) 0#64

theorem computeHash_ok (sch : Nat → Sched) (T : TCrs α) {R : Nat} (hs : T.shape ≠ [])
    (hl : T.rowPtrs.length = T.colInds.length) (hp : ∀ p ∈ T.rowPtrs, p.length = R + 1) :
    computeHash sch T = .ok (key sch (T.shape.getD 0 0) R (T.colInds.map List.length)) := by
  have gen : ∀ n lo h, lo + n = T.rowPtrs.length →
      forFrom lo n (fun d h => do
        let rp ← rd T.rowPtrs d
        let s0 ← rd T.shape 0
        let ci ← rd T.colInds d
        .ok (vhash (sch ci.length) ci (vhash (sch rp.length) rp (BitVec.ofNat 64 s0 ||| h)))) h =
      .ok (((T.colInds.drop lo).map List.length).foldl (keyStep sch (T.shape.getD 0 0) R) h) := by
    intro n
    induction n with
    | zero =>
      intro lo h e
      rw [forFrom_zero, List.drop_of_length_le (by omega)]
      rfl
    | succ n ih =>
      intro lo h e
      have h1 : lo < T.rowPtrs.length := by omega
      have h2 : lo < T.colInds.length := by omega
      have h3 : 0 < T.shape.length := List.length_pos_iff.mpr hs
      rw [forFrom_succ]
      have eb : (do
          let rp ← rd T.rowPtrs lo
          let s0 ← rd T.shape 0
          let ci ← rd T.colInds lo
          .ok (vhash (sch ci.length) ci (vhash (sch rp.length) rp (BitVec.ofNat 64 s0 ||| h))) : Res _) =
          .ok (vhash (sch T.colInds[lo].length) T.colInds[lo]
            (vhash (sch T.rowPtrs[lo].length) T.rowPtrs[lo] (BitVec.ofNat 64 T.shape[0] ||| h))) := by
        rw [rd_ok h1, Res.ok_bind, rd_ok h3, Res.ok_bind, rd_ok h2, Res.ok_bind]
      rw [eb, Res.ok_bind, ih (lo + 1) _ (by omega), List.drop_eq_getElem_cons h2, List.map_cons, List.foldl_cons]
      congr 2
      unfold keyStep
      rw [hp _ (List.getElem_mem h1)]
      have e0 : T.shape.getD 0 0 = T.shape[0] := by rw [List.getD_eq_getElem?_getD, List.getElem?_eq_getElem h3]; rfl
      rw [e0]
      rfl
  exact gen _ 0 _ (by omega)

/-- partial correctness of a counted loop -/
theorem forFrom_inv {σ : Type} {body : Nat → σ → Res σ} (P : σ → Prop)
    (hstep : ∀ i s s', P s → body i s = .ok s' → P s') : ∀ (n lo : Nat) (s s' : σ), P s →
    forFrom lo n body s = .ok s' → P s' := by
  intro n
  induction n with
  | zero => intro lo s s' h e; cases e; exact h
  | succ n ih =>
    intro lo s s' h e
    rw [forFrom_succ] at e
    obtain ⟨s1, h1, e⟩ := Res.bind_eq_ok.mp e
    exact ih _ _ _ (hstep _ _ _ h h1) e

theorem ptrStep_length {r i : Nat} {s t : Nat × List Nat} (h : TCrs.ptrStep r i s = .ok t) : t.2.length = s.2.length := by
  unfold TCrs.ptrStep at h
  split at h
  · obtain ⟨rp, h1, h⟩ := Res.bind_eq_ok.mp h
    cases h
    rw [(wr_eq_ok.mp h1).2, List.length_set]
  · obtain ⟨rp, h1, h⟩ := Res.bind_eq_ok.mp h
    obtain ⟨rp', h2, h⟩ := Res.bind_eq_ok.mp h
    cases h
    dsimp only
    rw [(wr_eq_ok.mp h2).2, List.length_set]
    exact forFrom_inv (fun l => l.length = s.2.length) (fun j l l' hl e => by
      rw [(wr_eq_ok.mp e).2, List.length_set]; exact hl) _ _ _ _ rfl h1

/-- lengths during the conversion from COO form -/
structure Lens (U R : Nat) (s : TCrs.Conv) : Prop where
  ptrs : s.rowPtrs.length = U
  ptr : ∀ p ∈ s.rowPtrs, p.length = R + 1
  inds : s.colInds.length = U

theorem convStep_lens {U R : Nat} {coo : TCoo α} {i : Nat} {s s' : TCrs.Conv} (hs : Lens U R s)
    (h : TCrs.convStep coo i s = .ok s') : Lens U R s' := by
  unfold TCrs.convStep at h
  obtain ⟨pos, _, h⟩ := Res.bind_eq_ok.mp h
  obtain ⟨⟨u, r, c⟩, _, h⟩ := Res.bind_eq_ok.mp h
  dsimp only at h
  obtain ⟨cr, _, h⟩ := Res.bind_eq_ok.mp h
  obtain ⟨rp, h1, h⟩ := Res.bind_eq_ok.mp h
  obtain ⟨⟨cr', rp'⟩, h2, h⟩ := Res.bind_eq_ok.mp h
  dsimp only at h
  obtain ⟨cRows, _, h⟩ := Res.bind_eq_ok.mp h
  obtain ⟨rps, h3, h⟩ := Res.bind_eq_ok.mp h
  obtain ⟨ci, _, h⟩ := Res.bind_eq_ok.mp h
  obtain ⟨cis, h4, h⟩ := Res.bind_eq_ok.mp h
  cases h
  refine ⟨?_, ?_, ?_⟩
  · dsimp only
    rw [(wr_eq_ok.mp h3).2, List.length_set]
    exact hs.ptrs
  · intro p hp
    dsimp only at hp
    rw [(wr_eq_ok.mp h3).2] at hp
    rcases List.mem_or_eq_of_mem_set hp with hp | rfl
    · exact hs.ptr p hp
    · have := ptrStep_length h2
      dsimp only at this
      rw [this]
      exact hs.ptr _ (List.mem_of_getElem? (rd_eq_ok.mp h1))
  · dsimp only
    rw [(wr_eq_ok.mp h4).2, List.length_set]
    exact hs.inds

/-- the hash that belongs to a tensor -/
def HasKey (sch : Nat → Sched) (A : HTCrs α) : Prop :=
  A.hash = key sch (A.tens.shape.getD 0 0) (A.tens.shape.getD (A.tens.shape.length - 2) 0)
    (A.tens.colInds.map List.length)

theorem key_of_compute {sch : Nat → Sched} {U : TCrs α} {h : BitVec 64} (hs : U.shape ≠ [])
    (hl : U.rowPtrs.length = U.colInds.length)
    (hp : ∀ p ∈ U.rowPtrs, p.length = U.shape.getD (U.shape.length - 2) 0 + 1) (e : computeHash sch U = .ok h) :
    HasKey sch ⟨U, h⟩ := by
  rw [computeHash_ok sch U hs hl hp] at e
  cases e
  rfl

theorem resize_arrays {T U : TCrs α} {N : Nat} {v : α} (h : T.resize N v = .ok U) :
    U.shape = T.shape ∧ U.rowPtrs = T.rowPtrs ∧ U.colInds = T.colInds ∧ U.nnz = N := by
  unfold TCrs.resize at h
  split at h
  · obtain ⟨b, _, h⟩ := Res.bind_eq_ok.mp h
    cases h
    exact ⟨rfl, rfl, rfl, rfl⟩
  · split at h
    · obtain ⟨b, _, h⟩ := Res.bind_eq_ok.mp h
      cases h
      exact ⟨rfl, rfl, rfl, rfl⟩
    · cases h

theorem coo_key [Zero α] {sch : Nat → Sched} {T A : HTCrs α} {c : TCoo α} (h : T.convertCoo sch c = .ok A) :
    HasKey sch A := by
  unfold convertCoo at h
  obtain ⟨U, h1, h⟩ := Res.bind_eq_ok.mp h
  obtain ⟨k, h2, h⟩ := Res.bind_eq_ok.mp h
  cases h
  unfold TCrs.convertCoo at h1
  obtain ⟨T1, hr, h1⟩ := Res.bind_eq_ok.mp h1
  have ha := resize_arrays hr
  dsimp only at h1
  obtain ⟨v, _, h1⟩ := Res.bind_eq_ok.mp h1
  split at h1
  · cases h1
  rename_i hlen
  obtain ⟨R, hR, h1⟩ := Res.bind_eq_ok.mp h1
  obtain ⟨s, hloop, h1⟩ := Res.bind_eq_ok.mp h1
  cases h1
  have hR' : c.shape.getD (c.shape.length - 2) 0 = R := by
    rw [List.getD_eq_getElem?_getD, rd_eq_ok.mp hR]
    rfl
  have hinv := forFrom_inv (Lens (TCrs.slices c.shape) R) (fun i s s' hs e => convStep_lens hs e) _ _ _ _
    ⟨by rw [List.length_map, length_stdResize], by
      intro p hp
      obtain ⟨q, _, rfl⟩ := List.mem_map.mp hp
      exact length_stdResize _ _ _, length_stdResize _ _ _⟩ hloop
  have hshape : T1.shape = c.shape := ha.1
  refine key_of_compute ?_ ?_ ?_ h2
  · dsimp only
    rw [hshape]
    intro e
    rw [e] at hlen
    exact hlen (by decide)
  · exact hinv.ptrs.trans hinv.inds.symm
  · intro p hp
    dsimp only
    rw [hshape, hR']
    exact hinv.ptr p hp

theorem setPtr_key [Zero α] {sch : Nat → Sched} {T A : HTCrs α} {shape : List Nat} {rps cis : List (List Nat)} {n : Nat}
    {v : List α} (hs : shape ≠ []) (hl : rps.length = cis.length)
    (hp : ∀ p ∈ rps, p.length = shape.getD (shape.length - 2) 0 + 1)
    (h : T.setPtr sch shape rps cis n v = .ok A) : HasKey sch A := by
  unfold setPtr at h
  obtain ⟨U, h1, h⟩ := Res.bind_eq_ok.mp h
  obtain ⟨_, e1, e2, _⟩ := resize_arrays h1
  obtain ⟨w, _, h⟩ := Res.bind_eq_ok.mp h
  obtain ⟨b, _, h⟩ := Res.bind_eq_ok.mp h
  dsimp only at h
  obtain ⟨k, h2, h⟩ := Res.bind_eq_ok.mp h
  cases h
  dsimp only at e1 e2
  exact key_of_compute hs (by dsimp only; rw [e1, e2]; exact hl) (by dsimp only; rw [e1]; exact hp) h2

theorem setPtrFill_key [Zero α] {sch : Nat → Sched} {T A : HTCrs α} {order shape : List Nat} {rps cis : List (List Nat)}
    {n : Nat} {v : α} (hs : shape ≠ []) (hl : rps.length = cis.length)
    (hp : ∀ p ∈ rps, p.length = shape.getD (shape.length - 2) 0 + 1)
    (h : T.setPtrFill sch order shape rps cis n v = .ok A) : HasKey sch A := by
  unfold setPtrFill at h
  obtain ⟨U, h1, h⟩ := Res.bind_eq_ok.mp h
  obtain ⟨_, e1, e2, _⟩ := resize_arrays h1
  obtain ⟨b, _, h⟩ := Res.bind_eq_ok.mp h
  dsimp only at h
  obtain ⟨k, h2, h⟩ := Res.bind_eq_ok.mp h
  cases h
  dsimp only at e1 e2
  exact key_of_compute hs (by dsimp only; rw [e1, e2]; exact hl) (by dsimp only; rw [e1]; exact hp) h2

theorem vcopy_length {β : Type} {N : Nat} {src dst out : List β} (h : vcopy N src dst = .ok out) :
    out.length = dst.length ∧ N ≤ dst.length := by
  unfold vcopy at h
  split at h
  · split at h
    · rename_i h1 h2
      cases h
      simp
      omega
    · cases h
  · cases h

theorem mat_key [Zero α] {sch : Nat → Sched} {T A : HTCrs α} {M : Crs α} (hM : M.Safe)
    (h : T.convertMat (HCrs.make sch M) = .ok A) : HasKey sch A := by
  unfold convertMat at h
  obtain ⟨U, h1, h⟩ := Res.bind_eq_ok.mp h
  cases h
  unfold TCrs.convertMat at h1
  obtain ⟨T1, hr, h1⟩ := Res.bind_eq_ok.mp h1
  dsimp only at h1
  obtain ⟨ci, _, h1⟩ := Res.bind_eq_ok.mp h1
  obtain ⟨rp, _, h1⟩ := Res.bind_eq_ok.mp h1
  obtain ⟨rp', _, h1⟩ := Res.bind_eq_ok.mp h1
  obtain ⟨ci', hc, h1⟩ := Res.bind_eq_ok.mp h1
  obtain ⟨v, _, h1⟩ := Res.bind_eq_ok.mp h1
  cases h1
  obtain ⟨c1, c2⟩ := vcopy_length hc
  rw [length_stdResize] at c1 c2
  have h3 := hM.lenC
  have h4 := hM.lenP
  have e : ci'.length = M.colInd.length := by
    have : (HCrs.make sch M).mat = M := rfl
    rw [this] at c1 c2
    omega
  have e1 : [M.rowN, M.colN].getD ([M.rowN, M.colN].length - 2) 0 = M.rowN := rfl
  unfold HasKey key HCrs.make Crs.computeHash
  dsimp only
  rw [e1]
  simp only [List.map_cons, List.map_nil, List.foldl_cons, List.foldl_nil, List.length_cons, List.length_nil,
    List.getD_cons_zero, keyStep, e, ← h4, BitVec.or_zero]
  rfl

/-- the loop of the copy that sizes the arrays, and the one that fills them: the column arrays get the source's lengths -/
theorem copy_lens [Zero α] {T A U : TCrs α} (h : T.convertCrs A = .ok U) :
    U.shape = A.shape ∧ U.colInds.map List.length = A.colInds.map List.length := by
  unfold TCrs.convertCrs at h
  obtain ⟨T1, hr, h⟩ := Res.bind_eq_ok.mp h
  dsimp only at h
  obtain ⟨⟨rps, cis⟩, h1, h⟩ := Res.bind_eq_ok.mp h
  dsimp only at h
  obtain ⟨⟨rps', cis'⟩, h2, h⟩ := Res.bind_eq_ok.mp h
  dsimp only at h
  obtain ⟨v, _, h⟩ := Res.bind_eq_ok.mp h
  cases h
  refine ⟨rfl, ?_⟩
  dsimp only
  -- after the first loop
  have g1 : ∀ (n lo : Nat) (s s' : List (List Nat) × List (List Nat)), lo + n = A.colInds.length →
      s.2.length = A.colInds.length → (∀ j, j < lo → (s.2[j]?.map List.length) = (A.colInds[j]?.map List.length)) →
      forFrom lo n (fun i s => do
        let ci ← rd s.2 i
        let aci ← rd A.colInds i
        let rp ← rd s.1 i
        let arp ← rd A.rowPtrs i
        let cis ← wr s.2 i (stdResize ci aci.length 0)
        let rps ← wr s.1 i (stdResize rp (arp.length + 1) 0)
        pure (rps, cis)) s = .ok s' →
      s'.2.length = A.colInds.length ∧
        ∀ j, j < A.colInds.length → (s'.2[j]?.map List.length) = (A.colInds[j]?.map List.length) := by
    intro n
    induction n with
    | zero =>
      intro lo s s' e hl hj h
      cases h
      exact ⟨hl, fun j hj' => hj j (by omega)⟩
    | succ n ih =>
      intro lo s s' e hl hj h
      rw [forFrom_succ] at h
      obtain ⟨s1, hb, h⟩ := Res.bind_eq_ok.mp h
      obtain ⟨ci, h3, hb⟩ := Res.bind_eq_ok.mp hb
      obtain ⟨aci, h4, hb⟩ := Res.bind_eq_ok.mp hb
      obtain ⟨rp, _, hb⟩ := Res.bind_eq_ok.mp hb
      obtain ⟨arp, _, hb⟩ := Res.bind_eq_ok.mp hb
      obtain ⟨c2, h5, hb⟩ := Res.bind_eq_ok.mp hb
      obtain ⟨r2, _, hb⟩ := Res.bind_eq_ok.mp hb
      cases hb
      obtain ⟨h6, rfl⟩ := wr_eq_ok.mp h5
      refine ih (lo + 1) _ _ (by omega) (by simpa using hl) ?_ h
      intro j hj'
      dsimp only
      by_cases ej : lo = j
      · subst ej
        rw [List.getElem?_set_self h6, rd_eq_ok.mp h4, Option.map_some, Option.map_some, length_stdResize]
      · rw [List.getElem?_set_ne ej]
        exact hj j (by omega)
  obtain ⟨l1, e1⟩ := g1 _ 0 _ _ (by omega) (length_stdResize _ _ _) (by intro j hj; omega) h1
  dsimp only at l1 e1
  -- the second loop does not change the lengths
  have g2 := forFrom_inv (fun s : List (List Nat) × List (List Nat) => s.2.length = A.colInds.length ∧
      ∀ j, j < A.colInds.length → (s.2[j]?.map List.length) = (A.colInds[j]?.map List.length)) (by
    intro i s s' hs hb
    obtain ⟨arp, _, hb⟩ := Res.bind_eq_ok.mp hb
    obtain ⟨rp, _, hb⟩ := Res.bind_eq_ok.mp hb
    obtain ⟨rp2, _, hb⟩ := Res.bind_eq_ok.mp hb
    obtain ⟨aci, h3, hb⟩ := Res.bind_eq_ok.mp hb
    obtain ⟨ci, h4, hb⟩ := Res.bind_eq_ok.mp hb
    obtain ⟨ci2, h5, hb⟩ := Res.bind_eq_ok.mp hb
    obtain ⟨r2, _, hb⟩ := Res.bind_eq_ok.mp hb
    obtain ⟨c2, h6, hb⟩ := Res.bind_eq_ok.mp hb
    cases hb
    obtain ⟨h7, rfl⟩ := wr_eq_ok.mp h6
    refine ⟨by simpa using hs.1, ?_⟩
    intro j hj
    dsimp only
    by_cases ej : i = j
    · subst ej
      rw [List.getElem?_set_self h7, ← hs.2 i hj, rd_eq_ok.mp h4, Option.map_some, Option.map_some,
        (vcopy_length h5).1]
    · rw [List.getElem?_set_ne ej]
      exact hs.2 j hj) _ _ _ _ ⟨l1, e1⟩ h2
  dsimp only at g2
  refine List.ext_getElem? ?_
  intro j
  rw [List.getElem?_map, List.getElem?_map]
  by_cases hj : j < A.colInds.length
  · exact g2.2 j hj
  · rw [List.getElem?_eq_none (by omega), List.getElem?_eq_none (by omega)]

theorem made_key [Zero α] {sch : Nat → Sched} {A : HTCrs α} (h : Made sch A) : HasKey sch A := by
  induction h with
  | setPtr hs hl hp h => exact setPtr_key hs hl hp h
  | setPtrFill hs hl hp h => exact setPtrFill_key hs hl hp h
  | coo h => exact coo_key h
  | mat hM h => exact mat_key hM h
  | copy hA h ih =>
    unfold convertCrs at h
    obtain ⟨U, h1, h⟩ := Res.bind_eq_ok.mp h
    cases h
    obtain ⟨e1, e2⟩ := copy_lens h1
    unfold HasKey at ih ⊢
    dsimp only
    rw [e1, e2]
    exact ih
  | assign hA h ih =>
    unfold assign at h
    obtain ⟨_, _, h⟩ := Res.bind_eq_ok.mp h
    obtain ⟨_, _, h⟩ := Res.bind_eq_ok.mp h
    obtain ⟨v, _, h⟩ := Res.bind_eq_ok.mp h
    obtain ⟨b, _, h⟩ := Res.bind_eq_ok.mp h
    cases h
    exact ih
  | fill hA h ih =>
    unfold fill at h
    obtain ⟨b, _, h⟩ := Res.bind_eq_ok.mp h
    cases h
    exact ih
  | values hA ih => exact ih

/-! ## C111 -/

/-- **C111 (recognised), partial.** Tensors with the same shape and column arrays of the same lengths (so all with the same
index arrays) count as having the same structure, if both were made by `set_ptr`, a conversion or a copy, with any history
of values. Missing: tensors from the other two constructors (`C111_like_violated`, `C111_arrays_violated`). -/
theorem C111_structure_partial [Zero α] (sch : Nat → Sched) {A B : HTCrs α} (hA : Made sch A) (hB : Made sch B)
    (hs : A.tens.shape = B.tens.shape)
    (hc : A.tens.colInds.map List.length = B.tens.colInds.map List.length) : A.isSameStructure B = true := by
  have h1 := made_key hA
  have h2 := made_key hB
  unfold HasKey at h1 h2
  have e : A.hash = B.hash := by rw [h1, h2, hs, hc]
  unfold isSameStructure
  rw [if_neg (not_not.mpr hs), if_neg (not_not.mpr e)]

/-- **C111 (assignment), partial.** `A = B` between well-formed tensors of the same structure gives `A` the slices of `B`;
the rest of the buffer of `A` is untouched. -/
theorem C111_assign_partial [Zero α] (sch : Nat → Sched) {us : List Nat} {R N : Nat} {A B : HTCrs α} (hA : Made sch A)
    (hB : Made sch B) (tA : A.tens.Tiled us R N) (tB : B.tens.Tiled us R N) (hs : TCrs.SameShape A.tens B.tens) :
    ∃ C, A.assign B = .ok C ∧ C.tens.Tiled us R N ∧ TCrs.SameShape A.tens C.tens ∧ Made sch C ∧
      (∀ p, p < A.tens.first ∨ A.tens.first + A.tens.nnz ≤ p → C.tens.val[p]? = A.tens.val[p]?) ∧
      ∀ d, d < volume us → C.tens.slice R N d = B.tens.slice R N d := by
  have hst := C111_structure_partial sch hA hB hs.shape.symm (by rw [hs.inds])
  have w1 := tA.window
  have w2 := tA.lenV
  have w3 := tB.window
  have w4 := tB.lenV
  have w5 := hs.nnz
  have hl : ((B.tens.val.drop B.tens.first).take A.tens.nnz).length = A.tens.nnz := by
    rw [List.length_take, List.length_drop]; omega
  obtain ⟨w, hw⟩ : ∃ w, w = A.tens.val.take A.tens.first ++ (B.tens.val.drop B.tens.first).take A.tens.nnz ++
      A.tens.val.drop (A.tens.first + A.tens.nnz) := ⟨_, rfl⟩
  have e : A.assign B = .ok ⟨{ A.tens with val := w, created := true }, A.hash⟩ := by
    unfold assign
    rw [hst, show A.isSameSize B = true from decide_eq_true hs.shape.symm]
    rw [show cassert true = .ok () from rfl, Res.ok_bind, Res.ok_bind, TCrs.rdN_ok (by omega), Res.ok_bind,
      TCrs.wrN_ok (by rw [hl]; omega), Res.ok_bind, hl, hw]
  have hb := TCrs.blit_get (l := A.tens.val) (b := (B.tens.val.drop B.tens.first).take A.tens.nnz) (o := A.tens.first)
    (by rw [hl]; omega)
  rw [hl, ← hw] at hb
  refine ⟨_, e, ?_, ⟨rfl, rfl, rfl, rfl⟩, .assign hA e, ?_, ?_⟩
  · have t := TCrs.tiled_val tA (v := w)
      (by rw [hw]; simp only [List.length_append, hl, List.length_take, List.length_drop]; omega)
    exact ⟨t.shape, t.lenP, t.lenC, t.total, t.lenV, t.window, t.tiled⟩
  · intro p hp
    dsimp only
    rw [hb p, if_neg (by omega)]
  · intro d hd
    have ho := TCrs.offset_lt tB hd
    have eo : B.tens.offset d = A.tens.offset d := hs.offset d
    unfold TCrs.slice
    dsimp only
    rw [hs.ptrs, hs.inds]
    congr 1
    refine List.ext_getElem? ?_
    intro k
    by_cases hk : k < (A.tens.colInds.getD d []).length
    · rw [List.getElem?_take_of_lt hk, List.getElem?_take_of_lt hk, List.getElem?_drop, List.getElem?_drop]
      dsimp only [TCrs.slice] at ho
      rw [hs.inds, eo] at ho
      rw [show TCrs.offset { A.tens with val := w, created := true } d = A.tens.offset d from rfl, hb _,
        if_pos (by omega), List.getElem?_take_of_lt (by omega), List.getElem?_drop, eo]
      congr 1
      omega
    · rw [List.getElem?_eq_none (by rw [List.length_take]; omega), List.getElem?_eq_none (by rw [List.length_take]; omega)]

/-- different shapes are rejected -/
theorem C111_assign_sizes {A B : HTCrs α} (h : A.tens.shape ≠ B.tens.shape) :
    A.assign B = .abort "assert" ∧ A.isSameStructure B = false := by
  constructor
  · unfold assign
    rw [show A.isSameSize B = false from decide_eq_false h]
    rfl
  · unfold isSameStructure
    rw [if_pos h]

/-- **C111 (element-wise), partial.** `times(alpha, A, C)` accepts tensors of the same structure made in these ways, distinct
or the same object, and computes slice by slice. -/
theorem C111_times_partial [Zero α] [Mul α] (sch : Nat → Sched) {us : List Nat} {R N : Nat} {A C : HTCrs α}
    (hA : Made sch A) (hC : Made sch C) (tA : A.tens.Tiled us R N) (tC : C.tens.Tiled us R N)
    (hs : TCrs.SameShape A.tens C.tens) (same : Bool) (hsame : same = true → C.tens = A.tens) (alpha : α)
    (order : List Nat) (ho : Order order A.tens.nnz) :
    ∃ C', A.times same order alpha C = .ok C' ∧ C'.tens.Tiled us R N ∧ TCrs.SameShape C.tens C'.tens ∧ C'.hash = C.hash ∧
      ∀ d, d < volume us → (C'.tens.slice R N d).entries =
        (A.tens.slice R N d).entries.map (fun e => (e.1, e.2.1, e.2.2 * alpha)) := by
  obtain ⟨T, h1, h2, h3, _, h4⟩ := C51_times tA tC hs same hsame alpha order ho
  refine ⟨⟨T, C.hash⟩, ?_, h2, h3, rfl, h4⟩
  unfold times
  rw [C111_structure_partial sch hA hC hs.shape.symm (by rw [hs.inds]), h1, Res.ok_bind]

theorem resize_ok {T : TCrs α} (hc : T.created = true) (hl : T.val.length = T.alloc) (hw : T.first + T.nnz ≤ T.alloc)
    (N : Nat) (v : α) :
    ∃ V a f, T.resize N v = .ok { T with val := V, alloc := a, nnz := N, first := f } ∧ V.length = a ∧ f + N ≤ a := by
  unfold TCrs.resize
  by_cases h : T.first + N < T.alloc
  · rw [if_pos h]
    obtain ⟨b, hb, hbl⟩ := forFrom_sat (lo := T.nnz) (n := N - T.nnz) (body := fun i b => wr b (T.first + i) v)
      (s := T.val) (fun _ b => b.length = T.val.length) rfl (fun i b h1 h2 hbl => by
        rw [wr_ok (by omega)]
        exact Res.sat_ok.mpr (by simpa using hbl))
    refine ⟨b, T.alloc, T.first, ?_, by omega, by omega⟩
    unfold forRange
    rw [hb, Res.ok_bind]
  · rw [if_neg h, if_pos hc, reallocCopy_ok (by omega), Res.ok_bind]
    exact ⟨_, N, 0, rfl, by simp; omega, by omega⟩

/-- **C111 (set_ptr).** Whatever the tensor was before, `set_ptr` with sensible arrays gives the tensor of these arrays. -/
theorem C111_set_ptr [Zero α] (sch : Nat → Sched) (T : HTCrs α) (hl : T.tens.val.length = T.tens.alloc)
    (hw : T.tens.first + T.tens.nnz ≤ T.tens.alloc) {shape : List Nat} {rps cis : List (List Nat)} {value : List α}
    (hs : shape ≠ []) (hlen : rps.length = cis.length)
    (hp : ∀ p ∈ rps, p.length = shape.getD (shape.length - 2) 0 + 1) :
    ∃ A, T.setPtr sch shape rps cis value.length value = .ok A ∧ Made sch A ∧ A.tens.shape = shape ∧
      A.tens.rowPtrs = rps ∧ A.tens.colInds = cis ∧ A.tens.nnz = value.length ∧ A.tens.val.length = A.tens.alloc ∧
      A.tens.first + A.tens.nnz ≤ A.tens.alloc ∧ (A.tens.val.drop A.tens.first).take A.tens.nnz = value := by
  obtain ⟨V, a, f, hr, h1, h2⟩ := resize_ok
    (T := { T.tens with colInds := cis, rowPtrs := rps, created := true }) rfl hl hw value.length (0 : α)
  have hb := TCrs.blit_get (l := V) (b := value) (o := f) (by omega)
  obtain ⟨w, hw'⟩ : ∃ w, w = V.take f ++ value ++ V.drop (f + value.length) := ⟨_, rfl⟩
  have hwl : w.length = a := by
    rw [hw']; simp only [List.length_append, List.length_take, List.length_drop]; omega
  have e : T.setPtr sch shape rps cis value.length value = .ok ⟨{ shape := shape, rowPtrs := rps, colInds := cis,
                                                                  val := w, nnz := value.length, alloc := a,
                                                                  first := f, created := true },
      key sch (shape.getD 0 0) (shape.getD (shape.length - 2) 0) (cis.map List.length)⟩ := by
    unfold setPtr
    rw [hr, Res.ok_bind]
    dsimp only
    rw [readN_ok (Nat.le_refl _), Res.ok_bind, List.take_length, TCrs.wrN_ok (by omega), Res.ok_bind, ← hw',
      computeHash_ok sch _ hs hlen hp, Res.ok_bind]
  refine ⟨_, e, .setPtr hs hlen hp e, rfl, rfl, rfl, rfl, hwl, h2, ?_⟩
  dsimp only
  rw [← hw'] at hb
  refine List.ext_getElem? ?_
  intro k
  by_cases hk : k < value.length
  · rw [List.getElem?_take_of_lt hk, List.getElem?_drop, hb, if_pos (by omega)]
    congr 1
    omega
  · rw [List.getElem?_eq_none (by rw [List.length_take]; omega), List.getElem?_eq_none (by omega)]

/-- **C111 (set_ptr with one value).** -/
theorem C111_set_ptr_fill [Zero α] (sch : Nat → Sched) (T : HTCrs α) (hl : T.tens.val.length = T.tens.alloc)
    (hw : T.tens.first + T.tens.nnz ≤ T.tens.alloc) {shape : List Nat} {rps cis : List (List Nat)} {n : Nat} (value : α)
    (hs : shape ≠ []) (hlen : rps.length = cis.length)
    (hp : ∀ p ∈ rps, p.length = shape.getD (shape.length - 2) 0 + 1) (order : List Nat) (ho : Order order n) :
    ∃ A, T.setPtrFill sch order shape rps cis n value = .ok A ∧ Made sch A ∧ A.tens.shape = shape ∧
      A.tens.rowPtrs = rps ∧ A.tens.colInds = cis ∧ A.tens.nnz = n ∧ A.tens.val.length = A.tens.alloc ∧
      A.tens.first + A.tens.nnz ≤ A.tens.alloc ∧ ∀ k, k < n → A.tens.val[A.tens.first + k]? = some value := by
  obtain ⟨V, a, f, hr, h1, h2⟩ := resize_ok
    (T := { T.tens with colInds := cis, rowPtrs := rps, created := true }) rfl hl hw n (0 : α)
  obtain ⟨w, h3, h4, h5, _⟩ := forList_points order (fun k => f + k) (fun _ _ => value)
    (List.Nodup.map (fun a b (hab : f + a = f + b) => by omega) ho.nodup) V
    (body := fun i b => wr b (f + i) value)
    (by intro i hi; have := ho.mem.mp hi; omega) (by intro i b u hi hbl hu; rfl)
  have e : T.setPtrFill sch order shape rps cis n value = .ok ⟨{ shape := shape, rowPtrs := rps, colInds := cis,
                                                                  val := w, nnz := n, alloc := a,
                                                                  first := f, created := true },
      key sch (shape.getD 0 0) (shape.getD (shape.length - 2) 0) (cis.map List.length)⟩ := by
    unfold setPtrFill
    rw [hr, Res.ok_bind]
    dsimp only
    rw [h3, Res.ok_bind, computeHash_ok sch _ hs hlen hp, Res.ok_bind]
  refine ⟨_, e, .setPtrFill hs hlen hp e, rfl, rfl, rfl, rfl, by dsimp only; omega, h2, ?_⟩
  intro k hk
  dsimp only
  exact h5 k (V[f + k]'(by omega)) (ho.mem.mpr hk) (List.getElem?_eq_getElem (by omega))

/-! ### violations -/

/-- **C111 violated (the tensor with the structure of another).** `tensor_CRS B(A, value)` has the shape and the index
arrays of `A`, but its hash is whatever was in memory: unless this happens to be the hash of `A`, the two do not count as
having the same structure, and both `B = A` and `times(alpha, A, B)` abort. -/
theorem C111_like_violated [Zero α] [Mul α] (A : HTCrs α) (junk : BitVec 64) (hj : junk ≠ A.hash) (order : List Nat)
    (ho : Order order A.tens.nnz) (value alpha : α) (order' : List Nat) :
    ∃ B, like junk order A value = .ok B ∧ B.tens.shape = A.tens.shape ∧ B.tens.rowPtrs = A.tens.rowPtrs ∧
      B.tens.colInds = A.tens.colInds ∧ B.tens.val = List.replicate A.tens.nnz value ∧
      A.isSameStructure B = false ∧ B.assign A = .abort "assert" ∧ A.times false order' alpha B = .abort "assert" := by
  have hr : TCrs.resize { (TCrs.empty : TCrs α) with
      shape := A.tens.shape, rowPtrs := A.tens.rowPtrs, colInds := A.tens.colInds } A.tens.nnz 0 =
      .ok { shape := A.tens.shape, rowPtrs := A.tens.rowPtrs, colInds := A.tens.colInds,
            val := List.replicate A.tens.nnz 0, nnz := A.tens.nnz, alloc := A.tens.nnz, first := 0, created := true } := by
    simp [TCrs.resize, TCrs.empty, reallocCopy, readN]
  obtain ⟨w, h3, h4, h5, _⟩ := forList_points order (fun k => k) (fun _ _ => value)
    (by rw [List.map_id']; exact ho.nodup) (List.replicate A.tens.nnz (0 : α))
    (body := fun i b => wr b i value)
    (by intro i hi; have := ho.mem.mp hi; simpa using this) (by intro i b u hi hbl hu; rfl)
  have hwv : w = List.replicate A.tens.nnz value := by
    rw [List.length_replicate] at h4
    refine List.ext_getElem? ?_
    intro k
    by_cases hk : k < A.tens.nnz
    · rw [h5 k 0 (ho.mem.mpr hk) (by rw [List.getElem?_replicate, if_pos hk]), List.getElem?_replicate, if_pos hk]
    · rw [List.getElem?_eq_none (by omega), List.getElem?_eq_none (by simpa using hk)]
  have hf : ∀ T : TCrs α, T.shape = A.tens.shape → A.isSameStructure ⟨T, junk⟩ = false ∧
      isSameStructure ⟨T, junk⟩ A = false := by
    intro T hT
    constructor
    · unfold isSameStructure
      rw [if_neg (not_not.mpr hT.symm), if_pos (Ne.symm hj)]
    · unfold isSameStructure
      rw [if_neg (not_not.mpr hT), if_pos hj]
  refine ⟨⟨{ shape := A.tens.shape, rowPtrs := A.tens.rowPtrs, colInds := A.tens.colInds, val := w, nnz := A.tens.nnz,
             alloc := A.tens.nnz, first := 0, created := true }, junk⟩, ?_, rfl, rfl, rfl, hwv, (hf _ rfl).1, ?_, ?_⟩
  · unfold like
    rw [hr, Res.ok_bind]
    dsimp only
    rw [h3, Res.ok_bind]
  · unfold assign
    have e := (hf { shape := A.tens.shape, rowPtrs := A.tens.rowPtrs, colInds := A.tens.colInds, val := w,
                    nnz := A.tens.nnz, alloc := A.tens.nnz, first := 0, created := true } rfl).2
    have e0 : isSameSize ⟨{ shape := A.tens.shape, rowPtrs := A.tens.rowPtrs, colInds := A.tens.colInds, val := w,
                            nnz := A.tens.nnz, alloc := A.tens.nnz, first := 0, created := true }, junk⟩ A = true :=
      decide_eq_true rfl
    rw [e, e0]
    rfl
  · unfold times TCrs.timesS
    have e := (hf { shape := A.tens.shape, rowPtrs := A.tens.rowPtrs, colInds := A.tens.colInds, val := w,
                    nnz := A.tens.nnz, alloc := A.tens.nnz, first := 0, created := true } rfl).1
    rw [e]
    rfl

/-- **C111 violated (the constructor from arrays).** Two tensors made from the same arrays do not count as having the same
structure and cannot be assigned, unless the memory they were made in happened to hold the same number. -/
theorem C111_arrays_violated [Zero α] (junk junk' : BitVec 64) (hj : junk ≠ junk') (shape : List Nat)
    (rps cis : List (List Nat)) (value value' : List α) {A B : HTCrs α} (hA : ofArrays junk shape rps cis value = .ok A)
    (hB : ofArrays junk' shape rps cis value' = .ok B) :
    A.tens.shape = B.tens.shape ∧ A.tens.rowPtrs = B.tens.rowPtrs ∧ A.tens.colInds = B.tens.colInds ∧
      A.isSameStructure B = false ∧ A.assign B = .abort "assert" := by
  have gen : ∀ {j : BitVec 64} {v : List α} {X : HTCrs α}, ofArrays j shape rps cis v = .ok X →
      X.tens.shape = shape ∧ X.tens.rowPtrs = rps ∧ X.tens.colInds = cis ∧ X.hash = j := by
    intro j v X h
    unfold ofArrays at h
    obtain ⟨T, h1, h⟩ := Res.bind_eq_ok.mp h
    cases h
    unfold TCrs.ofArrays at h1
    dsimp only at h1
    obtain ⟨U, h2, h1⟩ := Res.bind_eq_ok.mp h1
    obtain ⟨w, _, h1⟩ := Res.bind_eq_ok.mp h1
    cases h1
    obtain ⟨e1, e2, e3, _⟩ := resize_arrays h2
    exact ⟨e1, e2, e3, rfl⟩
  obtain ⟨a1, a2, a3, a4⟩ := gen hA
  obtain ⟨b1, b2, b3, b4⟩ := gen hB
  have hf : A.isSameStructure B = false := by
    unfold isSameStructure
    rw [if_neg (not_not.mpr (a1.trans b1.symm)), a4, b4, if_pos hj]
  refine ⟨a1.trans b1.symm, a2.trans b2.symm, a3.trans b3.symm, hf, ?_⟩
  unfold assign
  rw [hf, show A.isSameSize B = true from decide_eq_true (a1.trans b1.symm)]
  rfl

/-- the constructor from arrays succeeds (the hypotheses of `C111_arrays_violated`) -/
example : ∃ A, ofArrays 7#64 [2, 2] [[0, 1, 2]] [[0, 1]] [(5 : Int), 6] = .ok A := ⟨_, rfl⟩

theorem two_mk (sch : Nat → Sched) : ∀ cis : List Nat, ∀ v : List Int, cis.length = 2 → v.length = 2 →
    setPtr sch (mkShape 0#64 []) [2, 2] [[0, 1, 2]] [cis] 2 v =
      .ok ⟨⟨[2, 2], [[0, 1, 2]], [cis], v, 2, 2, 0, true⟩, key sch 2 2 [2]⟩ := by
  intro cis v hc hv
  match v, hv with
  | [a, b], _ =>
    unfold setPtr
    have hr : TCrs.resize { (mkShape 0#64 [] : HTCrs Int).tens with
        colInds := [cis], rowPtrs := [[0, 1, 2]], created := true } 2 0 =
        .ok ⟨[], [[0, 1, 2]], [cis], [0, 0], 2, 2, 0, true⟩ := rfl
    rw [hr, Res.ok_bind]
    dsimp only
    rw [readN_ok (by simp), Res.ok_bind, TCrs.wrN_ok (by simp), Res.ok_bind,
      computeHash_ok (R := 2) sch _ (by simp) (by simp) (by simp), Res.ok_bind]
    simp [hc]
theorem two_tiled : ∀ c d : Nat, c < 2 → d < 2 → ∀ a b : Int,
    (⟨[2, 2], [[0, 1, 2]], [[c, d]], [a, b], 2, 2, 0, true⟩ : TCrs Int).Tiled [] 2 2 := by
  intro c d hc hd a b
  refine ⟨rfl, rfl, rfl, rfl, rfl, Nat.le_refl 2, ?_⟩
  intro k hk
  have : k < 1 := hk
  obtain rfl : k = 0 := by omega
  refine Crs.WF.tiled { created := rfl, lenV := rfl, nnz_le := Nat.le_refl 2, lenP := rfl, ptr_le := ?_, lenC := Nat.le_refl 2,
                        col_lt := ?_, ptr_zero := rfl, ptr_last := rfl, ptr_mono := ?_ }
  · intro i hi
    have : i ≤ 2 := hi
    match i, this with
    | 0, _ => exact Nat.zero_le 2
    | 1, _ => exact Nat.le_succ 1
    | 2, _ => exact Nat.le_refl 2
  · intro i h h'
    have h2 : i < 2 := h'
    match i, h2 with
    | 0, _ => exact hc
    | 1, _ => exact hd
  · intro i hi
    have : i < 2 := hi
    match i, this with
    | 0, _ => exact Nat.zero_le 1
    | 1, _ => exact Nat.le_succ 1
theorem two_made (sch : Nat → Sched) {cis : List Nat} {v : List Int} (hc : cis.length = 2) (hv : v.length = 2) :
    Made sch (⟨⟨[2, 2], [[0, 1, 2]], [cis], v, 2, 2, 0, true⟩, key sch 2 2 [2]⟩ : HTCrs Int) :=
  .setPtr (shape := [2, 2]) (rps := [[0, 1, 2]]) (cis := [cis]) (by decide) rfl (by decide) (two_mk sch cis v hc hv)

/-- two tensors with the same structure meet the hypotheses of `C111_structure_partial`, `C111_assign_partial` and
`C111_times_partial` -/
example (sch : Nat → Sched) : ∃ C : HTCrs Int,
    assign (⟨⟨[2, 2], [[0, 1, 2]], [[0, 1]], [5, 6], 2, 2, 0, true⟩, key sch 2 2 [2]⟩ : HTCrs Int)
      ⟨⟨[2, 2], [[0, 1, 2]], [[0, 1]], [7, 8], 2, 2, 0, true⟩, key sch 2 2 [2]⟩ = .ok C :=
  let ⟨C, h, _⟩ := C111_assign_partial sch (two_made sch (cis := [0, 1]) (v := [5, 6]) rfl rfl)
    (two_made sch (cis := [0, 1]) (v := [7, 8]) rfl rfl) (two_tiled 0 1 (by decide) (by decide) 5 6)
    (two_tiled 0 1 (by decide) (by decide) 7 8) ⟨rfl, rfl, rfl, rfl⟩
  ⟨C, h⟩

/-- **C111 violated (different structures).** `[[5, 0], [0, 6]]` is assigned a tensor with the elements `(0, 1)` and `(1, 0)`,
whatever the schedules: the assignment is accepted and the values land at the wrong positions. -/
theorem C111_assign_violated (sch : Nat → Sched) :
    ∃ A B C : HTCrs Int, Made sch A ∧ Made sch B ∧ A.tens.Tiled [] 2 2 ∧ B.tens.Tiled [] 2 2 ∧ A.assign B = .ok C ∧
      (B.tens.slice 2 2 0).entries = [(0, 1, 7), (1, 0, 8)] ∧ (C.tens.slice 2 2 0).entries = [(0, 0, 7), (1, 1, 8)] := by
  refine ⟨⟨⟨[2, 2], [[0, 1, 2]], [[0, 1]], [5, 6], 2, 2, 0, true⟩, key sch 2 2 [2]⟩,
    ⟨⟨[2, 2], [[0, 1, 2]], [[1, 0]], [7, 8], 2, 2, 0, true⟩, key sch 2 2 [2]⟩,
    ⟨⟨[2, 2], [[0, 1, 2]], [[0, 1]], [7, 8], 2, 2, 0, true⟩, key sch 2 2 [2]⟩,
    two_made sch (cis := [0, 1]) (v := [5, 6]) rfl rfl,
    two_made sch (cis := [1, 0]) (v := [7, 8]) rfl rfl,
    two_tiled 0 1 (by decide) (by decide) 5 6, two_tiled 1 0 (by decide) (by decide) 7 8, ?_, by dsimp only; decide, by dsimp only; decide⟩
  unfold assign
  have : isSameStructure (⟨⟨[2, 2], [[0, 1, 2]], [[0, 1]], [5, 6], 2, 2, 0, true⟩, key sch 2 2 [2]⟩ : HTCrs Int)
      ⟨⟨[2, 2], [[0, 1, 2]], [[1, 0]], [7, 8], 2, 2, 0, true⟩, key sch 2 2 [2]⟩ = true := by
    unfold isSameStructure
    rw [if_neg (not_not.mpr rfl), if_neg (not_not.mpr rfl)]
  have this2 : isSameSize (⟨⟨[2, 2], [[0, 1, 2]], [[0, 1]], [5, 6], 2, 2, 0, true⟩, key sch 2 2 [2]⟩ : HTCrs Int)
      ⟨⟨[2, 2], [[0, 1, 2]], [[1, 0]], [7, 8], 2, 2, 0, true⟩, key sch 2 2 [2]⟩ = true := decide_eq_true rfl
  rw [this, this2]
  rfl

end Verif.HTCrs
