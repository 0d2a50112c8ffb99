import Verif.Props.TensorCrs

/-!
C50: copies of a `tensor_CRS`, and comparison of a tensor with its copy.
-/

namespace Verif

open Spec

variable {α : Type}

namespace TCrs

theorem copy_ok [Zero α] {A : TCrs α} (hl : A.colInds.length = A.rowPtrs.length)
    (hn : A.nnz ≤ A.val.length) :
    A.copy = .ok { shape := A.shape, rowPtrs := A.rowPtrs.map (· ++ [0]), colInds := A.colInds,
                   val := A.val.take A.nnz, nnz := A.nnz, alloc := A.nnz, first := 0, created := true } := by
  have hr : (empty : TCrs α).resize A.nnz 0 = .ok { (empty : TCrs α) with
      val := List.replicate A.nnz 0, alloc := A.nnz, nnz := A.nnz, first := 0 } := by
    simp [resize, empty, reallocCopy, readN]
  unfold copy convertCrs
  rw [hr, Res.ok_bind]
  have hP : stdResize (empty : TCrs α).rowPtrs A.rowPtrs.length [] =
      List.replicate A.colInds.length [] := by simp [empty, stdResize, hl]
  have hC : stdResize (empty : TCrs α).colInds A.colInds.length [] =
      List.replicate A.colInds.length [] := by simp [empty, stdResize]
  dsimp only [empty] at hP hC ⊢
  rw [hP, hC]
  obtain ⟨⟨rps, cis⟩, h1, h2, h3, h4⟩ := forN_sat (n := A.colInds.length)
    (body := fun i (s : List (List Nat) × List (List Nat)) => do
      let ci ← rd s.2 i
      let aci ← rd A.colInds i
      let rp ← rd s.1 i
      let arp ← rd A.rowPtrs i
      let cis ← wr s.2 i (stdResize ci aci.length 0)
      let rps ← wr s.1 i (stdResize rp (arp.length + 1) 0)
      pure (rps, cis))
    (s := (List.replicate A.colInds.length [], List.replicate A.colInds.length []))
    (fun i s => s.1.length = A.colInds.length ∧ s.2.length = A.colInds.length ∧
      ∀ k, k < A.colInds.length →
        s.1.getD k [] = (if k < i then List.replicate ((A.rowPtrs.getD k []).length + 1) 0 else []) ∧
        s.2.getD k [] = (if k < i then List.replicate (A.colInds.getD k []).length 0 else []))
    ⟨by simp, by simp, by
      intro k hk
      simp [List.getD_eq_getElem?_getD, hk]⟩ (by
    rintro i ⟨p, c⟩ hi ⟨e1, e2, e3⟩
    dsimp only at e1 e2 e3 ⊢
    obtain ⟨q1, q2⟩ := e3 i hi
    rw [if_neg (by omega)] at q1 q2
    rw [getD_rd (by omega) [], Res.ok_bind, getD_rd (by omega) [], Res.ok_bind, getD_rd (by omega) [],
      Res.ok_bind, getD_rd (by omega) [], Res.ok_bind, wr_ok (by omega), Res.ok_bind, wr_ok (by omega),
      Res.ok_bind]
    refine Res.sat_ok.2 ⟨by simpa using e1, by simpa using e2, ?_⟩
    intro k hk
    dsimp only
    rw [getD_set' (by omega), getD_set' (by omega), q1, q2]
    obtain ⟨r1, r2⟩ := e3 k hk
    by_cases hki : k = i
    · subst hki
      simp [stdResize]
    · rw [if_neg hki, if_neg hki, r1, r2]
      by_cases h : k < i
      · rw [if_pos h, if_pos h, if_pos (by omega), if_pos (by omega)]; exact ⟨rfl, rfl⟩
      · rw [if_neg h, if_neg h, if_neg (by omega), if_neg (by omega)]; exact ⟨rfl, rfl⟩)
  rw [h1, Res.ok_bind]
  dsimp only at h2 h3 h4 ⊢
  obtain ⟨⟨rps', cis'⟩, g1, g2, g3, g4⟩ := forN_sat (n := A.colInds.length)
    (body := fun i (s : List (List Nat) × List (List Nat)) => do
      let arp ← rd A.rowPtrs i
      let rp ← rd s.1 i
      let rp ← vcopy arp.length arp rp
      let aci ← rd A.colInds i
      let ci ← rd s.2 i
      let ci ← vcopy aci.length aci ci
      let rps ← wr s.1 i rp
      let cis ← wr s.2 i ci
      pure (rps, cis))
    (s := (rps, cis))
    (fun i s => s.1.length = A.colInds.length ∧ s.2.length = A.colInds.length ∧
      ∀ k, k < A.colInds.length →
        s.1.getD k [] = (if k < i then A.rowPtrs.getD k [] ++ [0] else
          List.replicate ((A.rowPtrs.getD k []).length + 1) 0) ∧
        s.2.getD k [] = (if k < i then A.colInds.getD k [] else
          List.replicate (A.colInds.getD k []).length 0))
    ⟨h2, h3, by
      intro k hk
      have := h4 k hk
      simpa [hk] using this⟩ (by
    rintro i ⟨p, c⟩ hi ⟨e1, e2, e3⟩
    dsimp only at e1 e2 e3 ⊢
    obtain ⟨q1, q2⟩ := e3 i hi
    rw [if_neg (by omega)] at q1 q2
    rw [getD_rd (by omega) [], Res.ok_bind, getD_rd (by omega) [], Res.ok_bind,
      vcopy_ok (by omega) (by rw [q1]; simp), Res.ok_bind, getD_rd (by omega) [], Res.ok_bind,
      getD_rd (by omega) [], Res.ok_bind, vcopy_ok (by omega) (by rw [q2]; simp), Res.ok_bind,
      wr_ok (by omega), Res.ok_bind, wr_ok (by omega), Res.ok_bind]
    refine Res.sat_ok.2 ⟨by simpa using e1, by simpa using e2, ?_⟩
    intro k hk
    dsimp only
    rw [getD_set' (by omega), getD_set' (by omega), q1, q2]
    obtain ⟨r1, r2⟩ := e3 k hk
    by_cases hki : k = i
    · subst hki
      simp
    · rw [if_neg hki, if_neg hki, r1, r2]
      by_cases h : k < i
      · rw [if_pos h, if_pos h, if_pos (by omega), if_pos (by omega)]; exact ⟨rfl, rfl⟩
      · rw [if_neg h, if_neg h, if_neg (by omega), if_neg (by omega)]; exact ⟨rfl, rfl⟩)
  rw [g1, Res.ok_bind]
  dsimp only at g2 g3 g4 ⊢
  rw [vcopy_ok hn (by simp), Res.ok_bind]
  have ext : ∀ (X Y : List (List Nat)), X.length = Y.length → (∀ k, k < X.length → X.getD k [] = Y.getD k []) →
      X = Y := by
    intro X Y hXY h
    apply List.ext_getElem? 
    intro k
    by_cases hk : k < X.length
    · have := h k hk
      rw [List.getD_eq_getElem?_getD, List.getD_eq_getElem?_getD] at this
      rw [List.getElem?_eq_getElem hk, List.getElem?_eq_getElem (by omega)] at this ⊢
      exact congrArg some this
    · rw [List.getElem?_eq_none (by omega), List.getElem?_eq_none (by omega)]
  have x1 : rps' = A.rowPtrs.map (· ++ [0]) := by
    refine ext _ _ (by simp [g2, hl]) ?_
    intro k hk
    rw [(g4 k (by omega)).1, if_pos (by omega)]
    simp [List.getD_eq_getElem?_getD, show k < A.rowPtrs.length by omega]
  have x2 : cis' = A.colInds := by
    refine ext _ _ g3 ?_
    intro k hk
    rw [(g4 k (by omega)).2, if_pos (by omega)]
  rw [x1, x2]
  simp

theorem vequal_self {β : Type} [DecidableEq β] (l m : List β) (N : Nat) (h : N ≤ l.length) :
    vequal N l (l.take N ++ m) = .ok true := by
  unfold vequal
  rw [readN_ok h, Res.ok_bind, readN_ok (by simp; omega), Res.ok_bind]
  have : (l.take N ++ m).take N = l.take N := by
    rw [List.take_append_of_le_length (by simp; omega), List.take_take, Nat.min_self]
  rw [this]
  simp

theorem allEqual_append (X : List (List Nat)) (t : List Nat) : allEqual X (X.map (· ++ t)) = .ok true := by
  induction X with
  | nil => rfl
  | cons x X ih =>
    have := vequal_self x t x.length (Nat.le_refl _)
    rw [List.take_length] at this
    rw [List.map_cons, allEqual, this, Res.ok_bind, if_pos rfl, ih]

theorem allEqual_self (X : List (List Nat)) : allEqual X X = .ok true := by
  have := allEqual_append X []
  simpa using this

/-- the extra entry of a copied row pointer contributes no element -/
theorem crsSlice_copy (A : TCrs α) (d : Nat) (hd : d < A.rowPtrs.length)
    (s : List (List Nat) × List α × Nat) :
    TCoo.crsSlice { A with rowPtrs := A.rowPtrs.map (· ++ [0]) } d s = TCoo.crsSlice A d s := by
  unfold TCoo.crsSlice
  dsimp only
  cases hu : TCoo.slicePos A.shape d with
  | ok up =>
    rw [Res.ok_bind, Res.ok_bind, getD_rd (by simpa using hd) [], Res.ok_bind, getD_rd hd [], Res.ok_bind]
    have e : (A.rowPtrs.map (· ++ [0])).getD d [] = A.rowPtrs.getD d [] ++ [0] := by
      simp [List.getD_eq_getElem?_getD, hd]
    rw [e]
    set rp := A.rowPtrs.getD d []
    cases hc : rd A.colInds d with
    | ok ci =>
      rw [Res.ok_bind, Res.ok_bind]
      rcases Nat.eq_zero_or_pos rp.length with h0 | h0
      · have : rp = [] := List.eq_nil_of_length_eq_zero h0
        rw [this]; rfl
      · obtain ⟨m, hm⟩ : ∃ m, rp.length = m + 1 := ⟨rp.length - 1, by omega⟩
        have hrd : ∀ i, i < rp.length → rd (rp ++ [0]) i = rd rp i := by
          intro i hi
          unfold rd
          rw [List.getElem?_append_left hi]
        rw [List.length_append, hm]
        show forFrom 0 (m + 1) _ s = forFrom 0 m _ s
        rw [forFrom_add 0 m 1]
        have hcong : ∀ (lo n : Nat), lo + n ≤ m → ∀ s, forFrom lo n (fun i s => do
              let lo ← rd (rp ++ [0]) i
              let hi ← rd (rp ++ [0]) (i + 1)
              forRange lo hi (TCoo.crsElem { A with rowPtrs := A.rowPtrs.map (· ++ [0]) } 0 up i ci) s) s =
            forFrom lo n (fun i s => do
              let lo ← rd rp i
              let hi ← rd rp (i + 1)
              forRange lo hi (TCoo.crsElem A 0 up i ci) s) s := by
          intro lo n
          induction n generalizing lo with
          | zero => intros; rfl
          | succ n ih =>
            intro h s
            rw [forFrom_succ, forFrom_succ, hrd _ (by omega), hrd _ (by omega)]
            congr 1
            funext s'
            exact ih (lo + 1) (by omega) s'
        rw [hcong 0 m (by omega)]
        have hlast : ∀ s', forFrom (0 + m) 1 (fun i s => do
              let lo ← rd (rp ++ [0]) i
              let hi ← rd (rp ++ [0]) (i + 1)
              forRange lo hi (TCoo.crsElem { A with rowPtrs := A.rowPtrs.map (· ++ [0]) } 0 up i ci) s) s' =
            .ok s' := by
          intro s'
          rw [forFrom_succ, hrd _ (by omega), rd_ok (by omega : 0 + m < rp.length), Res.ok_bind]
          have : rd (rp ++ [0]) (0 + m + 1) = .ok 0 := by
            rw [rd_eq_ok, List.getElem?_append_right (by omega)]
            have : 0 + m + 1 - rp.length = 0 := by omega
            rw [this]; rfl
          rw [this, Res.ok_bind, forRange_empty _ _ (Nat.zero_le _), Res.ok_bind, forFrom_zero]
        cases forFrom 0 m (fun i s => do
              let lo ← rd rp i
              let hi ← rd rp (i + 1)
              forRange lo hi (TCoo.crsElem A 0 up i ci) s) s with
        | ok s' => exact hlast s'
        | throw _ => rfl
        | abort _ => rfl
        | ub _ => rfl
    | throw _ => rfl
    | abort _ => rfl
    | ub _ => rfl
  | throw _ => rfl
  | abort _ => rfl
  | ub _ => rfl

theorem forFrom_congr' {σ : Type} {f g : Nat → σ → Res σ} : ∀ (n lo : Nat),
    (∀ i s, lo ≤ i → i < lo + n → f i s = g i s) → ∀ s, forFrom lo n f s = forFrom lo n g s
  | 0, _, _, _ => rfl
  | n + 1, lo, h, s => by
    rw [forFrom_succ, forFrom_succ, h lo s (Nat.le_refl _) (by omega)]
    congr 1
    funext s'
    exact forFrom_congr' n (lo + 1) (fun i s h1 h2 => h i s (by omega) (by omega)) s'

theorem convertCrs_copy [Zero α] (A : TCrs α) (hl : A.colInds.length = A.rowPtrs.length) (T : TCoo α) :
    TCoo.convertCrs T { A with rowPtrs := A.rowPtrs.map (· ++ [0]) } = TCoo.convertCrs T A := by
  unfold TCoo.convertCrs
  dsimp only
  congr 1
  funext T'
  split
  · rfl
  · have : ∀ s, forN A.colInds.length (TCoo.crsSlice { A with rowPtrs := A.rowPtrs.map (· ++ [0]) }) s =
        forN A.colInds.length (TCoo.crsSlice A) s := by
      intro s
      exact forFrom_congr' _ _ (fun i s _ h => crsSlice_copy A i (by omega) s) s
    rw [this]

/-- forgetting reserved capacity -/
theorem Tiled.shrink {us : List Nat} {R C : Nat} {A : TCrs α} (hA : A.Tiled us R C) (hf : A.first = 0) :
    ({ A with val := A.val.take A.nnz, alloc := A.nnz } : TCrs α).Tiled us R C ∧
      ∀ d, d < volume us → ({ A with val := A.val.take A.nnz, alloc := A.nnz } : TCrs α).slice R C d =
        A.slice R C d := by
  have hs : ∀ d, d < volume us → ({ A with val := A.val.take A.nnz, alloc := A.nnz } : TCrs α).slice R C d =
        A.slice R C d := by
    intro d hd
    have hot := offset_le (T := A) (n := volume us) (by rw [hA.lenC]) (d + 1) hd
    rw [hA.total, offset_succ (by rw [hA.lenC]; exact hd)] at hot
    unfold slice
    congr 1
    show ((A.val.take A.nnz).drop (A.first + A.offset d)).take _ = _
    rw [hf, List.drop_take, List.take_take]
    congr 1
    dsimp only
    omega
  have := hA.window
  have := hA.lenV
  refine ⟨⟨hA.shape, hA.lenP, hA.lenC, hA.total, by simp; omega, by dsimp only; omega, ?_⟩, hs⟩
  intro d hd
  rw [hs d hd]
  exact hA.tiled d hd

theorem elems_congr {us : List Nat} {R C : Nat} {A B : TCrs α} :
    ∀ n, (∀ d, d < n → A.slice R C d = B.slice R C d) → elems us R C A n = elems us R C B n
  | 0, _ => rfl
  | n + 1, h => by
    rw [elems_succ, elems_succ, elems_congr n (fun d hd => h d (by omega)), h n (by omega)]

end TCrs

/-- **C50 (copy).** Copying a well-formed `tensor_CRS` succeeds; the copy has the shape and the number of
elements of the original, its value buffer is exactly the stored values, and converting the copy and the
original to coordinates (into any tensor) gives the same elements. The original compares equal to the
copy. -/
theorem C50_copy [Zero α] [DecidableEq α] (us : List Nat) (R C : Nat) (A : TCrs α) (hA : A.Tiled us R C)
    (hf : A.first = 0) :
    ∃ B, A.copy = .ok B ∧ B.shape = A.shape ∧ B.nnz = A.nnz ∧ B.val = A.val.take A.nnz ∧
      B.colInds = A.colInds ∧ A.equal B = .ok true ∧
      ∀ T : TCoo α, T.WF → ∃ X Y, TCoo.convertCrs T A = .ok X ∧ TCoo.convertCrs T B = .ok Y ∧
        X.entries = Y.entries ∧ X.shape = Y.shape := by
  have hl : A.colInds.length = A.rowPtrs.length := by rw [hA.lenC, hA.lenP]
  have hw := hA.window
  have hv := hA.lenV
  refine ⟨_, TCrs.copy_ok hl (by omega), rfl, rfl, rfl, rfl, ?_, ?_⟩
  · unfold TCrs.equal
    have := TCrs.vequal_self A.val [] A.nnz (by omega)
    rw [List.append_nil] at this
    rw [if_neg (by simp), this, Res.ok_bind, if_pos rfl, TCrs.allEqual_self, Res.ok_bind, if_pos rfl,
      TCrs.allEqual_append]
  · intro T hT
    obtain ⟨h1, h2⟩ := hA.shrink hf
    obtain ⟨X, x1, x2, x3, x4, x5⟩ := TCoo.convertCrs_ok hA hT
    obtain ⟨Y, y1, y2, y3, y4, y5⟩ := TCoo.convertCrs_ok h1 hT
    refine ⟨X, Y, x1, ?_, ?_, by rw [x3, y3]⟩
    · rw [← y1]
      have := TCrs.convertCrs_copy ({ A with val := A.val.take A.nnz, alloc := A.nnz } : TCrs α) hl T
      rw [← this]
      unfold TCoo.convertCrs
      dsimp only
      congr 1
      funext T'
      split
      · rfl
      · have : ∀ s, forN A.colInds.length (TCoo.crsSlice
            { shape := A.shape, rowPtrs := A.rowPtrs.map (· ++ [0]), colInds := A.colInds,
              val := A.val.take A.nnz, nnz := A.nnz, alloc := A.nnz, first := 0, created := true }) s =
          forN A.colInds.length (TCoo.crsSlice
            { A with rowPtrs := A.rowPtrs.map (· ++ [0]), val := A.val.take A.nnz, alloc := A.nnz }) s := by
          intro s
          refine TCrs.forFrom_congr' _ _ (fun i s _ h => ?_) s
          unfold TCoo.crsSlice TCoo.crsElem
          dsimp only
          rw [hf]
        rw [this]
    · rw [x5, y5]
      exact TCrs.elems_congr _ (fun d hd => (h2 d hd).symm)

/-- the hypotheses are met by a tensor of rank 3 with two slices -/
example : ∃ A : TCrs Int, TCrs.ofCoo (TCoo.ofZ [2, 2, 2] [([0, 0, 1], 4), ([1, 1, 0], 5)] 2) = .ok A ∧
    A.Tiled [2] 2 2 ∧ A.first = 0 ∧ A.colInds = [[1], [0]] := by
  obtain ⟨A, h1, h2, _⟩ := C47_convert [2] 2 2
    (TCoo.ofZ [2, 2, 2] [([0, 0, 1], (4 : Int)), ([1, 1, 0], 5)] 2) ⟨rfl, rfl, rfl, by decide⟩ rfl (by
      intro e he
      simp [TCoo.entries, TCoo.ofZ] at he
      rcases he with rfl | rfl <;>
        exact List.Forall₂.cons (by decide) (List.Forall₂.cons (by decide)
          (List.Forall₂.cons (by decide) List.Forall₂.nil))) (by unfold SortedT; decide)
  cases h1.symm.trans (show TCrs.ofCoo _ = .ok _ from rfl)
  exact ⟨_, rfl, h2, rfl, rfl⟩

/-- **C50 (violated: equality is not symmetric on copies).** For every well-formed `tensor_CRS` with at
least one slice, comparing its copy with it reads past the end of the original's row pointers. -/
theorem C50_copy_equal_violated [Zero α] [DecidableEq α] (us : List Nat) (R C : Nat) (A B : TCrs α)
    (hA : A.Tiled us R C) (hpos : 0 < volume us) (hcopy : A.copy = .ok B) :
    ∃ e, B.equal A = .ub e := by
  have hl : A.colInds.length = A.rowPtrs.length := by rw [hA.lenC, hA.lenP]
  have hw := hA.window
  have hv := hA.lenV
  rw [TCrs.copy_ok hl (by omega)] at hcopy
  cases hcopy
  unfold TCrs.equal
  have e1 : TCrs.vequal A.nnz (A.val.take A.nnz) A.val = .ok true := by
    unfold TCrs.vequal
    rw [readN_ok (by simp; omega), Res.ok_bind, readN_ok (by omega), Res.ok_bind]
    simp
  rw [if_neg (by simp), e1, Res.ok_bind, if_pos rfl, TCrs.allEqual_self, Res.ok_bind, if_pos rfl]
  cases hr : A.rowPtrs with
  | nil => rw [← hA.lenP, hr] at hpos; exact absurd hpos (by simp)
  | cons x X =>
    dsimp only
    rw [List.map_cons, TCrs.allEqual]
    refine ⟨"copy reads out of bounds", ?_⟩
    have : TCrs.vequal (x ++ [0]).length (x ++ [0]) x = .ub "copy reads out of bounds" := by
      unfold TCrs.vequal
      rw [readN_ok (Nat.le_refl _), Res.ok_bind]
      simp [readN]
    rw [this]; rfl

end Verif
