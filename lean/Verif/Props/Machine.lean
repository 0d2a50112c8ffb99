import Verif.Lemmas.Machine

/-!
C99: the 32-bit index types of the code.
-/

namespace Verif.Machine

open Verif.Spec

variable {α : Type}

/-! ### COO -/

theorem SmallCoo.idxR {A : Coo α} (h : SmallCoo A) : Idx A.rowIdx (mcoo A).rowIdx := ⟨rfl, h.rows⟩
theorem SmallCoo.idxC {A : Coo α} (h : SmallCoo A) : Idx A.colIdx (mcoo A).colIdx := ⟨rfl, h.cols⟩

theorem resize_sim {A : Coo α} (h : SmallCoo A) (n : Nat) (hn : n ≤ 2147483647) (v : α) :
    SameOutcome IsCoo (A.resize n v) ((mcoo A).resize n v) := by
  unfold Coo.resize MCoo.resize
  refine sim_ite Iff.rfl (fun _ => ?_) (fun _ => rfl)
  refine sim_bind (sim_refl _) (fun a b hab => ?_)
  subst hab
  have hr := (SmallCoo.idxR h).resize n
  have hc := (SmallCoo.idxC h).resize n
  refine ⟨?_, h.row, h.col, hn, hr.2, hc.2⟩
  unfold mcoo
  dsimp only
  rw [← hr.1, ← hc.1]
  rfl

/-- **C99, insert** -/
theorem C99_insert [Zero α] {A : Coo α} (h : SmallCoo A) (hn : A.nnz + 1 ≤ 2147483647) (m n : Nat) (v : α) :
    SameOutcome IsCoo (A.insert m n v) ((mcoo A).insert m n v) := by
  unfold Coo.insert MCoo.insert
  refine sim_ite Iff.rfl (fun _ => ?_) (fun _ => rfl)
  refine sim_bind (sim_and (sim_assert _ _) (P := fun _ => m ≤ A.rowN) ?_) (fun _ _ hm => ?_)
  · intro a ha
    by_contra hc
    rw [decide_eq_false hc] at ha
    cases ha
  refine sim_bind (sim_and (sim_assert _ _) (P := fun _ => n ≤ A.colN) ?_) (fun _ _ hn' => ?_)
  · intro a ha
    by_contra hc
    rw [decide_eq_false hc] at ha
    cases ha
  have hm := hm.2
  have hn' := hn'.2
  have hrow := h.row
  have hcol := h.col
  have tail : ∀ (B : Coo α), B.nnz = A.nnz → B.rowN = A.rowN → B.colN = A.colN →
      (∀ r ∈ B.rowIdx, r ≤ 2147483647) → (∀ c ∈ B.colIdx, c ≤ 2147483647) →
      SameOutcome IsCoo (do
        let r ← wr B.rowIdx B.nnz m
        let c ← wr B.colIdx B.nnz n
        let v ← wr B.val B.nnz v
        .ok { B with rowIdx := r, colIdx := c, val := v, nnz := B.nnz + 1 })
      (do
        let r ← wr (mcoo B).rowIdx (mcoo B).nnz (toInt m)
        let c ← wr (mcoo B).colIdx (mcoo B).nnz (toInt n)
        let v ← wr (mcoo B).val (mcoo B).nnz v
        .ok { mcoo B with rowIdx := r, colIdx := c, val := v, nnz := (mcoo B).nnz + 1 }) := by
    intro B e1 e2 e3 e4 e5
    rw [toInt_small (show m ≤ 2147483647 by omega), toInt_small (show n ≤ 2147483647 by omega)]
    refine sim_bind (Idx.wr (m := (mcoo B).rowIdx) ⟨rfl, e4⟩ B.nnz (by omega)) (fun r r' hr => ?_)
    refine sim_bind (Idx.wr (m := (mcoo B).colIdx) ⟨rfl, e5⟩ B.nnz (by omega)) (fun c c' hc => ?_)
    refine sim_bind (sim_refl _) (fun w w' hw => ?_)
    subst hw
    refine ⟨?_, ?_, ?_, ?_, hr.1.2, hc.1.2⟩
    · unfold mcoo
      dsimp only
      rw [← hr.1.1, ← hc.1.1]
    · show B.rowN ≤ _; omega
    · show B.colN ≤ _; omega
    · show B.nnz + 1 ≤ _; omega
  refine sim_ite Iff.rfl (fun _ => ?_) (fun _ => tail A rfl rfl rfl h.rows h.cols)
  have hres : SameOutcome (fun (B : Coo α) (M : MCoo α) => M = mcoo B ∧ B.rowN = A.rowN ∧
      B.colN = A.colN ∧ (∀ r ∈ B.rowIdx, r ≤ 2147483647) ∧ ∀ c ∈ B.colIdx, c ≤ 2147483647)
      (Coo.resize { A with alloc := 2 * A.alloc + 1 } (2 * A.alloc + 1) 0)
      (MCoo.resize { mcoo A with alloc := 2 * A.alloc + 1 } (2 * A.alloc + 1) 0) := by
    unfold Coo.resize MCoo.resize
    refine sim_ite Iff.rfl (fun _ => ?_) (fun _ => rfl)
    refine sim_bind (sim_refl _) (fun a b hab => ?_)
    subst hab
    have hr := (SmallCoo.idxR h).resize (2 * A.alloc + 1)
    have hc := (SmallCoo.idxC h).resize (2 * A.alloc + 1)
    refine ⟨?_, rfl, rfl, hr.2, hc.2⟩
    unfold mcoo
    dsimp only
    rw [← hr.1, ← hc.1]
    rfl
  refine sim_bind hres (fun B M ⟨e, e2, e3, e4, e5⟩ => ?_)
  subst e
  exact tail { B with nnz := A.nnz } rfl e2 e3 e4 e5

/-- **C99, at**: for the places that the matrix has -/
theorem C99_at [Zero α] {A : Coo α} (h : SmallCoo A) (i j : Nat) :
    SameOutcome (fun a b => a = b) (A.at_ i j) ((mcoo A).at_ i j) := by
  unfold Coo.at_ MCoo.at_
  refine sim_bind (sim_and (sim_assert _ _) (P := fun _ => i ≤ A.rowN) ?_) (fun _ _ hi => ?_)
  · intro a ha
    by_contra hc
    rw [decide_eq_false hc] at ha
    cases ha
  refine sim_bind (sim_and (sim_assert _ _) (P := fun _ => j ≤ A.colN) ?_) (fun _ _ hj => ?_)
  · intro a ha
    by_contra hc
    rw [decide_eq_false hc] at ha
    cases ha
  have hi := hi.2
  have hj := hj.2
  have hrow := h.row
  have hcol := h.col
  show SameOutcome _ (Coo.atScan A i j A.nnz) (MCoo.atScan (mcoo A) i j A.nnz)
  generalize A.nnz = k
  induction k with
  | zero => rfl
  | succ k ih =>
    unfold Coo.atScan MCoo.atScan
    rw [toInt_small (show i ≤ 2147483647 by omega), toInt_small (show j ≤ 2147483647 by omega)]
    refine sim_bind ((SmallCoo.idxR h).rd k) (fun r r' hr => ?_)
    rw [hr.1]
    refine sim_ite (by omega) (fun _ => ?_) (fun _ => ih)
    refine sim_bind ((SmallCoo.idxC h).rd k) (fun c c' hc => ?_)
    rw [hc.1]
    exact sim_ite (by omega) (fun _ => sim_refl _) (fun _ => ih)

/-! ### sort -/

theorem cmpAt_sim {R C : List Nat} {R' C' : List Int} (hR : Idx R R') (hC : Idx C C') (a b : Nat) :
    SameOutcome (fun d d' => d' = d) (Coo.cmpAt R C a b) (MCoo.cmpAt R' C' a b) := by
  unfold Coo.cmpAt MCoo.cmpAt
  simp only [rdI_nat]
  refine sim_bind (hR.rd a) (fun ra ra' h1 => ?_)
  refine sim_bind (hR.rd b) (fun rb rb' h2 => ?_)
  rw [h1.1, h2.1]
  have h1 := h1.2.1
  have h2 := h2.2.1
  refine sim_ite (by omega) (fun _ => ?_) (fun _ => ?_)
  · rw [chk_ok (by omega) (by omega)]
    rfl
  · refine sim_bind (hC.rd a) (fun ca ca' h3 => ?_)
    refine sim_bind (hC.rd b) (fun cb cb' h4 => ?_)
    rw [h3.1, h4.1]
    have h3 := h3.2.1
    have h4 := h4.2.1
    rw [chk_ok (by omega) (by omega)]
    rfl

theorem scanUp_sim {R C : List Nat} {R' C' : List Int} (hR : Idx R R') (hC : Idx C C') (p h : Nat)
    (hh : h ≤ 2147483647) (n : Nat) : ∀ l : Nat, l ≤ h →
    SameOutcome (fun (k : Nat) (k' : Int) => k' = k ∧ l ≤ k ∧ k ≤ h) (Coo.scanUp R C p h n l)
      (MCoo.scanUp R' C' p h n l) := by
  induction n with
  | zero => intro l hl; exact ⟨rfl, Nat.le_refl _, hl⟩
  | succ n ih =>
    intro l hl
    unfold Coo.scanUp MCoo.scanUp
    refine sim_ite (by omega) (fun hlt => ?_) (fun _ => ⟨rfl, Nat.le_refl _, hl⟩)
    refine sim_bind (cmpAt_sim hR hC l p) (fun d d' hd => ?_)
    subst hd
    refine sim_ite Iff.rfl (fun _ => ?_) (fun _ => ⟨rfl, Nat.le_refl _, hl⟩)
    rw [chk_ok (by omega) (by omega), Res.ok_bind]
    refine sim_mono (ih (l + 1) hlt) (fun k k' hk => ⟨hk.1, by omega, hk.2.2⟩)

theorem scanDown_sim {R C : List Nat} {R' C' : List Int} (hR : Idx R R') (hC : Idx C C') (p l : Nat)
    (n : Nat) : ∀ h : Nat, l ≤ h → h ≤ 2147483647 →
    SameOutcome (fun (k : Nat) (k' : Int) => k' = k ∧ l ≤ k ∧ k ≤ h) (Coo.scanDown R C p l n h)
      (MCoo.scanDown R' C' p l n h) := by
  induction n with
  | zero => intro h hl _; exact ⟨rfl, hl, Nat.le_refl _⟩
  | succ n ih =>
    intro h hl hb
    unfold Coo.scanDown MCoo.scanDown
    refine sim_ite (by omega) (fun hlt => ?_) (fun _ => ⟨rfl, hl, Nat.le_refl _⟩)
    refine sim_bind (cmpAt_sim hR hC h p) (fun d d' hd => ?_)
    subst hd
    refine sim_ite Iff.rfl (fun _ => ?_) (fun _ => ⟨rfl, hl, Nat.le_refl _⟩)
    rw [chk_ok (by omega) (by omega), Res.ok_bind, show (h : Int) - 1 = ((h - 1 : Nat) : Int) by omega]
    refine sim_mono (ih (h - 1) (by omega) (by omega)) (fun k k' hk => ⟨hk.1, hk.2.1, by omega⟩)

theorem swapIdx_sim {R : List Nat} {R' : List Int} (hR : Idx R R') (l h : Nat) :
    SameOutcome Idx (Coo.swapBuf R l h) (MCoo.swapBuf R' l h) := by
  unfold Coo.swapBuf MCoo.swapBuf
  simp only [rdI_nat, wrI_nat]
  refine sim_bind (hR.rd l) (fun t t' h1 => ?_)
  refine sim_bind (hR.rd h) (fun u u' h2 => ?_)
  rw [h1.1, h2.1]
  refine sim_bind (hR.wr l h2.2.1) (fun b b' h3 => ?_)
  exact sim_mono (h3.1.wr h h1.2.1) (fun _ _ h => h.1)

theorem swapBuf_nat {β : Type} (b : List β) (l h : Nat) : MCoo.swapBuf b l h = Coo.swapBuf b l h := by
  unfold Coo.swapBuf MCoo.swapBuf
  simp only [rdI_nat, wrI_nat]

/-- states of the partition loop -/
def PartRel (lo hi : Nat) (s : Nat × List Nat × List Nat × List α) (t : Int × List Int × List Int × List α) :
    Prop :=
  t.1 = s.1 ∧ lo ≤ s.1 ∧ s.1 ≤ hi ∧ Idx s.2.1 t.2.1 ∧ Idx s.2.2.1 t.2.2.1 ∧ t.2.2.2 = s.2.2.2

theorem partLoop_sim (p : Nat) (n : Nat) : ∀ (l h : Nat) (R C : List Nat) (R' C' : List Int) (V : List α),
    Idx R R' → Idx C C' → l ≤ h → h ≤ 2147483647 →
    SameOutcome (PartRel l h) (Coo.partLoop p n l h R C V) (MCoo.partLoop p n l h R' C' V) := by
  induction n with
  | zero => intros; trivial
  | succ n ih =>
    intro l h R C R' C' V hR hC hl hh
    unfold Coo.partLoop MCoo.partLoop
    rw [show ((h : Int) - l).toNat = h - l by omega]
    refine sim_bind (scanUp_sim hR hC p h hh _ l hl) (fun l1 l1' ⟨e1, h1, h2⟩ => ?_)
    subst e1
    rw [show ((h : Int) - l1).toNat = h - l1 by omega]
    refine sim_bind (scanDown_sim hR hC p l1 _ h h2 hh) (fun h1 h1' ⟨e2, h3, h4⟩ => ?_)
    subst e2
    refine sim_ite (by omega) (fun hlt => ?_) (fun _ => ⟨rfl, by simpa using (by assumption), by simpa using h2, hR, hC, rfl⟩)
    refine sim_bind (swapIdx_sim hR l1 h1) (fun R1 R1' hR1 => ?_)
    refine sim_bind (swapIdx_sim hC l1 h1) (fun C1 C1' hC1 => ?_)
    rw [swapBuf_nat]
    refine sim_bind (sim_refl _) (fun V1 V1' hV => ?_)
    subst hV
    refine sim_mono (ih l1 h1 R1 C1 R1' C1' V1 hR1 hC1 h3 (by omega)) (fun s t hst => ?_)
    obtain ⟨a, b, c, d⟩ := hst
    exact ⟨a, by omega, by omega, d⟩

/-- the three buffers -/
def BufRel (s : List Nat × List Nat × List α) (t : List Int × List Int × List α) : Prop :=
  Idx s.1 t.1 ∧ Idx s.2.1 t.2.1 ∧ t.2.2 = s.2.2

theorem qSort_sim (n : Nat) : ∀ (lo hi1 : Nat) (R C : List Nat) (R' C' : List Int) (V : List α),
    Idx R R' → Idx C C' → hi1 ≤ 2147483647 →
    SameOutcome BufRel (Coo.qSort n lo hi1 R C V) (MCoo.qSort n lo ((hi1 : Int) - 1) R' C' V) := by
  induction n with
  | zero => intros; trivial
  | succ n ih =>
    intro lo hi1 R C R' C' V hR hC hh
    unfold Coo.qSort MCoo.qSort
    refine sim_ite (by omega) (fun _ => ⟨hR, hC, rfl⟩) (fun hlo => ?_)
    rw [show (hi1 : Int) - 1 = ((hi1 - 1 : Nat) : Int) by omega]
    simp only [rdI_nat]
    refine sim_bind (hR.rd _) (fun p1 p1' h1 => ?_)
    refine sim_bind (hC.rd _) (fun p2 p2' h2 => ?_)
    refine sim_bind (sim_refl _) (fun p3 p3' h3 => ?_)
    subst h3
    rw [show (((hi1 - 1 : Nat) : Int) + 1 - lo).toNat = hi1 - lo by omega]
    refine sim_bind (partLoop_sim (hi1 - 1) _ lo (hi1 - 1) R C R' C' V hR hC (by omega) (by omega))
      (fun s t hst => ?_)
    obtain ⟨l, R, C, V⟩ := s
    obtain ⟨l', R', C', V'⟩ := t
    obtain ⟨a1, a2, a3, hR, hC, a4⟩ := hst
    dsimp only at a1 a2 a3 hR hC a4 ⊢
    subst a1 a4
    simp only [rdI_nat, wrI_nat]
    refine sim_bind (hR.rd l) (fun x x' hx => ?_)
    rw [hx.1]
    refine sim_bind (hR.wr _ hx.2.1) (fun R R' hR => ?_)
    rw [h1.1]
    refine sim_bind (hR.1.wr l h1.2.1) (fun R R' hR => ?_)
    refine sim_bind (hC.rd l) (fun y y' hy => ?_)
    rw [hy.1]
    refine sim_bind (hC.wr _ hy.2.1) (fun C C' hC => ?_)
    rw [h2.1]
    refine sim_bind (hC.1.wr l h2.2.1) (fun C C' hC => ?_)
    refine sim_bind (sim_refl _) (fun z z' hz => ?_)
    subst hz
    refine sim_bind (sim_refl _) (fun V V' hV => ?_)
    subst hV
    refine sim_bind (sim_refl _) (fun V V' hV => ?_)
    subst hV
    rw [chk_ok (z := (l : Int) - lo) (by omega) (by omega),
      chk_ok (z := ((hi1 - 1 : Nat) : Int) - l) (by omega) (by omega),
      chk_ok (z := (l : Int) - 1) (by omega) (by omega), chk_ok (z := (l : Int) + 1) (by omega) (by omega)]
    simp only [Res.ok_bind]
    rw [show ((hi1 - 1 : Nat) : Int) = (hi1 : Int) - 1 by omega,
      show (l : Int) + 1 = ((l + 1 : Nat) : Int) by omega]
    refine sim_ite (by omega) (fun _ => ?_) (fun _ => ?_)
    · refine sim_bind (ih lo l R C R' C' V hR.1 hC.1 (by omega)) (fun s t hst => ?_)
      obtain ⟨b1, b2, b3⟩ := hst
      rw [b3]
      exact ih (l + 1) hi1 _ _ _ _ _ b1 b2 hh
    · refine sim_bind (ih (l + 1) hi1 R C R' C' V hR.1 hC.1 hh) (fun s t hst => ?_)
      obtain ⟨b1, b2, b3⟩ := hst
      rw [b3]
      exact ih lo l _ _ _ _ _ b1 b2 (by omega)

/-- states of the duplicate removal -/
def MergeRel (i : Nat) (s : Nat × List Nat × List Nat × List α) (t : Nat × List Int × List Int × List α) : Prop :=
  t.1 = s.1 ∧ s.1 < i ∧ Idx s.2.1 t.2.1 ∧ Idx s.2.2.1 t.2.2.1 ∧ t.2.2.2 = s.2.2.2

theorem mergeStep_sim (i : Nat) (s : Nat × List Nat × List Nat × List α)
    (t : Nat × List Int × List Int × List α) (h : MergeRel i s t) :
    SameOutcome (MergeRel (i + 1)) (Coo.mergeStep i s) (MCoo.mergeStep i t) := by
  obtain ⟨k, R, C, V⟩ := s
  obtain ⟨k', R', C', V'⟩ := t
  obtain ⟨e1, e2, hR, hC, e3⟩ := h
  dsimp only at e1 e2 hR hC e3
  subst e1 e3
  unfold Coo.mergeStep MCoo.mergeStep
  dsimp only
  refine sim_bind (hR.rd k') (fun rk rk' h1 => ?_)
  refine sim_bind (hR.rd i) (fun ri ri' h2 => ?_)
  refine sim_bind (hC.rd k') (fun ck ck' h3 => ?_)
  refine sim_bind (hC.rd i) (fun ci ci' h4 => ?_)
  rw [h1.1, h2.1, h3.1, h4.1]
  refine sim_ite (by omega) (fun _ => ?_) (fun _ => ?_)
  · refine sim_bind (hR.wr _ h2.2.1) (fun R R' hR => ?_)
    refine sim_bind (hC.wr _ h4.2.1) (fun C C' hC => ?_)
    refine sim_bind (sim_refl _) (fun v v' hv => ?_)
    subst hv
    refine sim_bind (sim_refl _) (fun V V' hV => ?_)
    subst hV
    exact ⟨rfl, by simpa using e2, hR.1, hC.1, rfl⟩
  · refine sim_bind (sim_refl _) (fun v v' hv => ?_)
    subst hv
    refine sim_bind (sim_refl _) (fun V V' hV => ?_)
    subst hV
    exact ⟨rfl, by show k' < i + 1; omega, hR, hC, rfl⟩

/-- **C99, sort**: `sort(merge)` -/
theorem C99_sort {A : Coo α} (h : SmallCoo A) (merge : Bool) :
    SameOutcome IsCoo (A.sort merge) ((mcoo A).sort merge) := by
  unfold Coo.sort MCoo.sort
  have hnnz := h.nnz
  rw [show toInt (((mcoo A).nnz + 18446744073709551615) % 18446744073709551616) = (A.nnz : Int) - 1 by
    show toInt ((A.nnz + 18446744073709551615) % 18446744073709551616) = _
    unfold toInt
    rw [Int.bmod_def]
    split <;> omega]
  refine sim_bind (qSort_sim (A.nnz + 1) 0 A.nnz _ _ _ _ A.val (SmallCoo.idxR h) (SmallCoo.idxC h) hnnz)
    (fun s t hst => ?_)
  obtain ⟨R, C, V⟩ := s
  obtain ⟨R', C', V'⟩ := t
  obtain ⟨hR, hC, e⟩ := hst
  dsimp only at hR hC e ⊢
  subst e
  refine sim_ite Iff.rfl (fun _ => ?_) (fun _ => ?_)
  · have hm : SameOutcome (MergeRel (1 + (A.nnz - 1))) (forRange 1 A.nnz Coo.mergeStep (0, R, C, V'))
        (forRange 1 A.nnz MCoo.mergeStep (0, R', C', V')) :=
      sim_forFrom (R := MergeRel) (fun i s t _ _ hst => mergeStep_sim i s t hst)
        ⟨rfl, Nat.zero_lt_one, hR, hC, rfl⟩
    refine sim_bind hm (fun s t hst => ?_)
    obtain ⟨k, R, C, V⟩ := s
    obtain ⟨k', R', C', V'⟩ := t
    obtain ⟨e1, e2, hR, hC, e3⟩ := hst
    dsimp only at e1 e2 hR hC e3 ⊢
    subst e1 e3
    refine ⟨?_, h.row, h.col, ?_, hR.2, hC.2⟩
    · rw [hR.1, hC.1]
      rfl
    · show k' + 1 ≤ _
      omega
  · refine ⟨?_, h.row, h.col, h.nnz, hR.2, hC.2⟩
    rw [hR.1, hC.1]
    rfl

/-- a matrix that meets the hypotheses -/
example : SmallCoo (⟨2, 3, [1, 0], [2, 1], [7, 8], 2, 2, true⟩ : Coo Int) := by
  constructor <;> decide

end Verif.Machine
