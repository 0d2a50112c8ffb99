import Verif.Props.Machine

/-!
C99, continued: CRS.
-/

namespace Verif.Machine

open Verif.Spec

variable {α : Type}

theorem SmallCrs.idxP {A : Crs α} (h : SmallCrs A) : Idx A.rowPtr (mcrs A).rowPtr := ⟨rfl, h.ptrs⟩
theorem SmallCrs.idxC {A : Crs α} (h : SmallCrs A) : Idx A.colInd (mcrs A).colInd := ⟨rfl, h.cols⟩

theorem crs_resize_sim {A : Crs α} (h : SmallCrs A) (n : Nat) (hn : n ≤ 2147483647) (v : α) :
    SameOutcome (fun B M => IsCrs B M ∧ B.rowN = A.rowN ∧ B.colN = A.colN ∧ B.rowPtr = A.rowPtr ∧
      B.colInd = A.colInd ∧ B.nnz = n) (A.resize n v) ((mcrs A).resize n v) := by
  unfold Crs.resize MCrs.resize
  refine sim_ite Iff.rfl (fun _ => ?_) (fun _ => sim_ite Iff.rfl (fun _ => ?_) (fun _ => rfl))
  · refine sim_bind (sim_refl _) (fun a b hab => ?_)
    subst hab
    exact ⟨⟨rfl, h.row, h.col, hn, h.ptrs, h.cols⟩, rfl, rfl, rfl, rfl, rfl⟩
  · refine sim_bind (sim_refl _) (fun a b hab => ?_)
    subst hab
    exact ⟨⟨rfl, h.row, h.col, hn, h.ptrs, h.cols⟩, rfl, rfl, rfl, rfl, rfl⟩

/-! ### Conversion from COO -/

def ConvRel (s : Nat × List Nat) (t : Nat × List Int) : Prop := t.1 = s.1 ∧ s.1 ≤ 2147483647 ∧ Idx s.2 t.2

theorem convStep_sim {rowIdx : List Nat} {rowIdx' : List Int} (hI : Idx rowIdx rowIdx') (i : Nat)
    (hi : i + 1 ≤ 2147483647) (s : Nat × List Nat) (t : Nat × List Int) (h : ConvRel s t) :
    SameOutcome ConvRel (Crs.convStep rowIdx i s) (MCrs.convStep rowIdx' i t) := by
  obtain ⟨c, rp⟩ := s
  obtain ⟨c', rp'⟩ := t
  obtain ⟨e1, e2, h⟩ := h
  dsimp only at e1 e2 h
  subst e1
  unfold Crs.convStep MCrs.convStep
  dsimp only
  rw [toInt_small e2, toInt_small hi, toInt_small (show i ≤ 2147483647 by omega)]
  refine sim_bind (hI.rd i) (fun r r' hr => ?_)
  obtain ⟨er, hr, _⟩ := hr
  subst er
  rw [toSize_small hr]
  refine sim_ite (by omega) (fun _ => ?_) (fun _ => ?_)
  · refine sim_bind (h.wr _ hi) (fun q q' hq => ?_)
    exact ⟨rfl, e2, hq.1⟩
  · refine sim_bind (sim_forRange (R := Idx) (fun j p p' _ _ hp => ?_) h) (fun q q' hq => ?_)
    · exact sim_mono (hp.wr _ (by omega)) (fun _ _ h => h.1)
    · refine sim_bind (hq.wr _ hi) (fun q q' hq => ?_)
      exact ⟨rfl, hr, hq.1⟩

/-- **C99, COO to CRS** -/
theorem C99_convert_crs [Zero α] {A : Crs α} (hA : SmallCrs A) {coo : Coo α} (h : SmallCoo coo) :
    SameOutcome IsCrs (A.convertCoo coo) ((mcrs A).convertCoo (mcoo coo)) := by
  unfold Crs.convertCoo MCrs.convertCoo
  refine sim_bind (crs_resize_sim (A := { A with rowN := coo.rowN, colN := coo.colN, created := true })
    ⟨h.row, h.col, hA.nnz, hA.ptrs, hA.cols⟩ coo.nnz h.nnz 0) (fun B M ⟨⟨hM, hB⟩, e1, e2, _, _, e5⟩ => ?_)
  subst hM
  refine sim_bind (sim_refl _) (fun v v' hv => ?_)
  subst hv
  refine sim_bind (((SmallCrs.idxP hB).resize (B.rowN + 1)).wr 0 (a := 0) (by omega)) (fun rp rp' hrp => ?_)
  have hl : SameOutcome ConvRel (forN coo.nnz (Crs.convStep coo.rowIdx) (0, rp))
      (forN coo.nnz (MCrs.convStep (mcoo coo).rowIdx) (0, rp')) :=
    sim_forN (R := fun _ => ConvRel) (fun i s t hi hst => convStep_sim (SmallCoo.idxR h) i
      (by have := h.nnz; omega) s t hst) ⟨rfl, by show 0 ≤ _; omega, hrp.1⟩
  refine sim_bind hl (fun s t hst => ?_)
  obtain ⟨c, rp⟩ := s
  obtain ⟨c', rp'⟩ := t
  obtain ⟨_, _, hrp⟩ := hst
  dsimp only at hrp ⊢
  refine ⟨?_, hB.row, hB.col, hB.nnz, hrp.2, h.cols⟩
  rw [hrp.1]
  rfl

/-! ### Conversion to COO -/

def CooRel (s : List Nat × List Nat × List α) (t : List Int × List Int × List α) : Prop :=
  Idx s.1 t.1 ∧ Idx s.2.1 t.2.1 ∧ t.2.2 = s.2.2

/-- **C99, CRS to COO** -/
theorem C99_convert_coo [Zero α] {A : Coo α} (hA : SmallCoo A) {crs : Crs α} (h : SmallCrs crs) :
    SameOutcome IsCoo (A.convertCrs crs) ((mcoo A).convertCrs (mcrs crs)) := by
  unfold Coo.convertCrs MCoo.convertCrs
  refine sim_bind (sim_and (resize_sim (A := { A with rowN := crs.rowN, colN := crs.colN, created := true })
    ⟨h.row, h.col, hA.nnz, hA.rows, hA.cols⟩ crs.nnz h.nnz 0) (P := fun B => B.rowN = crs.rowN) ?_)
    (fun B M ⟨⟨hM, hB⟩, e1⟩ => ?_)
  · intro B hB
    unfold Coo.resize at hB
    rw [if_pos rfl] at hB
    obtain ⟨v, _, hB⟩ := Res.bind_eq_ok.1 hB
    cases hB
    rfl
  subst hM
  have hrow := h.row
  have hl : SameOutcome CooRel (forN B.rowN (fun i s => do
        let a ← rd crs.rowPtr i
        let b ← rd crs.rowPtr (i + 1)
        forRange a b (Coo.fromCrsElem crs i) s) (stdResize B.rowIdx crs.nnz 0, stdResize B.colIdx crs.nnz 0, B.val))
      (forN B.rowN (fun i s => do
        let a ← rd (mcrs crs).rowPtr i
        let b ← rd (mcrs crs).rowPtr (i + 1)
        forRange (toSize a) (toSize b) (MCoo.fromCrsElem (mcrs crs) i) s)
        (stdResize (mcoo B).rowIdx crs.nnz 0, stdResize (mcoo B).colIdx crs.nnz 0, B.val)) := by
    refine sim_forN (R := fun _ => CooRel) (fun i s t hi hst => ?_)
      ⟨(SmallCoo.idxR hB).resize _, (SmallCoo.idxC hB).resize _, rfl⟩
    refine sim_bind ((SmallCrs.idxP h).rd i) (fun a a' ha => ?_)
    refine sim_bind ((SmallCrs.idxP h).rd (i + 1)) (fun b b' hb => ?_)
    rw [ha.1, hb.1, toSize_small ha.2.1, toSize_small hb.2.1]
    refine sim_forRange (R := CooRel) (fun j s t _ _ hst => ?_) hst
    obtain ⟨r, c, v⟩ := s
    obtain ⟨r', c', v'⟩ := t
    obtain ⟨hr, hc, e⟩ := hst
    dsimp only at hr hc e
    subst e
    unfold Coo.fromCrsElem MCoo.fromCrsElem
    dsimp only
    rw [toInt_small (show i ≤ 2147483647 by omega)]
    refine sim_bind (hr.wr j (by omega)) (fun r r' hr => ?_)
    refine sim_bind ((SmallCrs.idxC h).rd j) (fun x x' hx => ?_)
    rw [hx.1]
    refine sim_bind (hc.wr j hx.2.1) (fun c c' hc => ?_)
    refine sim_bind (sim_refl _) (fun y y' hy => ?_)
    subst hy
    refine sim_bind (sim_refl _) (fun y y' hy => ?_)
    subst hy
    exact ⟨hr.1, hc.1, rfl⟩
  refine sim_bind hl (fun s t hst => ?_)
  obtain ⟨r, c, v⟩ := s
  obtain ⟨r', c', v'⟩ := t
  obtain ⟨hr, hc, e⟩ := hst
  dsimp only at hr hc e ⊢
  subst e
  refine ⟨?_, hB.row, hB.col, hB.nnz, hr.2, hc.2⟩
  rw [hr.1, hc.1]
  rfl

/-! ### Matrix-vector product -/

theorem rowDot_sim [Zero α] [Add α] [Mul α] {A : Crs α} (h : SmallCrs A) (x : Win α) (i : Nat) :
    SameOutcome (fun a b => a = b) (A.rowDot x i) ((mcrs A).rowDot x i) := by
  unfold Crs.rowDot MCrs.rowDot
  refine sim_bind ((SmallCrs.idxP h).rd i) (fun a a' ha => ?_)
  refine sim_bind ((SmallCrs.idxP h).rd (i + 1)) (fun b b' hb => ?_)
  rw [ha.1, hb.1]
  refine sim_forI (R := fun a b => a = b) (fun j s t _ _ hst => ?_) rfl
  subst hst
  rw [rdI_nat, rdI_nat]
  refine sim_bind (sim_refl _) (fun v v' hv => ?_)
  subst hv
  refine sim_bind ((SmallCrs.idxC h).rd j) (fun c c' hc => ?_)
  rw [hc.1, if_neg (by omega), Int.toNat_natCast]
  refine sim_bind (sim_refl _) (fun y y' hy => ?_)
  subst hy
  rfl

/-- **C99, matvec**: for every schedule of the parallel loop -/
theorem C99_matvec [Zero α] [One α] [Add α] [Mul α] {A : Crs α} (h : SmallCrs A) (order : List Nat)
    (x y : Win α) : SameOutcome (fun a b => a = b) (A.matvec order x y) ((mcrs A).matvec order x y) := by
  unfold Crs.matvec Crs.matvecCore MCrs.matvec
  rw [if_neg Bool.false_ne_true]
  refine sim_bind (sim_assert _ _) (fun _ _ _ => ?_)
  refine sim_bind (sim_assert _ _) (fun _ _ _ => ?_)
  refine sim_bind (sim_forList (R := fun a b => a = b) (fun i s t hst => ?_) rfl) (fun b b' hb => ?_)
  · subst hst
    refine sim_bind (rowDot_sim h x i) (fun a b hab => ?_)
    subst hab
    exact sim_refl _
  · subst hb
    rfl

/-! ### Transpose -/

theorem sum_set_succ {l : List Nat} {c x : Nat} (h : l[c]? = some x) : (l.set c (x + 1)).sum = l.sum + 1 := by
  induction l generalizing c with
  | nil => cases h
  | cons a l ih =>
    cases c with
    | zero =>
      cases h
      simp only [List.set_cons_zero, List.sum_cons]
      omega
    | succ c =>
      have := ih (c := c) (by simpa using h)
      simp only [List.set_cons_succ, List.sum_cons, this]
      omega

theorem drop_set_self (l : List Nat) (i x : Nat) : (l.set i x).drop (i + 1) = l.drop (i + 1) := by
  rw [List.drop_set, if_pos (by omega)]

theorem sum_drop {l : List Nat} {i x : Nat} (h : l[i]? = some x) :
    (l.drop i).sum = x + (l.drop (i + 1)).sum := by
  obtain ⟨hi, rfl⟩ := List.getElem?_eq_some_iff.1 h
  rw [List.drop_eq_getElem_cons hi, List.sum_cons]

theorem le_sum {l : List Nat} {x : Nat} (h : x ∈ l) : x ≤ l.sum := by
  induction l with
  | nil => cases h
  | cons a l ih =>
    rw [List.sum_cons]
    rcases List.mem_cons.1 h with rfl | h
    · omega
    · have := ih h; omega

theorem trCount_sim {colInd : List Nat} {colInd' : List Int} (hC : Idx colInd colInd') (i : Nat)
    (hi : i + 1 ≤ 2147483647) (rp : List Nat) (rp' : List Int) (h : Idx rp rp' ∧ rp.sum ≤ i) :
    SameOutcome (fun q q' => Idx q q' ∧ q.sum ≤ i + 1) (Crs.trCount colInd i rp) (MCrs.trCount colInd' i rp') := by
  unfold Crs.trCount MCrs.trCount
  refine sim_bind (hC.rd i) (fun c c' hc => ?_)
  rw [hc.1]
  simp only [rdI_nat, wrI_nat]
  refine sim_bind (h.1.rd c) (fun x x' hx => ?_)
  have hle := le_sum (List.mem_of_getElem? hx.2.2.2)
  have h2 := h.2
  rw [hx.1, chk_ok (by omega) (by omega), Res.ok_bind,
    show (x : Int) + 1 = ((x + 1 : Nat) : Int) by omega]
  refine sim_mono (h.1.wr c (by omega)) (fun q q' hq => ⟨hq.1, ?_⟩)
  rw [hq.2.2, sum_set_succ hx.2.2.2]
  omega

def PrefRel (n i : Nat) (s : Nat × List Nat) (t : Nat × List Int) : Prop :=
  t.1 = s.1 ∧ s.1 + (s.2.drop i).sum ≤ n ∧ Idx s.2 t.2

theorem trPrefix_sim {n : Nat} (hn : n ≤ 2147483647) (i : Nat) (s : Nat × List Nat) (t : Nat × List Int)
    (h : PrefRel n i s t) : SameOutcome (PrefRel n (i + 1)) (Crs.trPrefix i s) (MCrs.trPrefix i t) := by
  obtain ⟨a, rp⟩ := s
  obtain ⟨a', rp'⟩ := t
  obtain ⟨e, hs, h⟩ := h
  dsimp only at e hs h
  subst e
  unfold Crs.trPrefix MCrs.trPrefix
  dsimp only
  refine sim_bind (h.rd i) (fun x x' hx => ?_)
  have hd := sum_drop hx.2.2.2
  rw [hx.1, toSize_small hx.2.1, toInt_small (show a' ≤ 2147483647 by omega)]
  refine sim_bind (h.wr i (by omega)) (fun q q' hq => ?_)
  refine ⟨?_, ?_, hq.1⟩
  · show (a' + x) % 18446744073709551616 = a' + x
    omega
  · show a' + x + (q.drop (i + 1)).sum ≤ n
    rw [hq.2.2, drop_set_self]
    omega

def ScatRel (s : List Nat × List Nat × List α) (t : List Int × List Int × List α) : Prop :=
  Idx s.1 t.1 ∧ Idx s.2.1 t.2.1 ∧ s.2.1.length ≤ 2147483647 ∧ t.2.2 = s.2.2

theorem trScatter_sim {B : Crs α} (hB : SmallCrs B) (i j : Nat) (hi : i ≤ 2147483647)
    (s : List Nat × List Nat × List α) (t : List Int × List Int × List α) (h : ScatRel s t) :
    SameOutcome ScatRel (Crs.trScatter B i j s) (MCrs.trScatter (mcrs B) i j t) := by
  obtain ⟨rp, ci, v⟩ := s
  obtain ⟨rp', ci', v'⟩ := t
  obtain ⟨hr, hc, hl, e⟩ := h
  dsimp only at hr hc hl e
  subst e
  unfold Crs.trScatter MCrs.trScatter
  dsimp only
  simp only [rdI_nat]
  refine sim_bind ((SmallCrs.idxC hB).rd j) (fun c c' hcc => ?_)
  rw [hcc.1]
  simp only [rdI_nat]
  refine sim_bind (hr.rd c) (fun d d' hd => ?_)
  rw [hd.1]
  simp only [wrI_nat]
  refine sim_bind (hc.wr d hi) (fun q q' hq => ?_)
  refine sim_bind (sim_refl _) (fun b b' hb => ?_)
  subst hb
  refine sim_bind (sim_refl _) (fun w w' hw => ?_)
  subst hw
  have hlt := hq.2.1
  rw [chk_ok (by omega) (by omega), Res.ok_bind, show (d : Int) + 1 = ((d + 1 : Nat) : Int) by omega]
  refine sim_bind (hr.wr c (by omega)) (fun p p' hp => ?_)
  refine ⟨hp.1, hq.1, ?_, rfl⟩
  show q.length ≤ _
  rw [hq.2.2, List.length_set]
  exact hl

theorem trRow_sim {B : Crs α} (hB : SmallCrs B) (i : Nat) (hi : i + 1 ≤ 2147483647)
    (s : List Nat × List Nat × List α) (t : List Int × List Int × List α) (h : ScatRel s t) :
    SameOutcome ScatRel (Crs.trRow B i s) (MCrs.trRow (mcrs B) i t) := by
  unfold Crs.trRow MCrs.trRow
  rw [rdI_nat, chk_ok (by omega) (by omega)]
  simp only [Res.ok_bind]
  rw [show (i : Int) + 1 = ((i + 1 : Nat) : Int) by omega, rdI_nat]
  refine sim_bind ((SmallCrs.idxP hB).rd i) (fun a a' ha => ?_)
  refine sim_bind ((SmallCrs.idxP hB).rd (i + 1)) (fun b b' hb => ?_)
  rw [ha.1, hb.1]
  exact sim_forI (R := ScatRel) (fun j s t _ _ hst => trScatter_sim hB i j (by omega) s t hst) h

def ShiftRel (s : Nat × List Nat) (t : Nat × List Int) : Prop := t.1 = s.1 ∧ s.1 ≤ 2147483647 ∧ Idx s.2 t.2

theorem trShift_sim (i : Nat) (s : Nat × List Nat) (t : Nat × List Int) (h : ShiftRel s t) :
    SameOutcome ShiftRel (Crs.trShift i s) (MCrs.trShift i t) := by
  obtain ⟨a, rp⟩ := s
  obtain ⟨a', rp'⟩ := t
  obtain ⟨e, hs, h⟩ := h
  dsimp only at e hs h
  subst e
  unfold Crs.trShift MCrs.trShift
  dsimp only
  refine sim_bind (h.rd i) (fun x x' hx => ?_)
  rw [hx.1, toSize_small hx.2.1, toInt_small hs]
  refine sim_bind (h.wr i hs) (fun q q' hq => ?_)
  exact ⟨rfl, hx.2.1, hq.1⟩

theorem trCore_sim {A B : Crs α} (hA : SmallCrs A) (hB : SmallCrs B) (hp : A.rowPtr.length = B.colN + 1)
    (hc : A.colInd.length ≤ 2147483647) :
    SameOutcome IsCrs (Crs.trCore A B) (MCrs.trCore (mcrs A) (mcrs B)) := by
  unfold Crs.trCore MCrs.trCore
  have hz : Idx (List.replicate (B.colN + 1) 0) (List.replicate (B.colN + 1) 0) := by
    refine ⟨by simp, fun x hx => ?_⟩
    rw [List.eq_of_mem_replicate hx]; omega
  have hann := hA.nnz
  have hbnn := hB.nnz
  have hbrow := hB.row
  refine sim_bind (sim_and (hz.vcopy (SmallCrs.idxP hA) _) (P := fun l => l.sum = 0) ?_) (fun rp rp' hrp => ?_)
  · intro a ha
    unfold Verif.vcopy at ha
    rw [if_pos (by simp), if_pos (by omega)] at ha
    cases ha
    rw [List.drop_eq_nil_of_le (by omega)]
    simp
  have h1 := sim_forN (R := fun i q q' => Idx q q' ∧ q.sum ≤ i) (n := A.nnz)
    (fun i q q' hi hq => trCount_sim (SmallCrs.idxC hB) i (by omega) q q' hq) (s := rp) (t := rp')
    ⟨hrp.1, by rw [hrp.2]⟩
  refine sim_bind h1 (fun rp rp' hrp => ?_)
  have h2 := sim_forN (R := PrefRel A.nnz) (n := B.colN)
    (fun i s t _ hst => trPrefix_sim hann i s t hst) (s := (0, rp)) (t := (0, rp'))
    ⟨rfl, by show 0 + (rp.drop 0).sum ≤ _; rw [List.drop_zero]; omega, hrp.1⟩
  refine sim_bind h2 (fun s t hst => ?_)
  obtain ⟨a, rp⟩ := s
  obtain ⟨a', rp'⟩ := t
  obtain ⟨_, _, hrp⟩ := hst
  dsimp only at hrp ⊢
  rw [show toInt (mcrs B).nnz = (B.nnz : Int) from toInt_small hbnn,
    show toInt (mcrs B).rowN = (B.rowN : Int) from toInt_small hbrow]
  refine sim_bind (hrp.wr _ hbnn) (fun rp rp' hrp => ?_)
  have h3 := sim_forI (R := ScatRel) (lo := 0) (hi := B.rowN)
    (fun i s t _ hi hst => trRow_sim hB i (by omega) s t hst) (s := (rp, A.colInd, A.val))
    (t := (rp', (mcrs A).colInd, A.val)) ⟨hrp.1, SmallCrs.idxC hA, hc, rfl⟩
  refine sim_bind h3 (fun s t hst => ?_)
  obtain ⟨rp, ci, v⟩ := s
  obtain ⟨rp', ci', v'⟩ := t
  obtain ⟨hr, hci, _, e⟩ := hst
  dsimp only at hr hci e ⊢
  subst e
  have h4 := sim_forN (R := fun _ => ShiftRel) (n := B.colN)
    (fun i s t _ hst => trShift_sim i s t hst) (s := (0, rp)) (t := (0, rp'))
    ⟨rfl, by show 0 ≤ _; omega, hr⟩
  refine sim_bind h4 (fun s t hst => ?_)
  obtain ⟨a, rp⟩ := s
  obtain ⟨a', rp'⟩ := t
  obtain ⟨_, _, hrp⟩ := hst
  dsimp only at hrp ⊢
  refine ⟨?_, hA.row, hA.col, hA.nnz, hrp.2, hci.2⟩
  rw [hrp.1, hci.1]
  rfl

/-- **C99, transpose** -/
theorem C99_transpose [Zero α] {A : Crs α} (h : SmallCrs A) :
    SameOutcome IsCrs A.transpose (mcrs A).transpose := by
  unfold Crs.transpose MCrs.transpose
  have hof : SameOutcome (fun B M => IsCrs B M ∧ B.rowN = A.rowN ∧ B.colN = A.colN ∧ B.nnz = A.nnz)
      (Crs.ofArrays A.rowN A.colN A.nnz A.rowPtr A.colInd A.val)
      (MCrs.ofArrays A.rowN A.colN A.nnz (mcrs A).rowPtr (mcrs A).colInd A.val) := by
    unfold Crs.ofArrays Crs.new MCrs.ofArrays
    have hres := crs_resize_sim (A := { (Crs.empty : Crs α) with
        rowN := A.rowN
        colN := A.colN
        rowPtr := stdResize [] (A.rowN + 1) 0
        colInd := stdResize [] A.nnz 0 })
      ⟨h.row, h.col, by show 0 ≤ _; omega, (Idx.nil.resize _).2, (Idx.nil.resize _).2⟩ A.nnz h.nnz 0
    have em : mcrs { (Crs.empty : Crs α) with
        rowN := A.rowN
        colN := A.colN
        rowPtr := stdResize [] (A.rowN + 1) 0
        colInd := stdResize [] A.nnz 0 } = { (MCrs.empty : MCrs α) with
        rowN := A.rowN
        colN := A.colN
        rowPtr := stdResize [] (A.rowN + 1) 0
        colInd := stdResize [] A.nnz 0 } := by
      unfold mcrs
      simp [stdResize, MCrs.empty, Crs.empty]
    rw [em] at hres
    refine sim_bind hres (fun B M ⟨⟨hM, hB⟩, e1, e2, _, _, e5⟩ => ?_)
    subst hM
    refine sim_bind ((SmallCrs.idxP h).vcopy (SmallCrs.idxP hB) _) (fun rp rp' hrp => ?_)
    refine sim_bind ((SmallCrs.idxC h).vcopy (SmallCrs.idxC hB) _) (fun ci ci' hci => ?_)
    refine sim_bind (sim_refl _) (fun v v' hv => ?_)
    subst hv
    refine ⟨⟨?_, hB.row, hB.col, hB.nnz, hrp.2, hci.2⟩, e1, e2, e5⟩
    rw [hrp.1, hci.1]
    rfl
  refine sim_bind hof (fun B M ⟨⟨hM, hB⟩, e1, e2, e3⟩ => ?_)
  subst hM
  have hp := (SmallCrs.idxP h).resize (B.colN + 1)
  have hc := (SmallCrs.idxC h).resize B.nnz
  have key := trCore_sim (A := { A with rowN := B.colN, colN := B.rowN, rowPtr := stdResize A.rowPtr (B.colN + 1) 0, colInd := stdResize A.colInd B.nnz 0 })
    ⟨hB.col, hB.row, h.nnz, hp.2, hc.2⟩ hB (by simp) (by simpa using hB.nnz)
  have e : ({ mcrs A with rowN := B.colN, colN := B.rowN, rowPtr := stdResize (mcrs A).rowPtr (B.colN + 1) 0, colInd := stdResize (mcrs A).colInd B.nnz 0 } : MCrs α) =
    mcrs { A with rowN := B.colN, colN := B.rowN, rowPtr := stdResize A.rowPtr (B.colN + 1) 0, colInd := stdResize A.colInd B.nnz 0 } := by
    rw [hp.1, hc.1]
    rfl
  rw [← e] at key
  exact key

/-- a matrix that meets the hypotheses -/
example : SmallCrs { (Crs.empty : Crs Int) with rowN := 2, colN := 3, rowPtr := [0, 1, 2],
                                                colInd := [1, 2], val := [8, 7], nnz := 2, alloc := 2 } := by
  constructor <;> decide

end Verif.Machine
