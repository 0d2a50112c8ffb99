import Verif.Props.SolverDev

/-!
C107, continued: the SOR kernels overwrite their vector without reading it first; CRS and Dense matrices.
-/

set_option linter.constructorNameAsVariable false

namespace Verif.Solver.Dev

open Verif.Solver

variable {α : Type} {N : Num α} {gpu : Bool}

/-! ### Loops that keep the length -/

theorem wr_len {l l' : List α} {i : Nat} {v : α} (h : wr l i v = .ok l') : l'.length = l.length := by
  unfold wr at h
  split at h
  · cases h
    simp
  · cases h

theorem forFrom_len {body : Nat → List α → Res (List α)}
    (hb : ∀ i l l', body i l = .ok l' → l'.length = l.length) :
    ∀ (n lo : Nat) (l l' : List α), forFrom lo n body l = .ok l' → l'.length = l.length
  | 0, _, l, l', h => by cases h; rfl
  | n + 1, lo, l, l', h => by
    obtain ⟨l1, h1, h⟩ := Res.bind_eq_ok.mp h
    rw [forFrom_len hb n _ _ _ h, hb _ _ _ h1]

theorem forN_len {body : Nat → List α → Res (List α)}
    (hb : ∀ i l l', body i l = .ok l' → l'.length = l.length) {n : Nat} {l l' : List α}
    (h : forN n body l = .ok l') : l'.length = l.length := forFrom_len hb n 0 l l' h

theorem forDown_len {body : Nat → List α → Res (List α)}
    (hb : ∀ i l l', body i l = .ok l' → l'.length = l.length) :
    ∀ (n : Nat) (l l' : List α), forDown n body l = .ok l' → l'.length = l.length
  | 0, l, l', h => by cases h; rfl
  | n + 1, l, l', h => by
    obtain ⟨l1, h1, h⟩ := Res.bind_eq_ok.mp h
    rw [forDown_len hb n _ _ h, hb _ _ _ h1]

theorem forList_len {ι : Type} {body : ι → List α → Res (List α)}
    (hb : ∀ i l l', body i l = .ok l' → l'.length = l.length) :
    ∀ (is : List ι) (l l' : List α), forList is body l = .ok l' → l'.length = l.length
  | [], l, l', h => by cases h; rfl
  | i :: is, l, l', h => by
    obtain ⟨l1, h1, h⟩ := Res.bind_eq_ok.mp h
    rw [forList_len hb is _ _ h, hb _ _ _ h1]

/-! ### Loops that overwrite -/

theorem forFrom_overwrite {L : Nat} {body : Nat → List α → Res (List α)}
    (hb : ∀ i x x', x.length = L → x'.length = L → (∀ k, k < i → x[k]? = x'[k]?) →
      ∃ r : Res α, body i x = (r >>= fun v => wr x i v) ∧ body i x' = (r >>= fun v => wr x' i v)) :
    ∀ (n lo : Nat) (x x' : List α), lo + n = L → x.length = L → x'.length = L → (∀ k, k < lo → x[k]? = x'[k]?) →
      forFrom lo n body x = forFrom lo n body x'
  | 0, lo, x, x', hL, h1, h2, h => by
    have : x = x' := by
      apply List.ext_getElem? 
      intro k
      by_cases hk : k < lo
      · exact h k hk
      · rw [List.getElem?_eq_none (by omega), List.getElem?_eq_none (by omega)]
    rw [this]
  | n + 1, lo, x, x', hL, h1, h2, h => by
    obtain ⟨r, e, e'⟩ := hb lo x x' h1 h2 h
    unfold forFrom
    rw [e, e']
    cases r with
    | ok v =>
      rw [Res.ok_bind, Res.ok_bind, wr_ok (by omega), wr_ok (by omega), Res.ok_bind, Res.ok_bind]
      refine forFrom_overwrite hb n (lo + 1) _ _ (by omega) (by simp [h1]) (by simp [h2]) (fun k hk => ?_)
      by_cases hkl : k = lo
      · subst hkl
        rw [List.getElem?_set_self (by omega), List.getElem?_set_self (by omega)]
      · rw [List.getElem?_set_ne (by omega), List.getElem?_set_ne (by omega)]
        exact h k (by omega)
    | _ => rfl

theorem rd_agree {x x' : List α} {i c : Nat} (h : ∀ k, k < i → x[k]? = x'[k]?) (hc : c < i) : rd x c = rd x' c := by
  unfold rd
  rw [h c hc]

theorem crsLowerRow_agree (A : Crs α) {x x' : List α} {i : Nat} (h : ∀ k, k < i → x[k]? = x'[k]?) :
    ∀ (m j : Nat) (tmp : α), crsLowerRow N A x i m j tmp = crsLowerRow N A x' i m j tmp
  | 0, _, _ => rfl
  | m + 1, j, tmp => by
    unfold crsLowerRow
    cases rd A.colInd j with
    | ok c =>
      rw [Res.ok_bind, Res.ok_bind]
      split
      · next hc =>
        rw [rd_agree h hc]
        cases rd A.val j with
        | ok v =>
          rw [Res.ok_bind, Res.ok_bind]
          cases rd x' c with
          | ok xv => exact crsLowerRow_agree A h m _ _
          | _ => rfl
        | _ => rfl
      · rfl
    | _ => rfl

theorem forFrom_congr {σ : Type} {body body' : Nat → σ → Res σ} (h : ∀ i s, body i s = body' i s) (n lo : Nat) (s : σ) :
    forFrom lo n body s = forFrom lo n body' s := by
  have : body = body' := by
    funext i s
    exact h i s
  rw [this]

theorem forFrom_congr_lt {σ : Type} {body body' : Nat → σ → Res σ} {L : Nat} (h : ∀ i s, i < L → body i s = body' i s) :
    ∀ (n lo : Nat) (s : σ), lo + n ≤ L → forFrom lo n body s = forFrom lo n body' s
  | 0, _, _, _ => rfl
  | n + 1, lo, s, hL => by
    unfold forFrom
    rw [h lo s (by omega)]
    cases body' lo s with
    | ok s' => exact forFrom_congr_lt h n (lo + 1) s' (by omega)
    | _ => rfl

theorem crsLower_overwrite (A : Crs α) (D b : List α) {x x' : List α} (h : x.length = A.rowN) (h' : x'.length = A.rowN) :
    crsLower N A D x b = crsLower N A D x' b := by
  unfold crsLower forN
  refine forFrom_overwrite (L := A.rowN) (fun i x x' _ _ hk => ?_) _ 0 _ _ (by omega) h h' (by omega)
  refine ⟨rd b i >>= fun b0 => rd A.rowPtr i >>= fun lo => rd A.rowPtr (i + 1) >>= fun hi =>
    crsLowerRow N A x i (hi - lo) lo b0 >>= fun tmp => rd D i >>= fun d => .ok (N.mul tmp d), ?_, ?_⟩
  · simp only [res_bind_assoc, Res.ok_bind]
  · simp only [res_bind_assoc, Res.ok_bind, crsLowerRow_agree A hk]

theorem denseLower_overwrite (A : Dense α) (D b : List α) {x x' : List α} (h : x.length = A.rowN)
    (h' : x'.length = A.rowN) : denseLower N A D x b = denseLower N A D x' b := by
  unfold denseLower forN
  refine forFrom_overwrite (L := A.rowN) (fun i x x' _ _ hk => ?_) _ 0 _ _ (by omega) h h' (by omega)
  refine ⟨rd b i >>= fun b0 => forFrom 0 i (fun j tmp => rd A.val (i * A.colN + j) >>= fun v => rd x j >>= fun xv =>
    .ok (N.sub tmp (N.mul v xv))) b0 >>= fun tmp => rd D i >>= fun d => .ok (N.mul tmp d), ?_, ?_⟩
  · simp only [res_bind_assoc, Res.ok_bind]
  · have e : ∀ b0, forFrom 0 i (fun j tmp => rd A.val (i * A.colN + j) >>= fun v => rd x j >>= fun xv =>
          Res.ok (N.sub tmp (N.mul v xv))) b0 =
        forFrom 0 i (fun j tmp => rd A.val (i * A.colN + j) >>= fun v => rd x' j >>= fun xv =>
          .ok (N.sub tmp (N.mul v xv))) b0 := by
      intro b0
      refine forFrom_congr_lt (L := i) (fun j tmp hj => ?_) i 0 b0 (by omega)
      rw [rd_agree hk hj]
    simp only [res_bind_assoc, Res.ok_bind, e]

theorem crsForward_overwrite (A : Crs α) (D b : List α) {x x' : List α} (h : x.length = A.rowN) (h' : x'.length = A.rowN) :
    crsForward N A D x b = crsForward N A D x' b := by
  unfold crsForward forN
  refine forFrom_overwrite (L := A.rowN) (fun i x x' _ _ hk => ?_) _ 0 _ _ (by omega) h h' (by omega)
  have e : ∀ lo hi b0, forRange lo hi (fun j tmp => rd A.colInd j >>= fun c => if c < i then
        rd A.val j >>= fun v => rd x c >>= fun xv => Res.ok (N.sub tmp (N.mul v xv)) else .ok tmp) b0 =
      forRange lo hi (fun j tmp => rd A.colInd j >>= fun c => if c < i then
        rd A.val j >>= fun v => rd x' c >>= fun xv => Res.ok (N.sub tmp (N.mul v xv)) else .ok tmp) b0 := by
    intro lo hi b0
    unfold forRange
    refine forFrom_congr (fun j tmp => ?_) _ _ _
    cases rd A.colInd j with
    | ok c =>
      rw [Res.ok_bind, Res.ok_bind]
      split
      · next hc => rw [rd_agree hk hc]
      · rfl
    | _ => rfl
  refine ⟨rd b i >>= fun b0 => rd A.rowPtr i >>= fun lo => rd A.rowPtr (i + 1) >>= fun hi =>
    forRange lo hi (fun j tmp => rd A.colInd j >>= fun c => if c < i then
        rd A.val j >>= fun v => rd x c >>= fun xv => Res.ok (N.sub tmp (N.mul v xv)) else .ok tmp) b0 >>= fun tmp =>
      rd D i >>= fun d => .ok (N.mul tmp d), ?_, ?_⟩
  · simp only [res_bind_assoc, Res.ok_bind]
  · simp only [res_bind_assoc, Res.ok_bind, e]

/-! ### CRS and Dense matrices -/

/-- a body that ends by writing one element keeps the length -/
theorem bind_wr_len {β : Type} {r : Res β} {f : β → Res (List α)} {l l' : List α}
    (h : (r >>= f) = .ok l') (hf : ∀ b, f b = .ok l' → l'.length = l.length) : l'.length = l.length := by
  obtain ⟨b, _, h⟩ := Res.bind_eq_ok.mp h
  exact hf b h

theorem crsForward_len (A : Crs α) (D b : List α) {x l : List α} (h : crsForward N A D x b = .ok l) :
    l.length = x.length := by
  refine forN_len (fun i l l' h => ?_) h
  exact bind_wr_len h (fun _ h => bind_wr_len h (fun _ h => bind_wr_len h (fun _ h => wr_len h)))

theorem crsBackward_len (A : Crs α) (D : List α) {x l : List α} (h : crsBackward N A D x = .ok l) :
    l.length = x.length := by
  refine forDown_len (fun i l l' h => ?_) _ _ _ h
  exact bind_wr_len h (fun _ h => bind_wr_len h (fun _ h => bind_wr_len h (fun _ h => wr_len h)))

theorem denseLower_len (A : Dense α) (D b : List α) {x l : List α} (h : denseLower N A D x b = .ok l) :
    l.length = x.length := by
  refine forN_len (fun i l l' h => ?_) h
  exact bind_wr_len h (fun _ h => bind_wr_len h (fun _ h => bind_wr_len h (fun _ h => wr_len h)))

section
variable [Zero α] [One α] [Add α] [Mul α]

/-- the SOR kernels for CRS never read the old contents of the vector they overwrite -/
theorem crs_kernels (order zo : List Nat) (A : Crs α) : Kernels (crsD N order zo A) where
  lower := fun a d t t' r h h' => crsLower_overwrite { A with val := a } d r h h'
  lower_len := by
    intro a d t r l h
    refine forN_len (fun i l l' h => ?_) h
    exact bind_wr_len h (fun _ h => bind_wr_len h (fun _ h => bind_wr_len h (fun _ h => bind_wr_len h
      (fun _ h => bind_wr_len h (fun _ h => wr_len h)))))
  precond := by
    intro a M z z' r h h'
    show crsForward N { A with val := a } M z r >>= _ = crsForward N { A with val := a } M z' r >>= _
    rw [crsForward_overwrite { A with val := a } M r (x := z) (x' := z') h h']
  precond_len := by
    intro a M z r l h
    obtain ⟨l1, h1, h⟩ := Res.bind_eq_ok.mp h
    rw [crsBackward_len _ _ h, crsForward_len _ _ _ h1]

/-- the SOR kernels for Dense never read the old contents of the vector they overwrite -/
theorem dense_kernels (order : List Nat) (A : Dense α) : Kernels (denseD N order A) where
  lower := fun a d t t' r h h' => denseLower_overwrite { A with val := a } d r h h'
  lower_len := fun a d t r l h => denseLower_len _ _ _ h
  precond := by
    intro a M z z' r h h'
    show denseLower N { A with val := a } M z r >>= _ = denseLower N { A with val := a } M z' r >>= _
    rw [denseLower_overwrite { A with val := a } M r (x := z) (x' := z') h h']
  precond_len := by
    intro a M z r l h
    obtain ⟨l1, h1, h⟩ := Res.bind_eq_ok.mp h
    rw [← denseLower_len _ _ _ h1]
    refine forDown_len (fun i l l' h => ?_) _ _ _ h
    exact bind_wr_len h (fun _ h => bind_wr_len h (fun _ h => bind_wr_len h (fun _ h => wr_len h)))

theorem crs_mv_len (order zo : List Nat) (A : Crs α) (a x y : List α) (h : (crsD N order zo A).mv a x = .ok y) :
    y.length = A.rowN := by
  obtain ⟨w, h1, h⟩ := Res.bind_eq_ok.mp h
  cases h
  unfold Crs.matvec Crs.matvecCore at h1
  rw [if_neg (by simp)] at h1
  obtain ⟨_, _, h1⟩ := Res.bind_eq_ok.mp h1
  obtain ⟨_, _, h1⟩ := Res.bind_eq_ok.mp h1
  obtain ⟨b, h2, h1⟩ := Res.bind_eq_ok.mp h1
  cases h1
  show b.length = A.rowN
  rw [forList_len (fun i l l' h => bind_wr_len h (fun _ h => wr_len h)) _ _ _ h2]
  simp

theorem dense_mv_len (order : List Nat) (A : Dense α) (a x y : List α) (h : (denseD N order A).mv a x = .ok y) :
    y.length = A.rowN := by
  obtain ⟨w, h1, h⟩ := Res.bind_eq_ok.mp h
  cases h
  unfold Dense.matvecCore gemv at h1
  rw [if_neg (by simp)] at h1
  obtain ⟨_, _, h1⟩ := Res.bind_eq_ok.mp h1
  obtain ⟨_, _, h1⟩ := Res.bind_eq_ok.mp h1
  obtain ⟨b, h2, h1⟩ := Res.bind_eq_ok.mp h1
  cases h1
  show b.length = A.rowN
  rw [forN_len (fun i l l' h => bind_wr_len h (fun _ h => bind_wr_len h (fun _ h => wr_len h))) h2]
  simp

end

end Verif.Solver.Dev
