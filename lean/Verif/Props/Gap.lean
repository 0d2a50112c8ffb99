import Verif.Lemmas.Gap
import Mathlib.Tactic.Choose

/-!
C103: how far the residual a solver reports can be from the true residual, in floating-point arithmetic.
-/

namespace Verif.Gap

open Verif.Spec Verif.Solver

variable {F : Type} [Zero F] [Add F] [Mul F] {R : Rounding F} {N : Num F} {n : Nat}

omit [Zero F] [Add F] [Mul F] in
theorem of_cassert {p : Prop} [Decidable p] {u : Unit} (h : cassert (decide p) = .ok u) : p := by
  unfold cassert at h
  split at h
  · next h1 => exact of_decide_eq_true h1
  · cases h

omit [Zero F] [Add F] [Mul F] in
theorem axpy_ok {a : F} {x y z : List F} (h : N.axpy a x y = .ok z) :
    x.length = y.length ∧ z = List.zipWith (fun u v => N.add (N.mul a u) v) x y := by
  unfold Num.axpy at h
  obtain ⟨_, h1, h⟩ := Res.bind_eq_ok.mp h
  cases h
  exact ⟨of_cassert h1, rfl⟩

omit [Zero F] [Add F] [Mul F] in
theorem vsub_ok {x y z : List F} {nz : Nat} (h : N.vsub x y nz = .ok z) :
    x.length = y.length ∧ z = List.zipWith N.sub x y := by
  unfold Num.vsub at h
  obtain ⟨_, h1, h⟩ := Res.bind_eq_ok.mp h
  cases h
  exact ⟨(of_cassert h1).1, rfl⟩

/-- a sequence of coupled updates -/
theorem coupled (hN : RoundedNum R N) (hu : R.u ≤ 1 / 8) {A : Mat F} {M Ma : Matrix (Fin n) (Fin n) ℝ} {γ τ : ℝ}
    (hA : RoundedMat R A M Ma γ τ) {b : List F} (hb : b.length = n) (xs rs ps qs : Nat → List F) (as : Nat → F) (k : Nat)
    (hx : (xs 0).length = n) (hs : ∀ j, j < k → A.mv (ps j) = .ok (qs j) ∧ N.axpy (as j) (ps j) (xs j) = .ok (xs (j + 1)) ∧
      N.axpy (N.neg (as j)) (qs j) (rs j) = .ok (rs (j + 1)))
    (h0 : ∃ q, A.mv (xs 0) = .ok q ∧ N.vsub b q A.row = .ok (rs 0))
    (fx : AllFinite R (xs k)) (fr : AllFinite R (rs k)) {X Y : Fin n → ℝ} {a : ℝ} (ha : 0 ≤ a)
    (bx : ∀ j, j ≤ k → ∀ i, |vals R n (xs j) i| ≤ X i) (br : ∀ j, j ≤ k → ∀ i, |vals R n (rs j) i| ≤ Y i)
    (ba : ∀ j, j < k → |R.val (as j)| ≤ a) (i : Fin n) :
    |vals R n b i - ∑ l, M i l * vals R n (xs k) l - vals R n (rs k) i| ≤ (k + 1) * loss R Ma γ τ X Y a i + τ := by
  obtain ⟨q0, hq0, hr0⟩ := h0
  obtain ⟨lq, er⟩ := vsub_ok hr0
  have len : ∀ j, j ≤ k → (xs j).length = n ∧ (rs j).length = n := by
    intro j
    induction j with
    | zero => intro _; rw [er]; simp [hx, ← lq, hb]
    | succ j ih =>
      intro hj
      obtain ⟨l1, l2⟩ := ih (by omega)
      obtain ⟨h1, h4, h5⟩ := hs j hj
      obtain ⟨e4, h4⟩ := axpy_ok h4
      obtain ⟨e5, h5⟩ := axpy_ok h5
      rw [h4, h5]
      simp [e4, e5, l1, l2]
  have one : ∀ m, m < k → AllFinite R (xs (m + 1)) → AllFinite R (rs (m + 1)) →
      AllFinite R (xs m) ∧ AllFinite R (rs m) ∧
      |gap R M b (xs (m + 1)) (rs (m + 1)) i - gap R M b (xs m) (rs m) i| ≤ loss R Ma γ τ X Y a i := by
    intro m hm f1 f2
    obtain ⟨h1, h4, h5⟩ := hs m hm
    obtain ⟨e4, h4⟩ := axpy_ok h4
    obtain ⟨e5, h5⟩ := axpy_ok h5
    obtain ⟨l1, l2⟩ := len m (by omega)
    have := update (b := b) hN hu hA (by omega) l1 l2 h1 h4 h5 f1 f2 (bx m (by omega)) (bx (m + 1) (by omega))
      (br m (by omega)) (br (m + 1) (by omega)) (ba m hm)
    exact ⟨this.1, this.2.1, this.2.2 i⟩
  have main : ∀ m, m ≤ k → AllFinite R (xs m) ∧ AllFinite R (rs m) := by
    intro m hm
    induction hd : k - m generalizing m with
    | zero =>
      have : m = k := by omega
      subst this
      exact ⟨fx, fr⟩
    | succ d ih =>
      obtain ⟨f1, f2⟩ := ih (m + 1) (by omega) (by omega)
      have := one m (by omega) f1 f2
      exact ⟨this.1, this.2.1⟩
  have first := start (α := a) hN hu hA (X := X) (Y := Y) hx hb hq0 er (main 0 (by omega)).2 (bx 0 (by omega))
    (br 0 (by omega)) ha i
  have all : ∀ m : Nat, m ≤ k → |gap R M b (xs m) (rs m) i| ≤ (m + 1) * loss R Ma γ τ X Y a i + τ := by
    intro m
    induction m with
    | zero => intro _; simpa using first
    | succ m ih =>
      intro hm
      have h1 := ih (by omega)
      obtain ⟨f1, f2⟩ := main (m + 1) hm
      have h2 := (one m hm f1 f2).2.2
      have := abs_add_le (gap R M b (xs m) (rs m) i) (gap R M b (xs (m + 1)) (rs (m + 1)) i - gap R M b (xs m) (rs m) i)
      rw [add_sub_cancel] at this
      push_cast
      linarith
  exact all k le_rfl

omit [Zero F] [Add F] [Mul F] in
/-- one iteration of CG: a coupled update -/
theorem cg_step {A : Mat F} {pc : List F → Res (List F)} {s s' : CG.St F} (h : CG.step N A pc s = .ok s') :
    ∃ q tmp pq, A.mv s.p = .ok q ∧ N.dot s.z s.r = .ok tmp ∧ N.dot s.p q = .ok pq ∧
      N.axpy (N.div tmp pq) s.p s.x = .ok s'.x ∧ N.axpy (N.neg (N.div tmp pq)) q s.r = .ok s'.r := by
  unfold CG.step at h
  obtain ⟨q, h1, h⟩ := Res.bind_eq_ok.mp h
  obtain ⟨tmp, h2, h⟩ := Res.bind_eq_ok.mp h
  obtain ⟨pq, h3, h⟩ := Res.bind_eq_ok.mp h
  obtain ⟨x, h4, h⟩ := Res.bind_eq_ok.mp h
  obtain ⟨r, h5, h⟩ := Res.bind_eq_ok.mp h
  obtain ⟨z, h6, h⟩ := Res.bind_eq_ok.mp h
  obtain ⟨zr, h7, h⟩ := Res.bind_eq_ok.mp h
  obtain ⟨p, h8, h⟩ := Res.bind_eq_ok.mp h
  cases h
  exact ⟨q, tmp, pq, h1, h2, h3, h4, h5⟩

/-- the lengths along a run -/
theorem cg_len {A : Mat F} {M Ma : Matrix (Fin n) (Fin n) ℝ} {γ τ : ℝ} (hA : RoundedMat R A M Ma γ τ)
    {pc : List F → Res (List F)} {x b : List F} (hx : x.length = n) (hb : b.length = n) {s : Nat → CG.St F} {k : Nat}
    (h0 : CG.init N A pc x b = .ok (s 0)) (hs : ∀ j, j < k → CG.step N A pc (s j) = .ok (s (j + 1))) :
    ∀ j, j ≤ k → (s j).x.length = n ∧ (s j).r.length = n := by
  intro j
  induction j with
  | zero =>
    intro _
    unfold CG.init at h0
    obtain ⟨q, h1, h0⟩ := Res.bind_eq_ok.mp h0
    obtain ⟨r, h2, h0⟩ := Res.bind_eq_ok.mp h0
    obtain ⟨z, h3, h0⟩ := Res.bind_eq_ok.mp h0
    obtain ⟨p, h4, h0⟩ := Res.bind_eq_ok.mp h0
    have e := Res.ok.inj h0
    obtain ⟨l1, l2⟩ := vsub_ok h2
    rw [← e]
    refine ⟨hx, ?_⟩
    show r.length = n
    rw [l2]
    simp [hb, ← l1]
  | succ j ih =>
    intro hj
    obtain ⟨l1, l2⟩ := ih (by omega)
    obtain ⟨q, tmp, pq, h1, _, _, h4, h5⟩ := cg_step (hs j hj)
    obtain ⟨e4, h4⟩ := axpy_ok h4
    obtain ⟨e5, h5⟩ := axpy_ok h5
    rw [h4, h5]
    simp [e4, e5, l1, l2]

/-- **C103 (runs of CG)**: along a run of `k` iterations of CG in floating-point arithmetic with finite results,
the residual the recurrence maintains differs from the true residual of the approximation by at most
`(k+1) loss + τ`. -/
theorem C103_gap (hN : RoundedNum R N) (hu : R.u ≤ 1 / 8) {A : Mat F} {M Ma : Matrix (Fin n) (Fin n) ℝ} {γ τ : ℝ}
    (hA : RoundedMat R A M Ma γ τ) {pc : List F → Res (List F)} {x b : List F} (hx : x.length = n)
    (hb : b.length = n) (s : Nat → CG.St F) (k : Nat) (h0 : CG.init N A pc x b = .ok (s 0))
    (hs : ∀ j, j < k → CG.step N A pc (s j) = .ok (s (j + 1)))
    (fx : AllFinite R (s k).x) (fr : AllFinite R (s k).r) {X Y : Fin n → ℝ} {a : ℝ} (ha : 0 ≤ a)
    (bx : ∀ j, j ≤ k → ∀ i, |vals R n (s j).x i| ≤ X i) (br : ∀ j, j ≤ k → ∀ i, |vals R n (s j).r i| ≤ Y i)
    (ba : ∀ j q zr pq, j < k → A.mv (s j).p = .ok q → N.dot (s j).z (s j).r = .ok zr → N.dot (s j).p q = .ok pq →
      |R.val (N.div zr pq)| ≤ a) (i : Fin n) :
    |vals R n b i - ∑ l, M i l * vals R n (s k).x l - vals R n (s k).r i| ≤ (k + 1) * loss R Ma γ τ X Y a i + τ := by
  have init : (s 0).x = x ∧ ∃ q, A.mv x = .ok q ∧ N.vsub b q A.row = .ok (s 0).r := by
    unfold CG.init at h0
    obtain ⟨q, h1, h0⟩ := Res.bind_eq_ok.mp h0
    obtain ⟨r, h2, h0⟩ := Res.bind_eq_ok.mp h0
    obtain ⟨z, h3, h0⟩ := Res.bind_eq_ok.mp h0
    obtain ⟨p, h4, h0⟩ := Res.bind_eq_ok.mp h0
    have e := Res.ok.inj h0
    rw [← e]
    exact ⟨rfl, q, h1, h2⟩
  obtain ⟨ex, q0, hq0, hr0⟩ := init
  have ch : ∀ j, ∃ qa : List F × F, j < k → A.mv (s j).p = .ok qa.1 ∧ N.axpy qa.2 (s j).p (s j).x = .ok (s (j + 1)).x ∧
      N.axpy (N.neg qa.2) qa.1 (s j).r = .ok (s (j + 1)).r ∧ |R.val qa.2| ≤ a := by
    intro j
    by_cases hj : j < k
    · obtain ⟨q, tmp, pq, h1, h2, h3, h4, h5⟩ := cg_step (hs j hj)
      exact ⟨(q, N.div tmp pq), fun _ => ⟨h1, h4, h5, ba j q tmp pq hj h1 h2 h3⟩⟩
    · exact ⟨([], 0), fun h => absurd h hj⟩
  choose qa hqa using ch
  exact coupled hN hu hA hb (fun j => (s j).x) (fun j => (s j).r) (fun j => (s j).p) (fun j => (qa j).1)
    (fun j => (qa j).2) k (by rw [ex, hx]) (fun j hj => ⟨(hqa j hj).1, (hqa j hj).2.1, (hqa j hj).2.2.1⟩)
    ⟨q0, by rw [ex]; exact hq0, hr0⟩ fx fr ha bx br (fun j hj => (hqa j hj).2.2.2) i

/-- the loop of CG returns the state of one of its iterations -/
theorem cg_loop {cfg : Cfg F} {A : Mat F} {pc : List F → Res (List F)} {out : Out F} :
    ∀ (m iter : Nat) (s : CG.St F), iter + m = cfg.maxiter → CG.loop N cfg A pc m iter s = .ok out →
      ∃ (t : Nat → CG.St F) (k : Nat), out.finalIter = iter + k ∧ t 0 = s ∧
        (∀ j, j < k → CG.step N A pc (t j) = .ok (t (j + 1))) ∧ out.x = (t k).x ∧ out.finalResid = N.nrm2 (t k).r := by
  have res : ∀ {r : List F} {fr : F}, getResidual N cfg r = .ok fr → fr = N.nrm2 r := by
    intro r fr h
    unfold getResidual at h
    split at h
    · cases h; rfl
    · cases h
  intro m
  induction m with
  | zero =>
    intro iter s hm h
    unfold CG.loop atMaxiter at h
    obtain ⟨fr, h1, h⟩ := Res.bind_eq_ok.mp h
    cases h
    exact ⟨fun _ => s, 0, by simp at hm ⊢; omega, rfl, fun j hj => absurd hj (by omega), rfl, res h1⟩
  | succ m ih =>
    intro iter s hm h
    unfold CG.loop at h
    obtain ⟨s1, h1, h⟩ := Res.bind_eq_ok.mp h
    obtain ⟨rr, h2, h⟩ := Res.bind_eq_ok.mp h
    obtain ⟨o, h3, h⟩ := Res.bind_eq_ok.mp h
    cases o with
    | none =>
      obtain ⟨t, k, e1, e2, e3, e4, e5⟩ := ih (iter + 1) s1 (by omega) h
      refine ⟨fun j => if j = 0 then s else t (j - 1), k + 1, by omega, by simp, ?_, by simpa using e4, by simpa using e5⟩
      intro j hj
      cases j with
      | zero => simpa [e2] using h1
      | succ j => simpa using e3 j (by omega)
    | some o =>
      have eo : o = out := by injection h
      subst eo
      unfold stopCheck at h3
      have : o.finalIter = iter + 1 ∧ o.x = s1.x ∧ o.finalResid = N.nrm2 s1.r := by
        split at h3
        · obtain ⟨fr, h4, h3⟩ := Res.bind_eq_ok.mp h3
          cases h3
          exact ⟨rfl, rfl, res h4⟩
        · split at h3
          · obtain ⟨fr, h4, h3⟩ := Res.bind_eq_ok.mp h3
            cases h3
            exact ⟨rfl, rfl, res h4⟩
          · cases h3
      refine ⟨fun j => if j = 0 then s else s1, 1, this.1, by simp, ?_, by simpa using this.2.1, by simpa using this.2.2⟩
      intro j hj
      have : j = 0 := by omega
      subst this
      simpa using h1

/-- **C103 (CG)**: what `CG::solve` leaves in `x` and reports as the final residual are the approximation and the
norm of the maintained residual after `get_final_iter()` iterations; if they are finite, the maintained residual
differs from the true residual `b - A x` by at most `(k+1) loss + τ`, whatever code the solver returned. -/
theorem C103_cg (hN : RoundedNum R N) (hu : R.u ≤ 1 / 8) {A : Mat F} {M Ma : Matrix (Fin n) (Fin n) ℝ} {γ τ : ℝ}
    (hA : RoundedMat R A M Ma γ τ) {pc : List F → Res (List F)} {x b : List F} (hx : x.length = n)
    (hb : b.length = n) {cfg : Cfg F} (hl : cfg.lib = 0) {out : Out F}
    (h : CG.solve N cfg A (.ok pc) x b = .ok out) :
    ∃ s : Nat → CG.St F, CG.init N A pc x b = .ok (s 0) ∧
      (∀ j, j < out.finalIter → CG.step N A pc (s j) = .ok (s (j + 1))) ∧
      out.x = (s out.finalIter).x ∧ out.finalResid = N.nrm2 (s out.finalIter).r ∧
      (AllFinite R out.x → AllFinite R (s out.finalIter).r → ∀ (X Y : Fin n → ℝ) (a : ℝ), 0 ≤ a →
        (∀ j, j ≤ out.finalIter → ∀ i, |vals R n (s j).x i| ≤ X i) →
        (∀ j, j ≤ out.finalIter → ∀ i, |vals R n (s j).r i| ≤ Y i) →
        (∀ j q zr pq, j < out.finalIter → A.mv (s j).p = .ok q → N.dot (s j).z (s j).r = .ok zr →
          N.dot (s j).p q = .ok pq → |R.val (N.div zr pq)| ≤ a) →
        ∀ i, |vals R n b i - ∑ l, M i l * vals R n out.x l - vals R n (s out.finalIter).r i| ≤
          (out.finalIter + 1) * loss R Ma γ τ X Y a i + τ) := by
  unfold CG.solve at h
  rw [if_pos hl] at h
  unfold CG.monolish at h
  split at h
  · cases h
  · obtain ⟨pc', h1, h⟩ := Res.bind_eq_ok.mp h
    cases h1
    obtain ⟨s0, h1, h⟩ := Res.bind_eq_ok.mp h
    obtain ⟨t, k, e1, e2, e3, e4, e5⟩ := cg_loop _ _ _ (by omega) h
    rw [Nat.zero_add] at e1
    rw [e1]
    refine ⟨t, by rw [e2]; exact h1, e3, e4, e5, ?_⟩
    intro fx fr X Y a ha bx br ba i
    rw [e4] at fx ⊢
    exact C103_gap hN hu hA hx hb t k (by rw [e2]; exact h1) e3 fx fr ha bx br ba i

end Verif.Gap
