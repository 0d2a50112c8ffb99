import Verif.Props.Gap

/-!
C103: how far the residual BiCGSTAB reports can be from the true residual, in floating-point arithmetic.
-/

namespace Verif.Gap

open Verif.Spec Verif.Solver

variable {F : Type} [Zero F] [Add F] [Mul F] {R : Rounding F} {N : Num F} {n : Nat}

omit [Zero F] [Add F] [Mul F] in
theorem axpyz_ok {a : F} {x y z : List F} {nz : Nat} (h : N.axpyz a x y nz = .ok z) : N.axpy a x y = .ok z := by
  unfold Num.axpyz at h
  obtain ⟨_, h1, h⟩ := Res.bind_eq_ok.mp h
  cases h
  unfold Num.axpy
  rw [cassert_decide (of_cassert h1).1]
  rfl

omit [Zero F] [Add F] [Mul F] in
/-- the loop of BiCGSTAB returns the state of one of its iterations -/
theorem bi_loop {cfg : Cfg F} {A : Mat F} {pc : List F → Res (List F)} {r0 : List F} {out : Out F} :
    ∀ (m iter : Nat) (s : BiCG.St F), iter + m = cfg.maxiter → BiCG.loop N cfg A pc r0 m iter s = .ok out →
      ∃ (t : Nat → BiCG.St F) (h : Nat → BiMid F) (k : Nat),
        out.finalIter = (if out.status = BREAKDOWN then iter + k + 1 else iter + k) ∧ t 0 = s ∧
        (∀ j, j < k → BiStep N A pc r0 (iter + j) (t j) (h j) (t (j + 1))) ∧
        out.x = (t k).x ∧ out.finalResid = N.nrm2 (t k).r := by
  have res : ∀ {r : List F} {fr : F}, getResidual N cfg r = .ok fr → fr = N.nrm2 r := by
    intro r fr h
    unfold getResidual at h
    split at h
    · cases h; rfl
    · cases h
  intro m
  induction m with
  | zero =>
    intro iter s hm h
    unfold BiCG.loop atMaxiter at h
    obtain ⟨fr, h1, h⟩ := Res.bind_eq_ok.mp h
    cases h
    refine ⟨fun _ => s, fun _ => ⟨[], [], [], [], []⟩, 0, ?_, rfl, fun j hj => absurd hj (by omega), rfl, res h1⟩
    rw [if_neg (by simp only [MAXITER, BREAKDOWN]; decide)]
    show cfg.maxiter = _
    omega
  | succ m ih =>
    intro iter s hm h
    unfold BiCG.loop at h
    obtain ⟨rho, h1, h⟩ := Res.bind_eq_ok.mp h
    split at h
    · obtain ⟨fr, h2, h⟩ := Res.bind_eq_ok.mp h
      cases h
      exact ⟨fun _ => s, fun _ => ⟨[], [], [], [], []⟩, 0, by simp, rfl, fun j hj => absurd hj (by omega), rfl, res h2⟩
    obtain ⟨p, h2, h⟩ := Res.bind_eq_ok.mp h
    obtain ⟨phat, h3, h⟩ := Res.bind_eq_ok.mp h
    obtain ⟨v, h4, h⟩ := Res.bind_eq_ok.mp h
    obtain ⟨vr0, h5, h⟩ := Res.bind_eq_ok.mp h
    obtain ⟨sv, h6, h⟩ := Res.bind_eq_ok.mp h
    obtain ⟨shat, h7, h⟩ := Res.bind_eq_ok.mp h
    obtain ⟨t, h8, h⟩ := Res.bind_eq_ok.mp h
    obtain ⟨ts, h9, h⟩ := Res.bind_eq_ok.mp h
    obtain ⟨tt, h10, h⟩ := Res.bind_eq_ok.mp h
    dsimp only at h
    split at h
    · obtain ⟨fr, h11, h⟩ := Res.bind_eq_ok.mp h
      cases h
      exact ⟨fun _ => s, fun _ => ⟨[], [], [], [], []⟩, 0, by simp, rfl, fun j hj => absurd hj (by omega), rfl, res h11⟩
    obtain ⟨x1, h11, h⟩ := Res.bind_eq_ok.mp h
    obtain ⟨x2, h12, h⟩ := Res.bind_eq_ok.mp h
    obtain ⟨r, h13, h⟩ := Res.bind_eq_ok.mp h
    obtain ⟨rr, h14, h⟩ := Res.bind_eq_ok.mp h
    obtain ⟨o, h15, h⟩ := Res.bind_eq_ok.mp h
    have one : BiStep N A pc r0 iter s ⟨phat, x1, sv, shat, t⟩
        { x := x2, r := r, p := p, v := v, rhoOld := rho, alpha := N.div rho vr0, omega := N.div ts tt } := by
      refine ⟨h1, ?_, ?_, h3, h4, ⟨vr0, h5, rfl⟩, axpyz_ok h6, h11, h7, h8, ⟨ts, tt, h9, h10, rfl⟩, axpyz_ok h13, h12⟩
      · intro hi
        unfold BiCG.direction at h2
        rw [if_pos hi] at h2
        unfold Num.copyV at h2
        obtain ⟨_, _, h2⟩ := Res.bind_eq_ok.mp h2
        cases h2
        rfl
      · intro hi
        unfold BiCG.direction at h2
        rw [if_neg hi] at h2
        obtain ⟨p', g1, g2⟩ := Res.bind_eq_ok.mp h2
        exact ⟨p', g1, g2⟩
    cases o with
    | none =>
      obtain ⟨t', hh, k, e1, e2, e3, e4, e5⟩ := ih (iter + 1) _ (by omega) h
      refine ⟨fun j => if j = 0 then s else t' (j - 1), fun j => if j = 0 then ⟨phat, x1, sv, shat, t⟩ else hh (j - 1),
        k + 1, by rw [e1, show iter + 1 + k = iter + (k + 1) by omega], by simp, ?_, by simpa using e4, by simpa using e5⟩
      intro j hj
      cases j with
      | zero => simpa [e2] using one
      | succ j =>
        have := e3 j (by omega)
        rw [show iter + 1 + j = iter + (j + 1) by omega] at this
        simpa using this
    | some o =>
      have eo : o = out := by injection h
      subst eo
      unfold stopCheck at h15
      have : o.finalIter = iter + 1 ∧ o.status ≠ BREAKDOWN ∧ o.x = x2 ∧ o.finalResid = N.nrm2 r := by
        split at h15
        · obtain ⟨fr, h4, h3⟩ := Res.bind_eq_ok.mp h15
          cases h3
          exact ⟨rfl, by simp only [SUCCESS, BREAKDOWN]; decide, rfl, res h4⟩
        · split at h15
          · obtain ⟨fr, h4, h3⟩ := Res.bind_eq_ok.mp h15
            cases h3
            exact ⟨rfl, by simp only [RESIDUAL_NAN, BREAKDOWN]; decide, rfl, res h4⟩
          · cases h15
      refine ⟨fun j => if j = 0 then s else
          { x := x2, r := r, p := p, v := v, rhoOld := rho, alpha := N.div rho vr0, omega := N.div ts tt },
        fun _ => ⟨phat, x1, sv, shat, t⟩, 1, by rw [if_neg this.2.1]; exact this.1, by simp, ?_, by simpa using this.2.2.1,
        by simpa using this.2.2.2⟩
      intro j hj
      have : j = 0 := by omega
      subst this
      simpa using one

/-- **C103 (BiCGSTAB)**: what `BiCGSTAB::solve` leaves in `x` and reports as the final residual are the approximation
and the norm of the maintained residual after `k` iterations (`k` is `get_final_iter()`, one less after a breakdown);
if they are finite, the maintained residual differs from the true residual `b - A x` by at most `(2k+1) loss + τ`. -/
theorem C103_bicgstab (hN : RoundedNum R N) (hu : R.u ≤ 1 / 8) {A : Mat F} {M Ma : Matrix (Fin n) (Fin n) ℝ} {γ τ : ℝ}
    (hA : RoundedMat R A M Ma γ τ) {pc : List F → Res (List F)} {x b : List F} (hx : x.length = n)
    (hb : b.length = n) {cfg : Cfg F} (hl : cfg.lib = 0) {out : Out F}
    (h : BiCG.solve N cfg A (.ok pc) x b = .ok out) :
    ∃ (q r0 : List F) (s : Nat → BiCG.St F) (h : Nat → BiMid F) (k : Nat),
      out.finalIter = (if out.status = BREAKDOWN then k + 1 else k) ∧
      A.mv x = .ok q ∧ N.vsub b q n = .ok r0 ∧ (s 0).x = x ∧ (s 0).r = r0 ∧
      (∀ j, j < k → BiStep N A pc r0 j (s j) (h j) (s (j + 1))) ∧
      out.x = (s k).x ∧ out.finalResid = N.nrm2 (s k).r ∧
      (AllFinite R out.x → AllFinite R (s k).r → ∀ (X Y : Fin n → ℝ) (a : ℝ), 0 ≤ a →
        (∀ j, j ≤ k → ∀ i, |vals R n (s j).x i| ≤ X i) → (∀ j, j ≤ k → ∀ i, |vals R n (s j).r i| ≤ Y i) →
        (∀ j, j < k → ∀ i, |vals R n (h j).x i| ≤ X i) → (∀ j, j < k → ∀ i, |vals R n (h j).s i| ≤ Y i) →
        (∀ j, j < k → |R.val (s (j + 1)).alpha| ≤ a ∧ |R.val (s (j + 1)).omega| ≤ a) →
        ∀ i, |vals R n b i - ∑ l, M i l * vals R n out.x l - vals R n (s k).r i| ≤
          (2 * k + 1) * loss R Ma γ τ X Y a i + τ) := by
  unfold BiCG.solve at h
  rw [if_pos hl] at h
  unfold BiCG.monolish at h
  split at h
  · cases h
  obtain ⟨pc', h1, h⟩ := Res.bind_eq_ok.mp h
  cases h1
  obtain ⟨q, h1, h⟩ := Res.bind_eq_ok.mp h
  obtain ⟨r0, h2, h⟩ := Res.bind_eq_ok.mp h
  obtain ⟨t, hh, k, e1, e2, e3, e4, e5⟩ := bi_loop _ _ _ (by omega) h
  simp only [Nat.zero_add] at e1 e3
  refine ⟨q, r0, t, hh, k, e1, h1, by rw [← hA.row]; exact h2, by rw [e2], by rw [e2], e3, e4, e5, ?_⟩
  intro fx fr X Y a ha bx br bhx bhs ba i
  rw [e4] at fx ⊢
  have key := coupled hN hu hA hb
    (fun j => if j % 2 = 0 then (t (j / 2)).x else (hh (j / 2)).x)
    (fun j => if j % 2 = 0 then (t (j / 2)).r else (hh (j / 2)).s)
    (fun j => if j % 2 = 0 then (hh (j / 2)).phat else (hh (j / 2)).shat)
    (fun j => if j % 2 = 0 then (t (j / 2 + 1)).v else (hh (j / 2)).t)
    (fun j => if j % 2 = 0 then (t (j / 2 + 1)).alpha else (t (j / 2 + 1)).omega) (2 * k)
    (by simp [e2, hx])
    (by
      intro j hj
      have st := e3 (j / 2) (by omega)
      rcases Nat.mod_two_eq_zero_or_one j with h | h
      · have e : (j + 1) / 2 = j / 2 := by omega
        have e' : ¬ (j + 1) % 2 = 0 := by omega
        simp only [h, if_true, if_neg e', e]
        exact ⟨st.v, st.halfx, st.half⟩
      · have e : (j + 1) / 2 = j / 2 + 1 := by omega
        have e' : (j + 1) % 2 = 0 := by omega
        have e'' : ¬ j % 2 = 0 := by omega
        simp only [if_neg e'', e', if_true, e]
        exact ⟨st.t, st.x, st.r⟩)
    ⟨q, by simpa [e2] using h1, by simpa [e2] using h2⟩
    (by simpa using fx) (by simpa using fr) ha (X := X) (Y := Y)
    (by
      intro j hj
      split
      · exact bx _ (by omega)
      · exact bhx _ (by omega))
    (by
      intro j hj
      split
      · exact br _ (by omega)
      · exact bhs _ (by omega))
    (by
      intro j hj
      split
      · exact (ba _ (by omega)).1
      · exact (ba _ (by omega)).2) i
  simp only [Nat.mul_mod_right, if_true, Nat.mul_div_cancel_left k (by norm_num : 0 < 2)] at key
  push_cast at key
  exact key

end Verif.Gap
