import Verif.Lemmas.Solver

/-!
C29: CG keeps the true residual and reports faithfully. C33 (exact initial guess) is in
`Props/CGExact.lean`, C34 (finite termination) in `Props/CGTerm.lean`.
-/

set_option linter.unusedSimpArgs false

namespace Verif.Solver

open Verif.Spec Matrix

variable {α K : Type} {n : Nat}

/-- What a return code of CG, BiCGSTAB, Jacobi or SOR promises about the reported values, whatever the
arithmetic is. `v` is the number that was compared with the tolerance last. -/
structure Faithful (N : Num α) (cfg : Cfg α) (v : α) (out : Out α) : Prop where
  codes : out.status = SUCCESS ∨ out.status = RESIDUAL_NAN ∨ out.status = MAXITER
  bound : out.finalIter ≤ cfg.maxiter
  success : out.status = SUCCESS → 1 ≤ out.finalIter ∧ N.lt v cfg.tol = true ∧
    cfg.miniter ≤ out.finalIter
  nan : out.status = RESIDUAL_NAN → 1 ≤ out.finalIter ∧ N.isNaN v = true
  maxiter : out.status = MAXITER → out.finalIter = cfg.maxiter ∧
    (1 ≤ cfg.maxiter → N.isNaN v = false ∧ ¬ (N.lt v cfg.tol = true ∧ cfg.miniter ≤ cfg.maxiter))

theorem stopCheck_some {N : Num α} {cfg : Cfg α} {iter : Nat} {v : α} {x r : List α} {out : Out α}
    (hi : iter < cfg.maxiter) (h : stopCheck N cfg iter v x r = .ok (some out)) :
    Faithful N cfg v out ∧ getResidual N cfg r = .ok out.finalResid ∧ out.x = x := by
  unfold stopCheck at h
  split at h
  · rename_i hc
    rw [Bool.and_eq_true, decide_eq_true_eq] at hc
    obtain ⟨fr, h1, h2⟩ := Res.bind_eq_ok.1 h
    injection h2 with h2; injection h2 with h2; subst h2
    exact ⟨⟨.inl rfl, hi, fun _ => ⟨Nat.le_add_left _ _, hc.1, hc.2⟩, (fun h => absurd (show _ = _ from h) (by simp [SUCCESS, MAXITER, RESIDUAL_NAN])), (fun h => absurd (show _ = _ from h) (by simp [SUCCESS, MAXITER, RESIDUAL_NAN]))⟩, h1, rfl⟩
  · split at h
    · rename_i hn
      obtain ⟨fr, h1, h2⟩ := Res.bind_eq_ok.1 h
      injection h2 with h2; injection h2 with h2; subst h2
      exact ⟨⟨.inr (.inl rfl), hi, (fun h => absurd (show _ = _ from h) (by simp [SUCCESS, MAXITER, RESIDUAL_NAN])), fun _ => ⟨Nat.le_add_left _ _, hn⟩, (fun h => absurd (show _ = _ from h) (by simp [SUCCESS, MAXITER, RESIDUAL_NAN]))⟩, h1, rfl⟩
    · cases h

theorem stopCheck_none {N : Num α} {cfg : Cfg α} {iter : Nat} {v : α} {x r : List α}
    (h : stopCheck N cfg iter v x r = .ok none) :
    N.isNaN v = false ∧ ¬ (N.lt v cfg.tol = true ∧ cfg.miniter ≤ iter + 1) := by
  unfold stopCheck at h
  split at h
  · obtain ⟨fr, h1, h2⟩ := Res.bind_eq_ok.1 h
    cases h2
  · rename_i hc
    split at h
    · obtain ⟨fr, h1, h2⟩ := Res.bind_eq_ok.1 h
      cases h2
    · rename_i hn
      rw [Bool.and_eq_true, decide_eq_true_eq] at hc
      exact ⟨by simpa using hn, hc⟩

theorem CG.loop_faithful {N : Num α} {cfg : Cfg α} {A : Mat α} {pc : List α → Res (List α)}
    (m : Nat) : ∀ (iter : Nat) (s : CG.St α) (out : Out α), iter + m = cfg.maxiter →
    (1 ≤ iter → ∀ v, getResidual N cfg s.r = .ok v → N.isNaN v = false ∧
      ¬ (N.lt v cfg.tol = true ∧ cfg.miniter ≤ iter)) →
    CG.loop N cfg A pc m iter s = .ok out → Faithful N cfg out.finalResid out := by
  induction m with
  | zero =>
    intro iter s out hm hlast h
    obtain ⟨fr, h1, h2⟩ := Res.bind_eq_ok.1 h
    injection h2 with h2; subst h2
    refine ⟨.inr (.inr rfl), le_refl _, (fun h => absurd (show _ = _ from h) (by simp [SUCCESS, MAXITER, RESIDUAL_NAN])), (fun h => absurd (show _ = _ from h) (by simp [SUCCESS, MAXITER, RESIDUAL_NAN])), fun _ => ⟨rfl, fun h1m => ?_⟩⟩
    have : iter = cfg.maxiter := by omega
    rw [← this] at h1m ⊢
    exact hlast h1m _ h1
  | succ m ih =>
    intro iter s out hm _ h
    obtain ⟨s', _, h⟩ := Res.bind_eq_ok.1 h
    obtain ⟨v, hv, h⟩ := Res.bind_eq_ok.1 h
    obtain ⟨o, ho, h⟩ := Res.bind_eq_ok.1 h
    cases o with
    | some o =>
      injection h with h; subst h
      obtain ⟨hf, hr, _⟩ := stopCheck_some (by omega) ho
      rw [hv] at hr; injection hr with hr
      rw [← hr]; exact hf
    | none =>
      refine ih (iter + 1) s' out (by omega) (fun _ v' hv' => ?_) h
      rw [hv] at hv'; injection hv' with hv'; subst hv'
      exact stopCheck_none ho

/-- C29 (status, any arithmetic): for every scalar type and operations, hence also for IEEE numbers
with rounding, every matrix and preconditioner: `solve` returns SUCCESS only if `get_final_residual()`
is below the tolerance after at least `miniter` iterations, RESIDUAL_NAN only if it is NaN, MAXITER
only after `maxiter` iterations with neither. -/
theorem C29_status (N : Num α) (cfg : Cfg α) (hlib : cfg.lib = 0) (A : Mat α)
    (create : Res (List α → Res (List α))) (x b : List α) (out : Out α)
    (h : CG.solve N cfg A create x b = .ok out) : Faithful N cfg out.finalResid out := by
  unfold CG.solve at h
  rw [if_pos hlib] at h
  unfold CG.monolish at h
  split at h
  · cases h
  obtain ⟨pc, _, h⟩ := Res.bind_eq_ok.1 h
  obtain ⟨s, _, h⟩ := Res.bind_eq_ok.1 h
  exact CG.loop_faithful cfg.maxiter 0 s out (by omega) (fun h => absurd h (by omega)) h

/-- C29: a matrix that is not square is rejected, whatever the other arguments are. -/
theorem C29_nonsquare (N : Num α) (cfg : Cfg α) (hlib : cfg.lib = 0) (A : Mat α)
    (hA : A.row ≠ A.col) (create : Res (List α → Res (List α))) (x b : List α) :
    ∃ msg, CG.solve N cfg A create x b = .throw msg := by
  refine ⟨"error, A.row != A.col", ?_⟩
  simp [CG.solve, hlib, CG.monolish, hA]

section exact

variable [Field K] [LinearOrder K] [IsStrictOrderedRing K] {N : Num α} {ι : K → α} {sq : K → K}

theorem CG.loop_exact (h : Exact N ι sq) {cfg : Cfg α} {tol : K} (ht : cfg.tol = ι tol)
    (hm : cfg.residMethod = 0) {A : Mat α} {M : Matrix (Fin n) (Fin n) K}
    (hA : IsMat A ι M) {pc : List α → Res (List α)} {P : (Fin n → K) → Fin n → K}
    (hpc : ∀ v, pc (vec ι v) = .ok (vec ι (P v))) (x b : Fin n → K)
    (hreg : ∀ j, j < cfg.maxiter →
      (∀ i, 1 ≤ i → i ≤ j → ¬ Accept sq M b tol cfg.miniter i (Spec.CG.at M P b x i).x) →
      (Spec.CG.at M P b x j).Regular M) (m : Nat) : ∀ iter, iter + m = cfg.maxiter →
    (∀ i, 1 ≤ i → i ≤ iter → ¬ Accept sq M b tol cfg.miniter i (Spec.CG.at M P b x i).x) →
    ∃ k status, k ≤ cfg.maxiter ∧
      CG.loop N cfg A pc m iter (CG.embed ι (Spec.CG.at M P b x iter)) =
        .ok { status := status, x := vec ι (Spec.CG.at M P b x k).x, finalIter := k,
              finalResid := ι (norm2 sq (b - M *ᵥ (Spec.CG.at M P b x k).x)) } ∧
      (∀ i, 1 ≤ i → i < k → ¬ Accept sq M b tol cfg.miniter i (Spec.CG.at M P b x i).x) ∧
      ((status = SUCCESS ∧ 1 ≤ k ∧ Accept sq M b tol cfg.miniter k (Spec.CG.at M P b x k).x) ∨
       (status = MAXITER ∧ k = cfg.maxiter ∧
        (1 ≤ k → ¬ Accept sq M b tol cfg.miniter k (Spec.CG.at M P b x k).x))) := by
  induction m with
  | zero =>
    intro iter hit hno
    have hit : iter = cfg.maxiter := by omega
    refine ⟨iter, MAXITER, by omega, ?_, fun i h1 h2 => hno i h1 (by omega), .inr ⟨rfl, hit, fun h1 => hno _ h1 (le_refl _)⟩⟩
    simp only [CG.loop, atMaxiter, getResidual, hm, Res.ok_bind, CG.embed, nrm2_vec h,
      CG.residual, ← hit]
  | succ m ih =>
    intro iter hit hno
    have hr := hreg iter (by omega) hno
    have hstep := CG.step_exact h hA hpc _ hr
    have hnext : (Spec.CG.at M P b x iter).next M P = Spec.CG.at M P b x (iter + 1) := rfl
    rw [hnext] at hstep
    simp only [CG.loop, hstep, Res.ok_bind]
    have hres : getResidual N cfg (CG.embed ι (Spec.CG.at M P b x (iter + 1))).r
        = .ok (ι (norm2 sq (b - M *ᵥ (Spec.CG.at M P b x (iter + 1)).x))) := by
      simp only [getResidual, hm, CG.embed, nrm2_vec h, CG.residual]
    simp only [hres, Res.ok_bind]
    have hstop : stopCheck N cfg iter (ι (norm2 sq (b - M *ᵥ (Spec.CG.at M P b x (iter + 1)).x)))
        (CG.embed ι (Spec.CG.at M P b x (iter + 1))).x (CG.embed ι (Spec.CG.at M P b x (iter + 1))).r
        = _ := stopCheck_exact h ht hm iter _ _ _
    rw [hstop, Res.ok_bind, CG.residual]
    by_cases hacc : Accept sq M b tol cfg.miniter (iter + 1) (Spec.CG.at M P b x (iter + 1)).x
    · have hacc' := hacc
      unfold Accept at hacc'
      rw [if_pos hacc']
      exact ⟨iter + 1, SUCCESS, by omega, rfl, fun i h1 h2 => hno i h1 (by omega),
        .inl ⟨rfl, by omega, hacc⟩⟩
    · have hacc' := hacc
      unfold Accept at hacc'
      rw [if_neg hacc']
      refine ih (iter + 1) (by omega) (fun i h1 h2 => ?_)
      by_cases hi : i = iter + 1
      · rw [hi]; exact hacc
      · exact hno i h1 (by omega)

/-- C29 (exact arithmetic): as long as no division by zero occurs before the method stops, `solve`
returns exactly the textbook iterate `x_k` where `k` is the first iteration whose **true** residual
`b - A x_k` is accepted (then SUCCESS) or `maxiter` (then MAXITER); `get_final_iter()` is `k` and
`get_final_residual()` is the norm of `b - A x` for the returned `x`. Any matrix, preconditioner,
right-hand side, initial guess, tolerance and limits. -/
theorem C29_exact (h : Exact N ι sq) (cfg : Cfg α) (tol : K) (ht : cfg.tol = ι tol)
    (hlib : cfg.lib = 0) (hm : cfg.residMethod = 0) (A : Mat α) (M : Matrix (Fin n) (Fin n) K)
    (hA : IsMat A ι M) (create : Res (List α → Res (List α))) (P : (Fin n → K) → Fin n → K)
    (hP : IsPrecond create ι P) (x b : Fin n → K)
    (hreg : ∀ j, j < cfg.maxiter →
      (∀ i, 1 ≤ i → i ≤ j → ¬ Accept sq M b tol cfg.miniter i (Spec.CG.at M P b x i).x) →
      (Spec.CG.at M P b x j).Regular M) :
    ∃ k status, k ≤ cfg.maxiter ∧
      CG.solve N cfg A create (vec ι x) (vec ι b) =
        .ok { status := status, x := vec ι (Spec.CG.at M P b x k).x, finalIter := k,
              finalResid := ι (norm2 sq (b - M *ᵥ (Spec.CG.at M P b x k).x)) } ∧
      (∀ i, 1 ≤ i → i < k → ¬ Accept sq M b tol cfg.miniter i (Spec.CG.at M P b x i).x) ∧
      ((status = SUCCESS ∧ 1 ≤ k ∧ Accept sq M b tol cfg.miniter k (Spec.CG.at M P b x k).x) ∨
       (status = MAXITER ∧ k = cfg.maxiter ∧
        (1 ≤ k → ¬ Accept sq M b tol cfg.miniter k (Spec.CG.at M P b x k).x))) := by
  obtain ⟨pc, rfl, hpc⟩ := hP
  have := CG.loop_exact h ht hm hA hpc x b hreg cfg.maxiter 0 (by omega)
    (fun i h1 h2 => absurd h1 (by omega))
  simp only [CG.solve, hlib, if_true, CG.monolish, hA.row, hA.col, ne_eq, not_true_eq_false,
    if_false, Res.ok_bind, CG.init_exact h hA hpc]
  exact this

end exact

end Verif.Solver
