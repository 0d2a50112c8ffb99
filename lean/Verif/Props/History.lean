import Verif.Spec.HistorySpec
import Verif.Props.BiCG
import Verif.Props.CG
import Verif.Props.Sor

/-!
C97: the residual history of a solver run.
-/

set_option linter.unusedSimpArgs false

namespace Verif.Solver

open Verif.Spec Matrix

variable {α : Type}

theorem outcome_bind {β : Type} (r : Res β) (f : β → Res (Out α × History α)) :
    outcome (r >>= f) = r >>= fun a => outcome (f a) := by
  cases r <;> rfl

theorem outcome_tail (r : Res (Out α × History α)) (l : History α) :
    outcome (do let p ← r; .ok (p.1, l ++ p.2)) = outcome r := by
  cases r <;> rfl

/-! ### The history does not influence the run -/

theorem CG.loopH_outcome (N : Num α) (cfg : Cfg α) (A : Mat α) (pc : List α → Res (List α))
    (print : Bool) (m : Nat) : ∀ iter s,
    outcome (CG.loopH N cfg A pc print m iter s) = CG.loop N cfg A pc m iter s := by
  induction m with
  | zero => intro iter s; unfold CG.loopH CG.loop; cases atMaxiter N cfg s.x s.r <;> rfl
  | succ m ih =>
    intro iter s
    unfold CG.loopH CG.loop
    simp only [outcome_bind]
    congr 1; funext s
    congr 1; funext v
    congr 1; funext o
    cases o with
    | some o => rfl
    | none => exact (outcome_tail _ _).trans (ih _ _)

theorem BiCG.loopH_outcome (N : Num α) (cfg : Cfg α) (A : Mat α) (pc : List α → Res (List α))
    (print : Bool) (r0 : List α) (m : Nat) : ∀ iter s,
    outcome (BiCG.loopH N cfg A pc print r0 m iter s) = BiCG.loop N cfg A pc r0 m iter s := by
  induction m with
  | zero => intro iter s; unfold BiCG.loopH BiCG.loop; cases atMaxiter N cfg s.x s.r <;> rfl
  | succ m ih =>
    intro iter s
    unfold BiCG.loopH BiCG.loop
    simp only [outcome_bind]
    congr 1; funext rho
    split
    · simp only [outcome_bind]; rfl
    simp only [outcome_bind]
    congr 1; funext p
    congr 1; funext phat
    congr 1; funext v
    congr 1; funext vr0
    congr 1; funext sv
    congr 1; funext shat
    congr 1; funext t
    congr 1; funext ts
    congr 1; funext tt
    split
    · simp only [outcome_bind]; rfl
    simp only [outcome_bind]
    congr 1; funext x
    congr 1; funext x
    congr 1; funext r
    congr 1; funext v
    congr 1; funext o
    cases o with
    | some o => rfl
    | none => exact (outcome_tail _ _).trans (ih _ _)

theorem Jacobi.loopH_outcome (N : Num α) (cfg : Cfg α) (A : Mat α) (pc : List α → Res (List α))
    (print : Bool) (b d : List α) (binv : α) (m : Nat) : ∀ iter x r,
    outcome (Jacobi.loopH N cfg A pc print b d binv m iter x r) =
      Jacobi.loop N cfg A pc b d binv m iter x r := by
  induction m with
  | zero => intro iter x r; unfold Jacobi.loopH Jacobi.loop; cases atMaxiter N cfg x r <;> rfl
  | succ m ih =>
    intro iter x r
    unfold Jacobi.loopH Jacobi.loop
    simp only [outcome_bind]
    congr 1; funext u
    congr 1; funext s
    congr 1; funext t
    congr 1; funext r
    congr 1; funext r'
    congr 1; funext x
    congr 1; funext o
    cases o with
    | some o => rfl
    | none => exact (outcome_tail _ _).trans (ih _ _ _)

theorem SOR.loopH_outcome (N : Num α) (cfg : Cfg α) (A : Mat α)
    (lower : List α → List α → List α → Res (List α)) (pc : List α → Res (List α))
    (print : Bool) (b d : List α) (binv : α) (m : Nat) : ∀ iter x r,
    outcome (SOR.loopH N cfg A lower pc print b d binv m iter x r) =
      SOR.loop N cfg A lower pc b d binv m iter x r := by
  induction m with
  | zero => intro iter x r; unfold SOR.loopH SOR.loop; cases atMaxiter N cfg x r <;> rfl
  | succ m ih =>
    intro iter x r
    unfold SOR.loopH SOR.loop
    simp only [outcome_bind]
    congr 1; funext s
    congr 1; funext t
    congr 1; funext r
    congr 1; funext t
    congr 1; funext x
    congr 1; funext o
    cases o with
    | some o => rfl
    | none => exact (outcome_tail _ _).trans (ih _ _ _)

/-- C97: whether the history is printed or not makes no difference to the run: same return code, same
vector, same counters, same exceptions (CG). -/
theorem C97_same_cg (N : Num α) (cfg : Cfg α) (A : Mat α) (create : Res (List α → Res (List α)))
    (print : Bool) (x b : List α) :
    outcome (CG.solveH N cfg A create print x b) = CG.solve N cfg A create x b := by
  unfold CG.solveH CG.solve
  split
  · unfold CG.monolishH CG.monolish
    split
    · rfl
    · simp only [outcome_bind, CG.loopH_outcome]
  · rfl

/-- C97, likewise for BiCGSTAB. -/
theorem C97_same_bicg (N : Num α) (cfg : Cfg α) (A : Mat α) (create : Res (List α → Res (List α)))
    (print : Bool) (x b : List α) :
    outcome (BiCG.solveH N cfg A create print x b) = BiCG.solve N cfg A create x b := by
  unfold BiCG.solveH BiCG.solve
  split
  · unfold BiCG.monolishH BiCG.monolish
    split
    · rfl
    · simp only [outcome_bind, BiCG.loopH_outcome]
  · rfl

/-- C97, likewise for Jacobi. -/
theorem C97_same_jacobi (N : Num α) (cfg : Cfg α) (A : Mat α)
    (create : Res (List α → Res (List α))) (print : Bool) (x b : List α) :
    outcome (Jacobi.solveH N cfg A create print x b) = Jacobi.solve N cfg A create x b := by
  unfold Jacobi.solveH Jacobi.solve
  split
  · unfold Jacobi.monolishH Jacobi.monolish
    split
    · rfl
    · simp only [outcome_bind, Jacobi.loopH_outcome]
  · rfl

/-- C97, likewise for SOR. -/
theorem C97_same_sor (N : Num α) (cfg : Cfg α) (A : Mat α)
    (lower : List α → List α → List α → Res (List α)) (create : Res (List α → Res (List α)))
    (print : Bool) (x b : List α) :
    outcome (SOR.solveH N cfg A lower create print x b) = SOR.solve N cfg A lower create x b := by
  unfold SOR.solveH SOR.solve
  split
  · unfold SOR.monolishH SOR.monolish
    split
    · rfl
    · simp only [outcome_bind, SOR.loopH_outcome]
  · rfl

/-! ### The lines and the result -/

/-- `Reports` for the part of a run that starts after `iter` iterations -/
structure Tells (N : Num α) (cfg : Cfg α) (iter : Nat) (h : History α) (o : Out α) : Prop where
  numbers : h.map Prod.fst = List.range' (iter + 1) h.length
  earlier : ∀ l ∈ h.dropLast, ¬ Passes N cfg l ∧ N.isNaN l.2 = false
  codes : o.status = SUCCESS ∨ o.status = RESIDUAL_NAN ∨ o.status = MAXITER ∨ o.status = BREAKDOWN
  success : o.status = SUCCESS ↔ ∃ l, h.getLast? = some l ∧ Passes N cfg l
  nan : o.status = RESIDUAL_NAN ↔ ∃ l, h.getLast? = some l ∧ ¬ Passes N cfg l ∧ N.isNaN l.2 = true
  maxiter : o.status = MAXITER → iter + h.length = cfg.maxiter
  iters : o.finalIter = iter + h.length + (if o.status = BREAKDOWN then 1 else 0)

variable {N : Num α} {cfg : Cfg α}

theorem Tells.reports {h : History α} {o : Out α} (t : Tells N cfg 0 h o) : Reports N cfg h o :=
  ⟨t.numbers, t.earlier, t.codes, t.success, t.nan, fun e => by simpa using t.maxiter e,
    by simpa using t.iters⟩

theorem Tells.atMax {x r : List α} {o : Out α} (h : atMaxiter N cfg x r = .ok o) :
    Tells N cfg cfg.maxiter [] o := by
  obtain ⟨fr, _, h⟩ := Res.bind_eq_ok.1 h
  injection h with h
  subst h
  exact ⟨rfl, by simp, .inr (.inr (.inl rfl)), by simp [SUCCESS, MAXITER], by simp [RESIDUAL_NAN, MAXITER],
    fun _ => rfl, by simp [MAXITER, BREAKDOWN]⟩

theorem Tells.broken (iter : Nat) (x : List α) (fr : α) :
    Tells N cfg iter []
      { status := BREAKDOWN, x := x, finalIter := iter + 1, finalResid := fr } :=
  ⟨rfl, by simp, .inr (.inr (.inr rfl)), by simp [SUCCESS, BREAKDOWN], by simp [RESIDUAL_NAN, BREAKDOWN],
    by simp [MAXITER, BREAKDOWN], by simp⟩

theorem Tells.stop {iter : Nat} {v : α} {x r : List α} {o : Out α}
    (h : stopCheck N cfg iter v x r = .ok (some o)) : Tells N cfg iter [(iter + 1, v)] o := by
  unfold stopCheck at h
  split at h
  · rename_i hc
    rw [Bool.and_eq_true, decide_eq_true_eq] at hc
    obtain ⟨fr, _, h⟩ := Res.bind_eq_ok.1 h
    injection h with h; injection h with h; subst h
    exact ⟨rfl, by simp, .inl rfl, ⟨fun _ => ⟨_, rfl, hc⟩, fun _ => rfl⟩,
      by simp [SUCCESS, RESIDUAL_NAN, Passes, hc], by simp [SUCCESS, MAXITER],
      by simp [SUCCESS, BREAKDOWN]⟩
  · rename_i hc
    rw [Bool.and_eq_true, decide_eq_true_eq] at hc
    split at h
    · rename_i hn
      obtain ⟨fr, _, h⟩ := Res.bind_eq_ok.1 h
      injection h with h; injection h with h; subst h
      exact ⟨rfl, by simp, .inr (.inl rfl),
        ⟨by simp [SUCCESS, RESIDUAL_NAN], by rintro ⟨l, e, p⟩; cases e; exact absurd p hc⟩,
        ⟨fun _ => ⟨_, rfl, hc, hn⟩, fun _ => rfl⟩, by simp [RESIDUAL_NAN, MAXITER],
        by simp [RESIDUAL_NAN, BREAKDOWN]⟩
    · cases h

theorem Tells.cons {iter : Nat} {v : α} {x r : List α} {o : Out α} {h : History α}
    (hs : stopCheck N cfg iter v x r = .ok none) (t : Tells N cfg (iter + 1) h o) :
    Tells N cfg iter ((iter + 1, v) :: h) o := by
  obtain ⟨hn, hp⟩ := stopCheck_none hs
  have last : ∀ l, ((iter + 1, v) :: h).getLast? = some l →
      (h = [] ∧ l = (iter + 1, v)) ∨ h.getLast? = some l := by
    intro l e
    cases h with
    | nil => exact .inl ⟨rfl, by simpa using e.symm⟩
    | cons a h => exact .inr (by simpa [List.getLast?_cons_cons] using e)
  have keep : ∀ l, h.getLast? = some l → ((iter + 1, v) :: h).getLast? = some l := by
    intro l e
    cases h with
    | nil => cases e
    | cons a h => simpa [List.getLast?_cons_cons] using e
  refine ⟨?_, ?_, t.codes, ?_, ?_, ?_, ?_⟩
  · rw [List.map_cons, t.numbers, List.length_cons, List.range'_succ]
  · intro l hl
    cases h with
    | nil => cases hl
    | cons a h =>
      rw [List.dropLast_cons_cons] at hl
      rcases List.mem_cons.1 hl with rfl | hl
      · exact ⟨hp, hn⟩
      · exact t.earlier l hl
  · rw [t.success]
    constructor
    · rintro ⟨l, e, p⟩; exact ⟨l, keep l e, p⟩
    · rintro ⟨l, e, p⟩
      rcases last l e with ⟨_, rfl⟩ | e
      · exact absurd p hp
      · exact ⟨l, e, p⟩
  · rw [t.nan]
    constructor
    · rintro ⟨l, e, p⟩; exact ⟨l, keep l e, p⟩
    · rintro ⟨l, e, p, q⟩
      rcases last l e with ⟨_, rfl⟩ | e
      · rw [hn] at q; cases q
      · exact ⟨l, e, p, q⟩
  · intro e; have := t.maxiter e; simp only [List.length_cons]; omega
  · have := t.iters; simp only [List.length_cons]; omega

theorem stopCheck_resid {iter : Nat} {v : α} {x r : List α} {o : Out α}
    (h : stopCheck N cfg iter v x r = .ok (some o)) : getResidual N cfg r = .ok o.finalResid := by
  unfold stopCheck at h
  split at h
  · obtain ⟨fr, h1, h⟩ := Res.bind_eq_ok.1 h
    injection h with h; injection h with h; subst h
    exact h1
  · split at h
    · obtain ⟨fr, h1, h⟩ := Res.bind_eq_ok.1 h
      injection h with h; injection h with h; subst h
      exact h1
    · cases h

theorem atMaxiter_resid {x r : List α} {o : Out α} (h : atMaxiter N cfg x r = .ok o) :
    getResidual N cfg r = .ok o.finalResid := by
  obtain ⟨fr, h1, h⟩ := Res.bind_eq_ok.1 h
  injection h with h
  subst h
  exact h1

/-- the last line shows the residual that is reported; `r` is the residual before the first of the
lines -/
def Shown (N : Num α) (cfg : Cfg α) (r : List α) (h : History α) (o : Out α) : Prop :=
  (h = [] → getResidual N cfg r = .ok o.finalResid) ∧
    ∀ l, h.getLast? = some l → l.2 = o.finalResid

theorem Shown.cons {r r' : List α} {h : History α} {o : Out α} {k : Nat} {v : α}
    (hv : getResidual N cfg r = .ok v) (s : Shown N cfg r h o) : Shown N cfg r' ((k, v) :: h) o := by
  refine ⟨by simp, fun l e => ?_⟩
  cases h with
  | nil =>
    have e : (k, v) = l := by simpa using e
    subst e
    have := s.1 rfl
    rw [hv] at this
    injection this
  | cons a h => exact s.2 l (by simpa [List.getLast?_cons_cons] using e)

theorem Shown.stop {iter : Nat} {v : α} {x r r' : List α} {o : Out α} {k : Nat}
    (hv : getResidual N cfg r = .ok v) (h : stopCheck N cfg iter v x r = .ok (some o)) :
    Shown N cfg r' [(k, v)] o := by
  refine ⟨by simp, fun l e => ?_⟩
  have e : (k, v) = l := by simpa using e
  subst e
  have := stopCheck_resid h
  rw [hv] at this
  injection this

theorem CG.loopH_tells {A : Mat α} {pc : List α → Res (List α)} (m : Nat) :
    ∀ iter s o h, iter + m = cfg.maxiter → CG.loopH N cfg A pc true m iter s = .ok (o, h) →
    Tells N cfg iter h o ∧ Shown N cfg s.r h o ∧ o.status ≠ BREAKDOWN := by
  induction m with
  | zero =>
    intro iter s o h hm e
    obtain ⟨q, e1, e⟩ := Res.bind_eq_ok.1 e
    cases e
    have : iter = cfg.maxiter := by omega
    subst this
    refine ⟨Tells.atMax e1, ⟨fun _ => atMaxiter_resid e1, by simp⟩, ?_⟩
    obtain ⟨fr, _, e1⟩ := Res.bind_eq_ok.1 e1
    cases e1
    simp [MAXITER, BREAKDOWN]
  | succ m ih =>
    intro iter s o h hm e
    obtain ⟨s', e1, e⟩ := Res.bind_eq_ok.1 e
    obtain ⟨v, e2, e⟩ := Res.bind_eq_ok.1 e
    obtain ⟨q, e3, e⟩ := Res.bind_eq_ok.1 e
    cases q with
    | some q =>
      cases e
      refine ⟨Tells.stop e3, Shown.stop e2 e3, ?_⟩
      intro hb
      have := (stopCheck_some (by omega) e3).1.codes
      rw [hb] at this
      simp [SUCCESS, MAXITER, RESIDUAL_NAN, BREAKDOWN] at this
    | none =>
      obtain ⟨⟨o', h'⟩, e4, e⟩ := Res.bind_eq_ok.1 e
      cases e
      obtain ⟨t, sh, nb⟩ := ih _ _ _ _ (by omega) e4
      exact ⟨t.cons e3, sh.cons e2, nb⟩

theorem BiCG.loopH_tells {A : Mat α} {pc : List α → Res (List α)} {r0 : List α} (m : Nat) :
    ∀ iter s o h, iter + m = cfg.maxiter → BiCG.loopH N cfg A pc true r0 m iter s = .ok (o, h) →
    Tells N cfg iter h o ∧ Shown N cfg s.r h o := by
  induction m with
  | zero =>
    intro iter s o h hm e
    obtain ⟨q, e1, e⟩ := Res.bind_eq_ok.1 e
    cases e
    have : iter = cfg.maxiter := by omega
    subst this
    exact ⟨Tells.atMax e1, ⟨fun _ => atMaxiter_resid e1, by simp⟩⟩
  | succ m ih =>
    intro iter s o h hm e
    obtain ⟨rho, e1, e⟩ := Res.bind_eq_ok.1 e
    dsimp only at e
    split at e
    · obtain ⟨fr, e2, e⟩ := Res.bind_eq_ok.1 e
      cases e
      exact ⟨Tells.broken _ _ _, ⟨fun _ => e2, by simp⟩⟩
    obtain ⟨p, _, e⟩ := Res.bind_eq_ok.1 e
    obtain ⟨phat, _, e⟩ := Res.bind_eq_ok.1 e
    obtain ⟨v, _, e⟩ := Res.bind_eq_ok.1 e
    obtain ⟨vr0, _, e⟩ := Res.bind_eq_ok.1 e
    obtain ⟨sv, _, e⟩ := Res.bind_eq_ok.1 e
    obtain ⟨shat, _, e⟩ := Res.bind_eq_ok.1 e
    obtain ⟨t, _, e⟩ := Res.bind_eq_ok.1 e
    obtain ⟨ts, _, e⟩ := Res.bind_eq_ok.1 e
    obtain ⟨tt, _, e⟩ := Res.bind_eq_ok.1 e
    split at e
    · obtain ⟨fr, e2, e⟩ := Res.bind_eq_ok.1 e
      cases e
      exact ⟨Tells.broken _ _ _, ⟨fun _ => e2, by simp⟩⟩
    obtain ⟨x1, _, e⟩ := Res.bind_eq_ok.1 e
    obtain ⟨x2, _, e⟩ := Res.bind_eq_ok.1 e
    obtain ⟨r, _, e⟩ := Res.bind_eq_ok.1 e
    obtain ⟨v', e2, e⟩ := Res.bind_eq_ok.1 e
    obtain ⟨q, e3, e⟩ := Res.bind_eq_ok.1 e
    cases q with
    | some q =>
      cases e
      exact ⟨Tells.stop e3, Shown.stop e2 e3⟩
    | none =>
      obtain ⟨⟨o', h'⟩, e4, e⟩ := Res.bind_eq_ok.1 e
      cases e
      obtain ⟨t, sh⟩ := ih _ _ _ _ (by omega) e4
      exact ⟨t.cons e3, sh.cons e2⟩

theorem Jacobi.loopH_tells {A : Mat α} {pc : List α → Res (List α)} {b d : List α} {binv : α}
    (m : Nat) : ∀ iter x r o h, iter + m = cfg.maxiter →
    Jacobi.loopH N cfg A pc true b d binv m iter x r = .ok (o, h) → Tells N cfg iter h o := by
  induction m with
  | zero =>
    intro iter x r o h hm e
    obtain ⟨q, e1, e⟩ := Res.bind_eq_ok.1 e
    cases e
    have : iter = cfg.maxiter := by omega
    subst this
    exact Tells.atMax e1
  | succ m ih =>
    intro iter x r o h hm e
    obtain ⟨u, _, e⟩ := Res.bind_eq_ok.1 e
    obtain ⟨s, _, e⟩ := Res.bind_eq_ok.1 e
    obtain ⟨t, _, e⟩ := Res.bind_eq_ok.1 e
    obtain ⟨r1, _, e⟩ := Res.bind_eq_ok.1 e
    obtain ⟨r2, _, e⟩ := Res.bind_eq_ok.1 e
    obtain ⟨x1, _, e⟩ := Res.bind_eq_ok.1 e
    obtain ⟨q, e3, e⟩ := Res.bind_eq_ok.1 e
    cases q with
    | some q =>
      cases e
      exact Tells.stop e3
    | none =>
      obtain ⟨⟨o', h'⟩, e4, e⟩ := Res.bind_eq_ok.1 e
      cases e
      exact (ih _ _ _ _ _ (by omega) e4).cons e3

/-- the last line of SOR shows the residual that is reported, divided by `nrm2(b)` -/
def ShownRel (N : Num α) (cfg : Cfg α) (binv : α) (r : List α) (h : History α) (o : Out α) : Prop :=
  (h = [] → getResidual N cfg r = .ok o.finalResid) ∧
    ∀ l, h.getLast? = some l → l.2 = N.mul o.finalResid binv

theorem getResidual_nrm {r : List α} {v : α} (h : getResidual N cfg r = .ok v) : v = N.nrm2 r := by
  unfold getResidual at h
  split at h
  · injection h with h; exact h.symm
  · cases h

theorem SOR.loopH_tells {A : Mat α} {lower : List α → List α → List α → Res (List α)}
    {pc : List α → Res (List α)} {b d : List α} {binv : α}
    (m : Nat) : ∀ iter x r o h, iter + m = cfg.maxiter →
    SOR.loopH N cfg A lower pc true b d binv m iter x r = .ok (o, h) →
    Tells N cfg iter h o ∧ ShownRel N cfg binv r h o := by
  induction m with
  | zero =>
    intro iter x r o h hm e
    obtain ⟨q, e1, e⟩ := Res.bind_eq_ok.1 e
    cases e
    have : iter = cfg.maxiter := by omega
    subst this
    exact ⟨Tells.atMax e1, ⟨fun _ => atMaxiter_resid e1, by simp⟩⟩
  | succ m ih =>
    intro iter x r o h hm e
    obtain ⟨s, _, e⟩ := Res.bind_eq_ok.1 e
    obtain ⟨t, _, e⟩ := Res.bind_eq_ok.1 e
    obtain ⟨r1, _, e⟩ := Res.bind_eq_ok.1 e
    obtain ⟨t', _, e⟩ := Res.bind_eq_ok.1 e
    obtain ⟨x1, _, e⟩ := Res.bind_eq_ok.1 e
    obtain ⟨q, e3, e⟩ := Res.bind_eq_ok.1 e
    cases q with
    | some q =>
      cases e
      refine ⟨Tells.stop e3, by simp [line], fun l hl => ?_⟩
      have hl : (iter + 1, N.mul (N.nrm2 r1) binv) = l := by simpa [line] using hl
      subst hl
      rw [getResidual_nrm (stopCheck_resid e3)]
    | none =>
      obtain ⟨⟨o', h'⟩, e4, e⟩ := Res.bind_eq_ok.1 e
      cases e
      obtain ⟨t, sh⟩ := ih _ _ _ _ _ (by omega) e4
      refine ⟨t.cons e3, by simp [line], fun l hl => ?_⟩
      cases h' with
      | nil =>
        have hl : (iter + 1, N.mul (N.nrm2 r1) binv) = l := by simpa [line] using hl
        subst hl
        rw [getResidual_nrm (sh.1 rfl)]
      | cons a h' => exact sh.2 l (by simpa [line, List.getLast?_cons_cons] using hl)

/-- C97 (CG, any arithmetic, any matrix, preconditioner and settings): the history and the result of a
run agree, the run never ends by a breakdown, and the last line shows `get_final_residual()`. -/
theorem C97_cg {A : Mat α} {create : Res (List α → Res (List α))} {x b : List α} {o : Out α}
    {h : History α} (hlib : cfg.lib = 0) (e : CG.solveH N cfg A create true x b = .ok (o, h)) :
    Reports N cfg h o ∧ o.status ≠ BREAKDOWN ∧ ∀ l, h.getLast? = some l → l.2 = o.finalResid := by
  unfold CG.solveH at e
  rw [if_pos hlib] at e
  unfold CG.monolishH at e
  split at e
  · cases e
  obtain ⟨pc, _, e⟩ := Res.bind_eq_ok.1 e
  obtain ⟨s, _, e⟩ := Res.bind_eq_ok.1 e
  obtain ⟨t, sh, nb⟩ := CG.loopH_tells _ _ _ _ _ (by omega) e
  exact ⟨t.reports, nb, sh.2⟩

/-- C97 (BiCGSTAB, any arithmetic): the history and the result of a run agree, and the last line shows
`get_final_residual()`, also if the run ended by a breakdown in the following iteration. -/
theorem C97_bicg {A : Mat α} {create : Res (List α → Res (List α))} {x b : List α} {o : Out α}
    {h : History α} (hlib : cfg.lib = 0) (e : BiCG.solveH N cfg A create true x b = .ok (o, h)) :
    Reports N cfg h o ∧ ∀ l, h.getLast? = some l → l.2 = o.finalResid := by
  unfold BiCG.solveH at e
  rw [if_pos hlib] at e
  unfold BiCG.monolishH at e
  split at e
  · cases e
  obtain ⟨pc, _, e⟩ := Res.bind_eq_ok.1 e
  obtain ⟨q, _, e⟩ := Res.bind_eq_ok.1 e
  obtain ⟨r, _, e⟩ := Res.bind_eq_ok.1 e
  obtain ⟨t, sh⟩ := BiCG.loopH_tells _ _ _ _ _ (by omega) e
  exact ⟨t.reports, sh.2⟩

/-- C97 (Jacobi, any arithmetic): the history and the result of a run agree, except for
`get_final_residual()` (`C97_jacobi_last_violated`). -/
theorem C97_jacobi_partial {A : Mat α} {create : Res (List α → Res (List α))} {x b : List α}
    {o : Out α} {h : History α} (hlib : cfg.lib = 0)
    (e : Jacobi.solveH N cfg A create true x b = .ok (o, h)) : Reports N cfg h o := by
  unfold Jacobi.solveH at e
  rw [if_pos hlib] at e
  unfold Jacobi.monolishH at e
  split at e
  · cases e
  obtain ⟨d, _, e⟩ := Res.bind_eq_ok.1 e
  obtain ⟨pc, _, e⟩ := Res.bind_eq_ok.1 e
  exact (Jacobi.loopH_tells _ _ _ _ _ _ (by omega) e).reports

/-- C97 (SOR, any arithmetic): the history and the result of a run agree, and the last line shows
`get_final_residual() / nrm2(b)`. -/
theorem C97_sor {A : Mat α} {lower : List α → List α → List α → Res (List α)}
    {create : Res (List α → Res (List α))} {x b : List α} {o : Out α} {h : History α}
    (hlib : cfg.lib = 0) (e : SOR.solveH N cfg A lower create true x b = .ok (o, h)) :
    Reports N cfg h o ∧
      ∀ l, h.getLast? = some l → l.2 = N.mul o.finalResid (N.div N.one (N.nrm2 b)) := by
  unfold SOR.solveH at e
  rw [if_pos hlib] at e
  unfold SOR.monolishH at e
  split at e
  · cases e
  obtain ⟨d, _, e⟩ := Res.bind_eq_ok.1 e
  obtain ⟨pc, _, e⟩ := Res.bind_eq_ok.1 e
  obtain ⟨t, sh⟩ := SOR.loopH_tells _ _ _ _ _ _ (by omega) e
  exact ⟨t.reports, sh.2⟩

/-! ### Every line, not only the last -/

theorem stopCheck_maxiter (m iter : Nat) (v : α) (x r : List α) :
    stopCheck N { cfg with maxiter := m } iter v x r = stopCheck N cfg iter v x r := rfl

theorem getResidual_maxiter (m : Nat) (r : List α) :
    getResidual N { cfg with maxiter := m } r = getResidual N cfg r := rfl

theorem stopCheck_iter {iter : Nat} {v : α} {x r : List α} {o : Out α}
    (h : stopCheck N cfg iter v x r = .ok (some o)) : o.finalIter = iter + 1 := by
  unfold stopCheck at h
  split at h
  · obtain ⟨fr, h1, h⟩ := Res.bind_eq_ok.1 h
    cases h
    rfl
  · split at h
    · obtain ⟨fr, h1, h⟩ := Res.bind_eq_ok.1 h
      cases h
      rfl
    · cases h

theorem CG.loopH_num {A : Mat α} {pc : List α → Res (List α)} (m : Nat) :
    ∀ iter s o h, CG.loopH N cfg A pc true m iter s = .ok (o, h) → ∀ l ∈ h, iter < l.1 := by
  induction m with
  | zero =>
    intro iter s o h e l hl
    obtain ⟨q, e1, e⟩ := Res.bind_eq_ok.1 e
    cases e
    cases hl
  | succ m ih =>
    intro iter s o h e l hl
    obtain ⟨s', e1, e⟩ := Res.bind_eq_ok.1 e
    obtain ⟨v, e2, e⟩ := Res.bind_eq_ok.1 e
    obtain ⟨q, e3, e⟩ := Res.bind_eq_ok.1 e
    cases q with
    | some q =>
      cases e
      have : l = (iter + 1, v) := by simpa [line] using hl
      subst this
      exact Nat.lt_succ_self _
    | none =>
      obtain ⟨⟨o', h'⟩, e4, e⟩ := Res.bind_eq_ok.1 e
      cases e
      rcases List.mem_cons.1 (show l ∈ (iter + 1, v) :: h' from hl) with rfl | hl
      · exact Nat.lt_succ_self _
      · exact Nat.lt_of_succ_lt (ih _ _ _ _ e4 l hl)

theorem CG.loopH_truncated {A : Mat α} {pc : List α → Res (List α)} (m : Nat) :
    ∀ iter s o h, CG.loopH N cfg A pc true m iter s = .ok (o, h) → ∀ k v, (k, v) ∈ h →
    ∃ o', CG.loop N { cfg with maxiter := k } A pc (k - iter) iter s = .ok o' ∧
      o'.finalIter = k ∧ o'.finalResid = v := by
  induction m with
  | zero =>
    intro iter s o h e k v hl
    obtain ⟨q, e1, e⟩ := Res.bind_eq_ok.1 e
    cases e
    cases hl
  | succ m ih =>
    intro iter s o h e k w hl
    have hk := CG.loopH_num _ _ _ _ _ e _ hl
    obtain ⟨n, rfl⟩ : ∃ n, k = iter + (n + 1) := ⟨k - iter - 1, by simp only at hk; omega⟩
    rw [Nat.add_sub_cancel_left]
    obtain ⟨s', e1, e⟩ := Res.bind_eq_ok.1 e
    obtain ⟨v, e2, e⟩ := Res.bind_eq_ok.1 e
    obtain ⟨q, e3, e⟩ := Res.bind_eq_ok.1 e
    unfold CG.loop
    rw [e1, Res.ok_bind, getResidual_maxiter, e2, Res.ok_bind, stopCheck_maxiter, e3, Res.ok_bind]
    cases q with
    | some q =>
      cases e
      have : (iter + (n + 1), w) = (iter + 1, v) := by simpa [line] using hl
      injection this with h1 h2
      subst h2
      refine ⟨o, rfl, ?_, ?_⟩
      · rw [stopCheck_iter e3, h1]
      · have := stopCheck_resid e3
        rw [e2] at this
        injection this with this
        exact this.symm
    | none =>
      obtain ⟨⟨o', h'⟩, e4, e⟩ := Res.bind_eq_ok.1 e
      cases e
      dsimp only
      rcases List.mem_cons.1 (show _ ∈ (iter + 1, v) :: h' from hl) with hl | hl
      · injection hl with h1 h2
        subst h2
        have : n = 0 := by omega
        subst this
        refine ⟨{ status := MAXITER, x := s'.x, finalIter := iter + 1, finalResid := w }, ?_, rfl, rfl⟩
        unfold CG.loop atMaxiter
        rw [getResidual_maxiter, e2]
        rfl
      · have := ih _ _ _ _ e4 _ _ hl
        have e : iter + (n + 1) - (iter + 1) = n := by omega
        rwa [e] at this

/-- C97 (CG): line `k` shows what the same call would report if it were limited to `k` iterations. -/
theorem C97_every_line_cg {A : Mat α} {create : Res (List α → Res (List α))} {x b : List α}
    {o : Out α} {h : History α} (hlib : cfg.lib = 0)
    (e : CG.solveH N cfg A create true x b = .ok (o, h)) {k : Nat} {v : α} (hl : (k, v) ∈ h) :
    ∃ o', CG.solve N { cfg with maxiter := k } A create x b = .ok o' ∧ o'.finalIter = k ∧
      o'.finalResid = v := by
  unfold CG.solveH at e
  rw [if_pos hlib] at e
  unfold CG.solve
  rw [if_pos hlib]
  unfold CG.monolishH at e
  unfold CG.monolish
  split at e
  · cases e
  rename_i hs
  rw [if_neg hs]
  obtain ⟨pc, e1, e⟩ := Res.bind_eq_ok.1 e
  obtain ⟨s, e2, e⟩ := Res.bind_eq_ok.1 e
  rw [e1, Res.ok_bind, e2, Res.ok_bind]
  exact CG.loopH_truncated _ _ _ _ _ e _ _ hl

theorem BiCG.loopH_truncated {A : Mat α} {pc : List α → Res (List α)} {r0 : List α} (m : Nat) :
    ∀ iter s o h, BiCG.loopH N cfg A pc true r0 m iter s = .ok (o, h) → ∀ k v, (k, v) ∈ h →
    ∃ n, k = iter + (n + 1) ∧
    ∃ o', BiCG.loop N { cfg with maxiter := k } A pc r0 (n + 1) iter s = .ok o' ∧
      o'.finalIter = k ∧ o'.finalResid = v := by
  induction m with
  | zero =>
    intro iter s o h e k v hl
    obtain ⟨q, e1, e⟩ := Res.bind_eq_ok.1 e
    cases e
    cases hl
  | succ m ih =>
    intro iter s o h e k w hl
    unfold BiCG.loop
    obtain ⟨rho, e1, e⟩ := Res.bind_eq_ok.1 e
    simp only [e1, Res.ok_bind]
    split at e
    · obtain ⟨fr, e2, e⟩ := Res.bind_eq_ok.1 e
      cases e
      cases hl
    rename_i hrho
    simp only [if_neg hrho]
    obtain ⟨p, a1, e⟩ := Res.bind_eq_ok.1 e
    obtain ⟨phat, a2, e⟩ := Res.bind_eq_ok.1 e
    obtain ⟨v, a3, e⟩ := Res.bind_eq_ok.1 e
    obtain ⟨vr0, a4, e⟩ := Res.bind_eq_ok.1 e
    obtain ⟨sv, a5, e⟩ := Res.bind_eq_ok.1 e
    obtain ⟨shat, a6, e⟩ := Res.bind_eq_ok.1 e
    obtain ⟨t, a7, e⟩ := Res.bind_eq_ok.1 e
    obtain ⟨ts, a8, e⟩ := Res.bind_eq_ok.1 e
    obtain ⟨tt, a9, e⟩ := Res.bind_eq_ok.1 e
    dsimp only at e
    simp only [a1, a2, a3, a4, a5, Res.ok_bind, a6, Res.ok_bind, a7, Res.ok_bind, a8, Res.ok_bind, a9, Res.ok_bind]
    split at e
    · obtain ⟨fr, e2, e⟩ := Res.bind_eq_ok.1 e
      cases e
      cases hl
    rename_i hom
    simp only [if_neg hom]
    obtain ⟨x1, b1, e⟩ := Res.bind_eq_ok.1 e
    obtain ⟨x2, b2, e⟩ := Res.bind_eq_ok.1 e
    obtain ⟨r, b3, e⟩ := Res.bind_eq_ok.1 e
    obtain ⟨v', e2, e⟩ := Res.bind_eq_ok.1 e
    obtain ⟨q, e3, e⟩ := Res.bind_eq_ok.1 e
    simp only [b1, Res.ok_bind, b2, Res.ok_bind, b3, Res.ok_bind, getResidual_maxiter, e2, Res.ok_bind,
      stopCheck_maxiter, e3, Res.ok_bind]
    cases q with
    | some q =>
      cases e
      have : (k, w) = (iter + 1, v') := by simpa [line] using hl
      injection this with h1 h2
      subst h2
      refine ⟨0, h1, o, rfl, ?_, ?_⟩
      · rw [stopCheck_iter e3, h1]
      · have := stopCheck_resid e3
        rw [e2] at this
        injection this with this
        exact this.symm
    | none =>
      obtain ⟨⟨o', h'⟩, e4, e⟩ := Res.bind_eq_ok.1 e
      cases e
      rcases List.mem_cons.1 (show _ ∈ (iter + 1, v') :: h' from hl) with hl | hl
      · injection hl with h1 h2
        subst h2 h1
        refine ⟨0, rfl, { status := MAXITER, x := x2, finalIter := iter + 1, finalResid := w }, ?_, rfl, rfl⟩
        unfold BiCG.loop atMaxiter
        rw [getResidual_maxiter, e2]
        rfl
      · obtain ⟨n, hn, o', h1, h2⟩ := ih _ _ _ _ e4 _ _ hl
        exact ⟨n + 1, by omega, o', h1, h2⟩

/-- C97 (BiCGSTAB): line `k` shows what the same call would report if it were limited to `k`
iterations. -/
theorem C97_every_line_bicg {A : Mat α} {create : Res (List α → Res (List α))} {x b : List α}
    {o : Out α} {h : History α} (hlib : cfg.lib = 0)
    (e : BiCG.solveH N cfg A create true x b = .ok (o, h)) {k : Nat} {v : α} (hl : (k, v) ∈ h) :
    ∃ o', BiCG.solve N { cfg with maxiter := k } A create x b = .ok o' ∧ o'.finalIter = k ∧
      o'.finalResid = v := by
  unfold BiCG.solveH at e
  rw [if_pos hlib] at e
  unfold BiCG.solve
  rw [if_pos hlib]
  unfold BiCG.monolishH at e
  unfold BiCG.monolish
  split at e
  · cases e
  rename_i hs
  rw [if_neg hs]
  obtain ⟨pc, e1, e⟩ := Res.bind_eq_ok.1 e
  obtain ⟨q, e2, e⟩ := Res.bind_eq_ok.1 e
  obtain ⟨r, e3, e⟩ := Res.bind_eq_ok.1 e
  rw [e1, Res.ok_bind, e2, Res.ok_bind, e3, Res.ok_bind]
  obtain ⟨n, hn, h⟩ := BiCG.loopH_truncated _ _ _ _ _ e _ _ hl
  rw [Nat.zero_add] at hn
  subst hn
  exact h

theorem Jacobi.loopH_truncated {A : Mat α} {pc : List α → Res (List α)} {b d : List α} {binv : α}
    (hm : cfg.residMethod = 0) (m : Nat) :
    ∀ iter x r o h, Jacobi.loopH N cfg A pc true b d binv m iter x r = .ok (o, h) →
    ∀ k v, (k, v) ∈ h → ∃ n, k = iter + n + 1 ∧ ∃ o' t r',
      Jacobi.loop N { cfg with maxiter := iter + n } A pc b d binv n iter x r = .ok o' ∧
      A.mv o'.x = .ok t ∧ N.axpyz (N.neg N.one) t b A.row = .ok r' ∧
      v = N.mul (N.nrm2 r') binv := by
  induction m with
  | zero =>
    intro iter x r o h e k v hl
    obtain ⟨q, e1, e⟩ := Res.bind_eq_ok.1 e
    cases e
    cases hl
  | succ m ih =>
    intro iter x r o h e k w hl
    obtain ⟨u, a1, e⟩ := Res.bind_eq_ok.1 e
    obtain ⟨s, a2, e⟩ := Res.bind_eq_ok.1 e
    obtain ⟨t, a3, e⟩ := Res.bind_eq_ok.1 e
    obtain ⟨r1, a4, e⟩ := Res.bind_eq_ok.1 e
    obtain ⟨r2, a5, e⟩ := Res.bind_eq_ok.1 e
    obtain ⟨x1, a6, e⟩ := Res.bind_eq_ok.1 e
    obtain ⟨q, e3, e⟩ := Res.bind_eq_ok.1 e
    have hsx : s = x := by
      obtain ⟨_, _, a2⟩ := Res.bind_eq_ok.1 a2
      injection a2 with a2
      exact a2.symm
    have first : ∀ k, (k, w) = (iter + 1, N.mul (N.nrm2 r1) binv) →
        ∃ n, k = iter + n + 1 ∧ ∃ o' t r',
        Jacobi.loop N { cfg with maxiter := iter + n } A pc b d binv n iter x r = .ok o' ∧
        A.mv o'.x = .ok t ∧ N.axpyz (N.neg N.one) t b A.row = .ok r' ∧
        w = N.mul (N.nrm2 r') binv := by
      intro k e
      injection e with h1 h2
      refine ⟨0, h1, { status := MAXITER, x := x, finalIter := iter, finalResid := N.nrm2 r }, t, r1,
        ?_, ?_, a4, h2⟩
      · unfold Jacobi.loop atMaxiter getResidual
        dsimp only
        rw [hm]
        rfl
      · subst hsx
        exact a3
    cases q with
    | some q =>
      cases e
      exact first k (by simpa [line] using hl)
    | none =>
      obtain ⟨⟨o', h'⟩, e4, e⟩ := Res.bind_eq_ok.1 e
      cases e
      rcases List.mem_cons.1 (show _ ∈ (iter + 1, N.mul (N.nrm2 r1) binv) :: h' from hl) with hl | hl
      · exact first k hl
      · obtain ⟨n, hn, o', t', r', h1, h2⟩ := ih _ _ _ _ _ e4 _ _ hl
        refine ⟨n + 1, by omega, o', t', r', ?_, h2⟩
        unfold Jacobi.loop
        rw [a1, Res.ok_bind, a2, Res.ok_bind, a3, Res.ok_bind, a4, Res.ok_bind]
        dsimp only
        rw [a5, Res.ok_bind, a6, Res.ok_bind, stopCheck_maxiter, e3, Res.ok_bind]
        have e : iter + (n + 1) = iter + 1 + n := by omega
        rw [e]
        exact h1

/-- C97 (Jacobi): line `k + 1` shows `nrm2(b - A x) / nrm2(b)` for the vector `x` that the same call
would return if it were limited to `k` iterations: the residual before the sweep, not after it. -/
theorem C97_every_line_jacobi {A : Mat α} {create : Res (List α → Res (List α))} {x b : List α}
    {o : Out α} {h : History α} (hlib : cfg.lib = 0) (hm : cfg.residMethod = 0)
    (e : Jacobi.solveH N cfg A create true x b = .ok (o, h)) {k : Nat} {v : α}
    (hl : (k + 1, v) ∈ h) :
    ∃ o' t r, Jacobi.solve N { cfg with maxiter := k } A create x b = .ok o' ∧
      A.mv o'.x = .ok t ∧ N.axpyz (N.neg N.one) t b A.row = .ok r ∧
      v = N.mul (N.nrm2 r) (N.div N.one (N.nrm2 b)) := by
  unfold Jacobi.solveH at e
  rw [if_pos hlib] at e
  unfold Jacobi.solve
  rw [if_pos hlib]
  unfold Jacobi.monolishH at e
  unfold Jacobi.monolish
  split at e
  · cases e
  rename_i hs
  rw [if_neg hs]
  obtain ⟨d, e1, e⟩ := Res.bind_eq_ok.1 e
  obtain ⟨pc, e2, e⟩ := Res.bind_eq_ok.1 e
  rw [e1, Res.ok_bind, e2, Res.ok_bind]
  obtain ⟨n, hn, o', t, r, h1, h2⟩ := Jacobi.loopH_truncated hm _ _ _ _ _ _ e _ _ hl
  have : k = n := by omega
  subst this
  rw [Nat.zero_add] at h1
  exact ⟨o', t, r, h1, h2⟩

theorem SOR.loopH_truncated {A : Mat α} {lower : List α → List α → List α → Res (List α)}
    {pc : List α → Res (List α)} {b d : List α} {binv : α} (hm : cfg.residMethod = 0) (m : Nat) :
    ∀ iter x r o h, SOR.loopH N cfg A lower pc true b d binv m iter x r = .ok (o, h) →
    ∀ k v, (k, v) ∈ h → ∃ n, k = iter + n + 1 ∧ ∃ o' s t r',
      SOR.loop N { cfg with maxiter := iter + n } A lower pc b d binv n iter x r = .ok o' ∧
      pc o'.x = .ok s ∧ A.mv s = .ok t ∧ N.axpyz (N.neg N.one) t b A.row = .ok r' ∧
      v = N.mul (N.nrm2 r') binv := by
  induction m with
  | zero =>
    intro iter x r o h e k v hl
    obtain ⟨q, e1, e⟩ := Res.bind_eq_ok.1 e
    cases e
    cases hl
  | succ m ih =>
    intro iter x r o h e k w hl
    obtain ⟨s, a1, e⟩ := Res.bind_eq_ok.1 e
    obtain ⟨t, a3, e⟩ := Res.bind_eq_ok.1 e
    obtain ⟨r1, a4, e⟩ := Res.bind_eq_ok.1 e
    obtain ⟨t1, a5, e⟩ := Res.bind_eq_ok.1 e
    obtain ⟨x1, a6, e⟩ := Res.bind_eq_ok.1 e
    obtain ⟨q, e3, e⟩ := Res.bind_eq_ok.1 e
    have first : ∀ k, (k, w) = (iter + 1, N.mul (N.nrm2 r1) binv) →
        ∃ n, k = iter + n + 1 ∧ ∃ o' s t r',
        SOR.loop N { cfg with maxiter := iter + n } A lower pc b d binv n iter x r = .ok o' ∧
        pc o'.x = .ok s ∧ A.mv s = .ok t ∧ N.axpyz (N.neg N.one) t b A.row = .ok r' ∧
        w = N.mul (N.nrm2 r') binv := by
      intro k e
      injection e with h1 h2
      refine ⟨0, h1, { status := MAXITER, x := x, finalIter := iter, finalResid := N.nrm2 r }, s, t, r1,
        ?_, a1, a3, a4, h2⟩
      unfold SOR.loop atMaxiter getResidual
      dsimp only
      rw [hm]
      rfl
    cases q with
    | some q =>
      cases e
      exact first k (by simpa [line] using hl)
    | none =>
      obtain ⟨⟨o', h'⟩, e4, e⟩ := Res.bind_eq_ok.1 e
      cases e
      rcases List.mem_cons.1 (show _ ∈ (iter + 1, N.mul (N.nrm2 r1) binv) :: h' from hl) with hl | hl
      · exact first k hl
      · obtain ⟨n, hn, o', s', t', r', h1, h2⟩ := ih _ _ _ _ _ e4 _ _ hl
        refine ⟨n + 1, by omega, o', s', t', r', ?_, h2⟩
        unfold SOR.loop
        rw [a1, Res.ok_bind, a3, Res.ok_bind, a4, Res.ok_bind]
        dsimp only
        rw [a5, Res.ok_bind, a6, Res.ok_bind, stopCheck_maxiter, e3, Res.ok_bind]
        have e : iter + (n + 1) = iter + 1 + n := by omega
        rw [e]
        exact h1

/-- C97 (SOR without preconditioner): line `k + 1` shows `nrm2(b - A x) / nrm2(b)` for the vector `x`
that the same call would return if it were limited to `k` iterations. -/
theorem C97_every_line_sor {A : Mat α} {lower : List α → List α → List α → Res (List α)}
    {x b : List α} {o : Out α} {h : History α} (hlib : cfg.lib = 0) (hm : cfg.residMethod = 0)
    (e : SOR.solveH N cfg A lower noPrecond true x b = .ok (o, h)) {k : Nat} {v : α}
    (hl : (k + 1, v) ∈ h) :
    ∃ o' t r, SOR.solve N { cfg with maxiter := k } A lower noPrecond x b = .ok o' ∧
      A.mv o'.x = .ok t ∧ N.axpyz (N.neg N.one) t b A.row = .ok r ∧
      v = N.mul (N.nrm2 r) (N.div N.one (N.nrm2 b)) := by
  unfold SOR.solveH at e
  rw [if_pos hlib] at e
  unfold SOR.solve
  rw [if_pos hlib]
  unfold SOR.monolishH at e
  unfold SOR.monolish
  split at e
  · cases e
  rename_i hs
  rw [if_neg hs]
  obtain ⟨d, e1, e⟩ := Res.bind_eq_ok.1 e
  obtain ⟨pc, e2, e⟩ := Res.bind_eq_ok.1 e
  rw [e1, Res.ok_bind, e2, Res.ok_bind]
  obtain ⟨n, hn, o', s, t, r, h1, h2, h3⟩ := SOR.loopH_truncated hm _ _ _ _ _ _ e _ _ hl
  have : k = n := by omega
  subst this
  rw [Nat.zero_add] at h1
  cases e2
  cases h2
  exact ⟨o', t, r, h1, h3⟩

/-- C97 (CG, exact arithmetic): as long as no division by zero occurs before the method stops, line `k`
shows the norm of the true residual `b - A x_k` of the textbook iterate `x_k`. -/
theorem C97_exact_cg {K : Type} [Field K] [LinearOrder K] [IsStrictOrderedRing K] {ι : K → α}
    {sq : K → K} {n : Nat} (hN : Exact N ι sq) (tol : K) (ht : cfg.tol = ι tol)
    (hlib : cfg.lib = 0) (hm : cfg.residMethod = 0) {A : Mat α} {M : Matrix (Fin n) (Fin n) K}
    (hA : IsMat A ι M) {create : Res (List α → Res (List α))} {P : (Fin n → K) → Fin n → K}
    (hP : IsPrecond create ι P) (x b : Fin n → K)
    (hreg : ∀ j, j < cfg.maxiter →
      (∀ i, 1 ≤ i → i ≤ j → ¬ Accept sq M b tol cfg.miniter i (Spec.CG.at M P b x i).x) →
      (Spec.CG.at M P b x j).Regular M) {o : Out α} {h : History α}
    (e : CG.solveH N cfg A create true (vec ι x) (vec ι b) = .ok (o, h)) {k : Nat} {v : α}
    (hl : (k, v) ∈ h) : v = ι (norm2 sq (b - M *ᵥ (Spec.CG.at M P b x k).x)) := by
  have hr := (C97_cg hlib e).1
  have hk : k ≤ cfg.maxiter := by
    have h1 : k ∈ h.map Prod.fst := List.mem_map_of_mem (f := Prod.fst) hl
    rw [hr.numbers, List.mem_range'_1] at h1
    have h2 := hr.iters
    have h3 := (C29_status N cfg hlib A create _ _ o (by rw [← C97_same_cg N cfg A create true, e]; rfl)).bound
    split at h2 <;> omega
  obtain ⟨o', e1, e2, e3⟩ := C97_every_line_cg hlib e hl
  obtain ⟨k', st, _, h1, _⟩ := C29_exact hN { cfg with maxiter := k } tol ht hlib hm A M hA create P hP x b
    (fun j hj => hreg j (Nat.lt_of_lt_of_le hj hk))
  rw [e1] at h1
  injection h1 with h1
  subst h1
  dsimp only at e2 e3
  rw [← e3, e2]

/-! ### Nothing is printed unless asked for -/

theorem CG.loopH_off {A : Mat α} {pc : List α → Res (List α)} (m : Nat) : ∀ iter s o h,
    CG.loopH N cfg A pc false m iter s = .ok (o, h) → h = [] := by
  induction m with
  | zero =>
    intro iter s o h e
    obtain ⟨q, e1, e⟩ := Res.bind_eq_ok.1 e
    cases e
    rfl
  | succ m ih =>
    intro iter s o h e
    obtain ⟨s', e1, e⟩ := Res.bind_eq_ok.1 e
    obtain ⟨v, e2, e⟩ := Res.bind_eq_ok.1 e
    obtain ⟨q, e3, e⟩ := Res.bind_eq_ok.1 e
    cases q with
    | some q => cases e; rfl
    | none =>
      obtain ⟨⟨o', h'⟩, e4, e⟩ := Res.bind_eq_ok.1 e
      cases e
      cases ih _ _ _ _ e4
      rfl

theorem BiCG.loopH_off {A : Mat α} {pc : List α → Res (List α)} {r0 : List α} (m : Nat) :
    ∀ iter s o h, BiCG.loopH N cfg A pc false r0 m iter s = .ok (o, h) → h = [] := by
  induction m with
  | zero =>
    intro iter s o h e
    obtain ⟨q, e1, e⟩ := Res.bind_eq_ok.1 e
    cases e
    rfl
  | succ m ih =>
    intro iter s o h e
    obtain ⟨rho, e1, e⟩ := Res.bind_eq_ok.1 e
    split at e
    · obtain ⟨fr, e2, e⟩ := Res.bind_eq_ok.1 e
      cases e
      rfl
    obtain ⟨p, _, e⟩ := Res.bind_eq_ok.1 e
    obtain ⟨phat, _, e⟩ := Res.bind_eq_ok.1 e
    obtain ⟨v, _, e⟩ := Res.bind_eq_ok.1 e
    obtain ⟨vr0, _, e⟩ := Res.bind_eq_ok.1 e
    obtain ⟨sv, _, e⟩ := Res.bind_eq_ok.1 e
    obtain ⟨shat, _, e⟩ := Res.bind_eq_ok.1 e
    obtain ⟨t, _, e⟩ := Res.bind_eq_ok.1 e
    obtain ⟨ts, _, e⟩ := Res.bind_eq_ok.1 e
    obtain ⟨tt, _, e⟩ := Res.bind_eq_ok.1 e
    dsimp only at e
    split at e
    · obtain ⟨fr, e2, e⟩ := Res.bind_eq_ok.1 e
      cases e
      rfl
    obtain ⟨x1, _, e⟩ := Res.bind_eq_ok.1 e
    obtain ⟨x2, _, e⟩ := Res.bind_eq_ok.1 e
    obtain ⟨r, _, e⟩ := Res.bind_eq_ok.1 e
    obtain ⟨v', e2, e⟩ := Res.bind_eq_ok.1 e
    obtain ⟨q, e3, e⟩ := Res.bind_eq_ok.1 e
    cases q with
    | some q => cases e; rfl
    | none =>
      obtain ⟨⟨o', h'⟩, e4, e⟩ := Res.bind_eq_ok.1 e
      cases e
      cases ih _ _ _ _ e4
      rfl

theorem Jacobi.loopH_off {A : Mat α} {pc : List α → Res (List α)} {b d : List α} {binv : α}
    (m : Nat) : ∀ iter x r o h,
    Jacobi.loopH N cfg A pc false b d binv m iter x r = .ok (o, h) → h = [] := by
  induction m with
  | zero =>
    intro iter x r o h e
    obtain ⟨q, e1, e⟩ := Res.bind_eq_ok.1 e
    cases e
    rfl
  | succ m ih =>
    intro iter x r o h e
    obtain ⟨u, _, e⟩ := Res.bind_eq_ok.1 e
    obtain ⟨s, _, e⟩ := Res.bind_eq_ok.1 e
    obtain ⟨t, _, e⟩ := Res.bind_eq_ok.1 e
    obtain ⟨r1, _, e⟩ := Res.bind_eq_ok.1 e
    obtain ⟨r2, _, e⟩ := Res.bind_eq_ok.1 e
    obtain ⟨x1, _, e⟩ := Res.bind_eq_ok.1 e
    obtain ⟨q, e3, e⟩ := Res.bind_eq_ok.1 e
    cases q with
    | some q => cases e; rfl
    | none =>
      obtain ⟨⟨o', h'⟩, e4, e⟩ := Res.bind_eq_ok.1 e
      cases e
      cases ih _ _ _ _ _ e4
      rfl

theorem SOR.loopH_off {A : Mat α} {lower : List α → List α → List α → Res (List α)}
    {pc : List α → Res (List α)} {b d : List α} {binv : α} (m : Nat) : ∀ iter x r o h,
    SOR.loopH N cfg A lower pc false b d binv m iter x r = .ok (o, h) → h = [] := by
  induction m with
  | zero =>
    intro iter x r o h e
    obtain ⟨q, e1, e⟩ := Res.bind_eq_ok.1 e
    cases e
    rfl
  | succ m ih =>
    intro iter x r o h e
    obtain ⟨s, _, e⟩ := Res.bind_eq_ok.1 e
    obtain ⟨t, _, e⟩ := Res.bind_eq_ok.1 e
    obtain ⟨r1, _, e⟩ := Res.bind_eq_ok.1 e
    obtain ⟨r2, _, e⟩ := Res.bind_eq_ok.1 e
    obtain ⟨x1, _, e⟩ := Res.bind_eq_ok.1 e
    obtain ⟨q, e3, e⟩ := Res.bind_eq_ok.1 e
    cases q with
    | some q => cases e; rfl
    | none =>
      obtain ⟨⟨o', h'⟩, e4, e⟩ := Res.bind_eq_ok.1 e
      cases e
      cases ih _ _ _ _ _ e4
      rfl

/-- C97: without `set_print_rhistory(true)` no solver writes to the history stream. -/
theorem C97_silent {A : Mat α} {lower : List α → List α → List α → Res (List α)}
    {create : Res (List α → Res (List α))} {x b : List α} {o : Out α} {h : History α}
    (e : CG.solveH N cfg A create false x b = .ok (o, h) ∨
      BiCG.solveH N cfg A create false x b = .ok (o, h) ∨
      Jacobi.solveH N cfg A create false x b = .ok (o, h) ∨
      SOR.solveH N cfg A lower create false x b = .ok (o, h)) : h = [] := by
  rcases e with e | e | e | e
  · unfold CG.solveH at e
    split at e
    · unfold CG.monolishH at e
      split at e
      · cases e
      obtain ⟨pc, _, e⟩ := Res.bind_eq_ok.1 e
      obtain ⟨s, _, e⟩ := Res.bind_eq_ok.1 e
      exact CG.loopH_off _ _ _ _ _ e
    · cases e; rfl
  · unfold BiCG.solveH at e
    split at e
    · unfold BiCG.monolishH at e
      split at e
      · cases e
      obtain ⟨pc, _, e⟩ := Res.bind_eq_ok.1 e
      obtain ⟨s, _, e⟩ := Res.bind_eq_ok.1 e
      obtain ⟨r, _, e⟩ := Res.bind_eq_ok.1 e
      exact BiCG.loopH_off _ _ _ _ _ e
    · cases e; rfl
  · unfold Jacobi.solveH at e
    split at e
    · unfold Jacobi.monolishH at e
      split at e
      · cases e
      obtain ⟨d, _, e⟩ := Res.bind_eq_ok.1 e
      obtain ⟨pc, _, e⟩ := Res.bind_eq_ok.1 e
      exact Jacobi.loopH_off _ _ _ _ _ _ e
    · cases e; rfl
  · unfold SOR.solveH at e
    split at e
    · unfold SOR.monolishH at e
      split at e
      · cases e
      obtain ⟨d, _, e⟩ := Res.bind_eq_ok.1 e
      obtain ⟨pc, _, e⟩ := Res.bind_eq_ok.1 e
      exact SOR.loopH_off _ _ _ _ _ _ e
    · cases e; rfl

/-- C97 is violated for Jacobi: the last line is neither `get_final_residual()` nor that number divided
by `nrm2(b)`. `A = [[4]], b = 2, x = 0`, one sweep (`sq = id`): the line shows 4/4 = 1, the reported
number is 1/4. -/
theorem C97_jacobi_last_violated :
    ∃ (o : Out ℚ) (h : History ℚ) (l : Nat × ℚ),
      Jacobi.solveH (fieldNum (id : ℚ → ℚ)) { tol := 10, maxiter := 5, omega := 1, prevResid := 0 }
        (ofCrs [0] [0] ⟨1, 1, [0, 1], [0], [4], 1, 1, true⟩) noPrecond true [0] [2] = .ok (o, h) ∧
      h.getLast? = some l ∧ l.2 ≠ o.finalResid ∧
      l.2 ≠ o.finalResid * (1 / (fieldNum (id : ℚ → ℚ)).nrm2 [2]) :=
  ⟨{ status := SUCCESS, x := [1 / 2], finalIter := 1, finalResid := 1 / 4 }, [(1, 1)], (1, 1),
    by decide +kernel⟩

/-- a run of CG with two lines: `A = [[4, 1], [1, 4]], b = (1, 2), x = 0` -/
example : CG.solveH (fieldNum (id : ℚ → ℚ)) { tol := 1 / 100, maxiter := 9, omega := 1, prevResid := 0 }
    (ofCrs [0, 1] [0, 1] ⟨2, 2, [0, 2, 4], [0, 1, 0, 1], [4, 1, 1, 4], 4, 4, true⟩) noPrecond true
    [0, 0] [1, 2] =
    .ok ({ status := SUCCESS, x := [2 / 15, 7 / 15], finalIter := 2, finalResid := 0 },
      [(1, 5 / 64), (2, 0)]) := by
  decide +kernel

/-- a run of BiCGSTAB that ends in a breakdown in the second iteration, after one line -/
example : BiCG.solveH (fieldNum (id : ℚ → ℚ)) { tol := 1 / 100, maxiter := 9, omega := 1, prevResid := 0 }
    (ofCrs [0, 1] [0, 1] ⟨2, 2, [0, 1, 2], [1, 0], [1, 1], 2, 2, true⟩) noPrecond true
    [0, 0] [2, 1] =
    .ok ({ status := BREAKDOWN, x := [19 / 10, 49 / 20], finalIter := 2, finalResid := 81 / 80 },
      [(1, 81 / 80)]) := by
  decide +kernel

/-- a run of SOR (Gauss-Seidel) with its lines: `nrm2(b) = 1` (`sq = id`), so that every line is the
residual before the sweep -/
example : let A : Crs ℚ := ⟨2, 2, [0, 2, 4], [0, 1, 0, 1], [2, 1, 1, 2], 4, 4, true⟩
    SOR.solveH (fieldNum (id : ℚ → ℚ)) { tol := 1 / 10, maxiter := 9, omega := 1, prevResid := 0 }
      (ofCrs [0, 1] [0, 1] A) (crsLower (fieldNum id) A) noPrecond true [0, 0] [1, 0] =
      .ok ({ status := SUCCESS, x := [5 / 8, -5 / 16], finalIter := 2, finalResid := 1 / 16 },
        [(1, 1), (2, 1 / 16)]) := by
  decide +kernel

end Verif.Solver
