import Verif.Props.CG
import Verif.Props.SolverMat

/-!
C30: BiCGSTAB keeps the true residual and reports faithfully; what happens when the half step is
exact.
-/

namespace Verif.Solver

open Verif.Spec Matrix

variable {α K : Type} {n : Nat}

/-- What a return code of BiCGSTAB promises, whatever the arithmetic is. -/
structure FaithfulB (N : Num α) (cfg : Cfg α) (out : Out α) : Prop where
  codes : out.status = SUCCESS ∨ out.status = RESIDUAL_NAN ∨ out.status = MAXITER ∨
    out.status = BREAKDOWN
  bound : out.finalIter ≤ cfg.maxiter
  success : out.status = SUCCESS → 1 ≤ out.finalIter ∧ N.lt out.finalResid cfg.tol = true ∧
    cfg.miniter ≤ out.finalIter
  nan : out.status = RESIDUAL_NAN → 1 ≤ out.finalIter ∧ N.isNaN out.finalResid = true
  maxiter : out.status = MAXITER → out.finalIter = cfg.maxiter ∧
    (1 ≤ cfg.maxiter → N.isNaN out.finalResid = false ∧
      ¬ (N.lt out.finalResid cfg.tol = true ∧ cfg.miniter ≤ cfg.maxiter))
  breakdown : out.status = BREAKDOWN → 1 ≤ out.finalIter ∧
    (2 ≤ out.finalIter → N.isNaN out.finalResid = false ∧
      ¬ (N.lt out.finalResid cfg.tol = true ∧ cfg.miniter ≤ out.finalIter - 1))

theorem Faithful.toB {N : Num α} {cfg : Cfg α} {out : Out α} (h : Faithful N cfg out.finalResid out) :
    FaithfulB N cfg out where
  codes := by rcases h.codes with h | h | h <;> simp [h]
  bound := h.bound
  success := h.success
  nan := h.nan
  maxiter := h.maxiter
  breakdown hb := by
    rcases h.codes with h | h | h <;> rw [h] at hb <;>
      simp [SUCCESS, MAXITER, RESIDUAL_NAN, BREAKDOWN] at hb

theorem BiCG.loop_faithful {N : Num α} {cfg : Cfg α} {A : Mat α} {pc : List α → Res (List α)}
    {r0 : List α} (m : Nat) : ∀ (iter : Nat) (s : BiCG.St α) (out : Out α),
    iter + m = cfg.maxiter →
    (1 ≤ iter → ∀ v, getResidual N cfg s.r = .ok v → N.isNaN v = false ∧
      ¬ (N.lt v cfg.tol = true ∧ cfg.miniter ≤ iter)) →
    BiCG.loop N cfg A pc r0 m iter s = .ok out → FaithfulB N cfg out := by
  induction m with
  | zero =>
    intro iter s out hm hlast h
    obtain ⟨fr, h1, h2⟩ := Res.bind_eq_ok.1 h
    injection h2 with h2; subst h2
    refine Faithful.toB ⟨.inr (.inr rfl), le_refl _,
      (fun h => absurd (show MAXITER = SUCCESS from h) (by decide)),
      (fun h => absurd (show MAXITER = RESIDUAL_NAN from h) (by decide)), fun _ => ⟨rfl, fun h1m => ?_⟩⟩
    have : iter = cfg.maxiter := by omega
    rw [← this] at h1m ⊢
    exact hlast h1m _ h1
  | succ m ih =>
    intro iter s out hm hlast h
    have hbreak : ∀ fr, getResidual N cfg s.r = .ok fr →
        FaithfulB N cfg { status := BREAKDOWN, x := s.x, finalIter := iter + 1, finalResid := fr } := by
      intro fr h1
      refine ⟨by simp, by show iter + 1 ≤ _; omega,
        (fun h => absurd (show BREAKDOWN = SUCCESS from h) (by decide)),
        (fun h => absurd (show BREAKDOWN = RESIDUAL_NAN from h) (by decide)),
        (fun h => absurd (show BREAKDOWN = MAXITER from h) (by decide)),
        fun _ => ⟨by show 1 ≤ iter + 1; omega, fun h2 => ?_⟩⟩
      have h2 : 2 ≤ iter + 1 := h2
      exact hlast (by omega) _ h1
    unfold BiCG.loop at h
    obtain ⟨rho, _, h⟩ := Res.bind_eq_ok.1 h
    split at h
    · obtain ⟨fr, h1, h2⟩ := Res.bind_eq_ok.1 h
      injection h2 with h2; subst h2
      exact hbreak fr h1
    obtain ⟨p, _, h⟩ := Res.bind_eq_ok.1 h
    obtain ⟨phat, _, h⟩ := Res.bind_eq_ok.1 h
    obtain ⟨v, _, h⟩ := Res.bind_eq_ok.1 h
    obtain ⟨vr0, _, h⟩ := Res.bind_eq_ok.1 h
    obtain ⟨sv, _, h⟩ := Res.bind_eq_ok.1 h
    obtain ⟨shat, _, h⟩ := Res.bind_eq_ok.1 h
    obtain ⟨t, _, h⟩ := Res.bind_eq_ok.1 h
    obtain ⟨ts, _, h⟩ := Res.bind_eq_ok.1 h
    obtain ⟨tt, _, h⟩ := Res.bind_eq_ok.1 h
    dsimp only at h
    split at h
    · obtain ⟨fr, h1, h2⟩ := Res.bind_eq_ok.1 h
      injection h2 with h2; subst h2
      exact hbreak fr h1
    obtain ⟨x1, _, h⟩ := Res.bind_eq_ok.1 h
    obtain ⟨x2, _, h⟩ := Res.bind_eq_ok.1 h
    obtain ⟨r, _, h⟩ := Res.bind_eq_ok.1 h
    obtain ⟨v, hv, h⟩ := Res.bind_eq_ok.1 h
    obtain ⟨o, ho, h⟩ := Res.bind_eq_ok.1 h
    cases o with
    | some o =>
      injection h with h; subst h
      obtain ⟨hf, hr, _⟩ := stopCheck_some (by omega) ho
      rw [hv] at hr; injection hr with hr
      rw [hr] at hf; exact hf.toB
    | none =>
      refine ih (iter + 1) _ out (by omega) (fun _ v' hv' => ?_) h
      rw [hv] at hv'; injection hv' with hv'; subst hv'
      exact stopCheck_none ho

/-- C30 (status, any arithmetic): for every scalar type and operations (hence also IEEE numbers with
rounding), every matrix and preconditioner, the return code, `get_final_iter()` and
`get_final_residual()` agree: SUCCESS only below the tolerance and after `miniter` iterations,
RESIDUAL_NAN only with a NaN, MAXITER after exactly `maxiter` iterations with neither, BREAKDOWN only
in an iteration that no earlier acceptance or NaN preceded. -/
theorem C30_status (N : Num α) (cfg : Cfg α) (hlib : cfg.lib = 0) (A : Mat α)
    (create : Res (List α → Res (List α))) (x b : List α) (out : Out α)
    (h : BiCG.solve N cfg A create x b = .ok out) : FaithfulB N cfg out := by
  unfold BiCG.solve at h
  rw [if_pos hlib] at h
  unfold BiCG.monolish at h
  split at h
  · cases h
  obtain ⟨pc, _, h⟩ := Res.bind_eq_ok.1 h
  obtain ⟨q, _, h⟩ := Res.bind_eq_ok.1 h
  obtain ⟨r, _, h⟩ := Res.bind_eq_ok.1 h
  exact BiCG.loop_faithful cfg.maxiter 0 _ out (by omega) (fun h => absurd h (by omega)) h

/-- C30: a matrix that is not square is rejected. -/
theorem C30_nonsquare (N : Num α) (cfg : Cfg α) (hlib : cfg.lib = 0) (A : Mat α)
    (hA : A.row ≠ A.col) (create : Res (List α → Res (List α))) (x b : List α) :
    ∃ msg, BiCG.solve N cfg A create x b = .throw msg := by
  refine ⟨"error A.row != A.col", ?_⟩
  simp [BiCG.solve, hlib, BiCG.monolish, hA]

section exact

variable [Field K] [LinearOrder K] [IsStrictOrderedRing K] {N : Num α} {ι : K → α} {sq : K → K}

/-- the machine state that holds the textbook state -/
def BiCG.embed (ι : K → α) (s : Spec.BiCG n K) : BiCG.St α :=
  { x := vec ι s.x, r := vec ι s.r, p := vec ι s.p, v := vec ι s.v, rhoOld := ι s.rho,
    alpha := ι s.alpha, omega := ι s.omega }

/-- the residual vector of the method is the true residual of its `x` -/
theorem BiCG.residual (M : Matrix (Fin n) (Fin n) K) (P : (Fin n → K) → Fin n → K)
    (b x : Fin n → K) (k : Nat) :
    (Spec.BiCG.at' M P b x k).r = b - M *ᵥ (Spec.BiCG.at' M P b x k).x := by
  induction k with
  | zero => rfl
  | succ k ih =>
    simp only [Spec.BiCG.at', Spec.BiCG.next, Spec.BiCG.mid, Spec.BiCG.newT, Spec.BiCG.newV, ih,
      mulVec_add, mulVec_smul, sub_sub, add_assoc]

theorem BiCG.direction_exact (h : Exact N ι sq) (r0 : Fin n → K) (k : Nat) (s : Spec.BiCG n K)
    (hs : 1 ≤ k → s.rho ≠ 0 ∧ s.omega ≠ 0) :
    BiCG.direction N n k (BiCG.embed ι s) (ι (s.r ⬝ᵥ r0)) = .ok (vec ι (s.dir r0 k)) := by
  unfold BiCG.direction Spec.BiCG.dir
  by_cases hk : k = 0
  · rw [if_pos hk, if_pos hk]
    exact copyV_vec _
  · rw [if_neg hk, if_neg hk]
    obtain ⟨h1, h2⟩ := hs (by omega)
    simp only [BiCG.embed, h.div _ _ h1, h.div _ _ h2, h.mul, axpy_neg_vec h, Res.ok_bind,
      xpay_vec h]

/-- the stopping rule in the textbook: iteration `k` (from 1) is the last one -/
def StopsB (sq : K → K) (M : Matrix (Fin n) (Fin n) K) (P : (Fin n → K) → Fin n → K)
    (b x : Fin n → K) (tol : K) (miniter k : Nat) : Prop :=
  Accept sq M b tol miniter k (Spec.BiCG.at' M P b x k).x

theorem BiCG.loop_exact (h : Exact N ι sq) {cfg : Cfg α} {tol : K} (ht : cfg.tol = ι tol)
    (hm : cfg.residMethod = 0) {A : Mat α} {M : Matrix (Fin n) (Fin n) K}
    (hA : IsMat A ι M) {pc : List α → Res (List α)} {P : (Fin n → K) → Fin n → K}
    (hpc : ∀ v, pc (vec ι v) = .ok (vec ι (P v))) (x b : Fin n → K)
    (hreg : ∀ j, j < cfg.maxiter →
      (∀ i, 1 ≤ i → i ≤ j → ¬ Accept sq M b tol cfg.miniter i (Spec.BiCG.at' M P b x i).x) →
      (∀ i, i < j → ¬ (Spec.BiCG.at' M P b x i).Breaks M P (b - M *ᵥ x) i) →
      (Spec.BiCG.at' M P b x j).r ⬝ᵥ (b - M *ᵥ x) ≠ 0 →
      (Spec.BiCG.at' M P b x j).Regular M P (b - M *ᵥ x) j) (m : Nat) :
    ∀ iter, iter + m = cfg.maxiter →
    (∀ i, 1 ≤ i → i ≤ iter → ¬ Accept sq M b tol cfg.miniter i (Spec.BiCG.at' M P b x i).x) →
    (∀ i, i < iter → ¬ (Spec.BiCG.at' M P b x i).Breaks M P (b - M *ᵥ x) i) →
    ∃ k status iters, k ≤ cfg.maxiter ∧
      BiCG.loop N cfg A pc (vec ι (b - M *ᵥ x)) m iter
        (BiCG.embed ι (Spec.BiCG.at' M P b x iter)) =
        .ok { status := status, x := vec ι (Spec.BiCG.at' M P b x k).x, finalIter := iters,
              finalResid := ι (norm2 sq (b - M *ᵥ (Spec.BiCG.at' M P b x k).x)) } ∧
      (∀ i, 1 ≤ i → i < k → ¬ Accept sq M b tol cfg.miniter i (Spec.BiCG.at' M P b x i).x) ∧
      (∀ i, i < k → ¬ (Spec.BiCG.at' M P b x i).Breaks M P (b - M *ᵥ x) i) ∧
      ((status = SUCCESS ∧ iters = k ∧ 1 ≤ k ∧
        Accept sq M b tol cfg.miniter k (Spec.BiCG.at' M P b x k).x) ∨
       (status = MAXITER ∧ iters = k ∧ k = cfg.maxiter ∧
        (1 ≤ k → ¬ Accept sq M b tol cfg.miniter k (Spec.BiCG.at' M P b x k).x)) ∨
       (status = BREAKDOWN ∧ iters = k + 1 ∧ k < cfg.maxiter ∧
        (Spec.BiCG.at' M P b x k).Breaks M P (b - M *ᵥ x) k ∧
        (1 ≤ k → ¬ Accept sq M b tol cfg.miniter k (Spec.BiCG.at' M P b x k).x))) := by
  induction m with
  | zero =>
    intro iter hit hno hnb
    have hit : iter = cfg.maxiter := by omega
    refine ⟨iter, MAXITER, iter, by omega, ?_, fun i h1 h2 => hno i h1 (by omega), hnb,
      .inr (.inl ⟨rfl, rfl, hit, fun h1 => hno _ h1 (le_refl _)⟩)⟩
    simp only [BiCG.loop, atMaxiter, getResidual, hm, Res.ok_bind, BiCG.embed, nrm2_vec h,
      BiCG.residual, ← hit]
  | succ m ih =>
    intro iter hit hno hnb
    set s := Spec.BiCG.at' M P b x iter with hs
    set r0 := b - M *ᵥ x with hr0
    have hsr : s.r = b - M *ᵥ s.x := BiCG.residual M P b x iter
    have hgr : getResidual N cfg (BiCG.embed ι s).r = .ok (ι (norm2 sq (b - M *ᵥ s.x))) := by
      simp only [getResidual, hm, BiCG.embed, nrm2_vec h, hsr]
    have hdot : N.dot (BiCG.embed ι s).r (vec ι r0) = .ok (ι (s.r ⬝ᵥ r0)) := dot_vec h _ _
    unfold BiCG.loop
    simp only [hdot, Res.ok_bind, h.isZero]
    by_cases hrho : s.r ⬝ᵥ r0 = 0
    · simp only [hrho, decide_true, if_true, hgr, Res.ok_bind]
      exact ⟨iter, BREAKDOWN, iter + 1, by omega, rfl, fun i h1 h2 => hno i h1 (by omega), hnb,
        .inr (.inr ⟨rfl, rfl, by omega, .inl hrho, fun h1 => hno _ h1 (le_refl _)⟩)⟩
    have hreg' := hreg iter (by omega) hno hnb hrho
    have hold : 1 ≤ iter → s.rho ≠ 0 ∧ s.omega ≠ 0 := by
      intro h1
      obtain ⟨j, rfl⟩ : ∃ j, iter = j + 1 := ⟨iter - 1, by omega⟩
      have := hnb j (by omega)
      unfold Spec.BiCG.Breaks at this
      exact ⟨fun h0 => this (.inl h0), fun h0 => this (.inr h0)⟩
    have hd : BiCG.direction N A.row iter (BiCG.embed ι s) (ι (s.r ⬝ᵥ r0)) =
        .ok (vec ι (s.dir r0 iter)) := by
      rw [hA.row]; exact BiCG.direction_exact h r0 iter s hold
    simp only [hrho, decide_false, Bool.false_eq_true, if_false, hd, Res.ok_bind, hpc, hA.mv]
    have hv : M *ᵥ P (s.dir r0 iter) = s.newV M P r0 iter := rfl
    have ha : N.div (ι (s.r ⬝ᵥ r0)) (ι (s.newV M P r0 iter ⬝ᵥ r0)) =
      ι (s.newAlpha M P r0 iter) := h.div _ _ hreg'.1
    have hmid : N.axpyz (N.neg (ι (s.newAlpha M P r0 iter))) (vec ι (s.newV M P r0 iter))
        (BiCG.embed ι s).r A.row = .ok (vec ι (s.mid M P r0 iter)) := by
      rw [hA.row]; exact axpyz_neg_vec h _ _ _
    simp only [hv, dot_vec h, Res.ok_bind, ha, hmid, hpc, hA.mv]
    have htt : M *ᵥ P (s.mid M P r0 iter) = s.newT M P r0 iter := rfl
    have ho : N.div (ι (s.newT M P r0 iter ⬝ᵥ s.mid M P r0 iter))
        (ι (s.newT M P r0 iter ⬝ᵥ s.newT M P r0 iter)) = ι (s.newOmega M P r0 iter) :=
      h.div _ _ hreg'.2
    simp only [htt, dot_vec h, Res.ok_bind, ho, h.isZero]
    by_cases hom : s.newOmega M P r0 iter = 0
    · simp only [hom, decide_true, if_true, hgr, Res.ok_bind]
      exact ⟨iter, BREAKDOWN, iter + 1, by omega, rfl, fun i h1 h2 => hno i h1 (by omega), hnb,
        .inr (.inr ⟨rfl, rfl, by omega, .inr hom, fun h1 => hno _ h1 (le_refl _)⟩)⟩
    simp only [hom, decide_false, Bool.false_eq_true, if_false]
    have hx1 : N.axpy (ι (s.newAlpha M P r0 iter)) (vec ι (P (s.dir r0 iter))) (BiCG.embed ι s).x =
      .ok (vec ι (s.x + s.newAlpha M P r0 iter • P (s.dir r0 iter))) := axpy_vec h _ _ _
    have hr1 : N.axpyz (N.neg (ι (s.newOmega M P r0 iter))) (vec ι (s.newT M P r0 iter))
        (vec ι (s.mid M P r0 iter)) A.row =
        .ok (vec ι (s.mid M P r0 iter - s.newOmega M P r0 iter • s.newT M P r0 iter)) := by
      rw [hA.row]; exact axpyz_neg_vec h _ _ _
    simp only [hx1, Res.ok_bind, axpy_vec h, hr1, getResidual, hm, nrm2_vec h]
    have hnx : s.x + s.newAlpha M P r0 iter • P (s.dir r0 iter) +
        s.newOmega M P r0 iter • P (s.mid M P r0 iter) = (Spec.BiCG.at' M P b x (iter + 1)).x := rfl
    have hnr : s.mid M P r0 iter - s.newOmega M P r0 iter • s.newT M P r0 iter =
      (Spec.BiCG.at' M P b x (iter + 1)).r := rfl
    rw [hnx, hnr, stopCheck_exact h ht hm, Res.ok_bind, BiCG.residual]
    have hnb' : ∀ i, i < iter + 1 → ¬ (Spec.BiCG.at' M P b x i).Breaks M P r0 i := by
      intro i hi
      by_cases hii : i = iter
      · rw [hii]
        intro hb
        rcases hb with hb | hb
        · exact hrho hb
        · exact hom hb
      · exact hnb i (by omega)
    by_cases hacc : Accept sq M b tol cfg.miniter (iter + 1) (Spec.BiCG.at' M P b x (iter + 1)).x
    · have hacc' := hacc
      unfold Accept at hacc'
      rw [if_pos hacc']
      exact ⟨iter + 1, SUCCESS, iter + 1, by omega, rfl, fun i h1 h2 => hno i h1 (by omega), hnb',
        .inl ⟨rfl, rfl, by omega, hacc⟩⟩
    · have hacc' := hacc
      unfold Accept at hacc'
      rw [if_neg hacc', ← BiCG.residual M P b x (iter + 1)]
      refine ih (iter + 1) (by omega) (fun i h1 h2 => ?_) hnb'
      by_cases hi : i = iter + 1
      · rw [hi]; exact hacc
      · exact hno i h1 (by omega)

/-- C30 (exact arithmetic): as long as the divisions inside an iteration are by non-zero numbers,
`solve` returns the textbook iterate `x_k`: SUCCESS at the first `k` whose **true** residual is
accepted, BREAKDOWN at the first iteration with `rho = 0` or `omega = 0` (then `x` is left as it was
after the `k` complete iterations and `get_final_iter()` is `k + 1`), MAXITER otherwise.
`get_final_residual()` is always the norm of `b - A x` for the returned `x`. -/
theorem C30_exact (h : Exact N ι sq) (cfg : Cfg α) (tol : K) (ht : cfg.tol = ι tol)
    (hlib : cfg.lib = 0) (hm : cfg.residMethod = 0) (A : Mat α) (M : Matrix (Fin n) (Fin n) K)
    (hA : IsMat A ι M) (create : Res (List α → Res (List α))) (P : (Fin n → K) → Fin n → K)
    (hP : IsPrecond create ι P) (x b : Fin n → K)
    (hreg : ∀ j, j < cfg.maxiter →
      (∀ i, 1 ≤ i → i ≤ j → ¬ Accept sq M b tol cfg.miniter i (Spec.BiCG.at' M P b x i).x) →
      (∀ i, i < j → ¬ (Spec.BiCG.at' M P b x i).Breaks M P (b - M *ᵥ x) i) →
      (Spec.BiCG.at' M P b x j).r ⬝ᵥ (b - M *ᵥ x) ≠ 0 →
      (Spec.BiCG.at' M P b x j).Regular M P (b - M *ᵥ x) j) :
    ∃ k status iters, k ≤ cfg.maxiter ∧
      BiCG.solve N cfg A create (vec ι x) (vec ι b) =
        .ok { status := status, x := vec ι (Spec.BiCG.at' M P b x k).x, finalIter := iters,
              finalResid := ι (norm2 sq (b - M *ᵥ (Spec.BiCG.at' M P b x k).x)) } ∧
      (∀ i, 1 ≤ i → i < k → ¬ Accept sq M b tol cfg.miniter i (Spec.BiCG.at' M P b x i).x) ∧
      (∀ i, i < k → ¬ (Spec.BiCG.at' M P b x i).Breaks M P (b - M *ᵥ x) i) ∧
      ((status = SUCCESS ∧ iters = k ∧ 1 ≤ k ∧
        Accept sq M b tol cfg.miniter k (Spec.BiCG.at' M P b x k).x) ∨
       (status = MAXITER ∧ iters = k ∧ k = cfg.maxiter ∧
        (1 ≤ k → ¬ Accept sq M b tol cfg.miniter k (Spec.BiCG.at' M P b x k).x)) ∨
       (status = BREAKDOWN ∧ iters = k + 1 ∧ k < cfg.maxiter ∧
        (Spec.BiCG.at' M P b x k).Breaks M P (b - M *ᵥ x) k ∧
        (1 ≤ k → ¬ Accept sq M b tol cfg.miniter k (Spec.BiCG.at' M P b x k).x))) := by
  obtain ⟨pc, rfl, hpc⟩ := hP
  have := BiCG.loop_exact h ht hm hA hpc x b hreg cfg.maxiter 0 (by omega)
    (fun i h1 h2 => absurd h1 (by omega)) (fun i h1 => absurd h1 (by omega))
  simp only [BiCG.solve, hlib, if_true, BiCG.monolish, hA.row, hA.col, ne_eq, not_true_eq_false,
    if_false, Res.ok_bind, hA.mv, vsub_vec h]
  have hrep : List.replicate n N.zero = vec ι (0 : Fin n → K) := by
    rw [h.zero]
    apply List.ext_getElem
    · simp [vec]
    · intro i _ _; simp [vec]
  rw [hrep, h.one]
  exact this

end exact

/-! ### Exact initial guess and exact half step -/

section special

variable [Field K] [LinearOrder K] [IsStrictOrderedRing K]

/-- C30/C33 for BiCGSTAB: an exact initial guess is left unchanged, but reported as BREAKDOWN (with
residual 0), not as SUCCESS. Any matrix, any preconditioner. -/
theorem C30_exact_guess {N : Num α} {ι : K → α} {sq : K → K} (h : Exact N ι sq) (cfg : Cfg α)
    (hlib : cfg.lib = 0) (hm : cfg.residMethod = 0) (hmax : 0 < cfg.maxiter) (A : Mat α)
    (M : Matrix (Fin n) (Fin n) K) (hA : IsMat A ι M) (pc : List α → Res (List α))
    (x b : Fin n → K) (hx : M *ᵥ x = b) :
    BiCG.solve N cfg A (.ok pc) (vec ι x) (vec ι b) =
      .ok { status := BREAKDOWN, x := vec ι x, finalIter := 1, finalResid := ι (sq 0) } := by
  obtain ⟨m, hm'⟩ : ∃ m, cfg.maxiter = m + 1 := ⟨cfg.maxiter - 1, by omega⟩
  simp only [BiCG.solve, hlib, if_true, BiCG.monolish, hA.row, hA.col, ne_eq, not_true_eq_false,
    if_false, Res.ok_bind, hA.mv, vsub_vec h, hm', hx, sub_self]
  unfold BiCG.loop
  simp only [dot_vec h, Res.ok_bind, dotProduct_zero, h.isZero, decide_true, if_true, getResidual,
    hm, nrm2_vec h, norm2]

/-- C53 is violated: if the preconditioned first residual is an eigenvector (`A P r = c r`, `c ≠ 0`;
for example any multiple of the identity matrix, or any diagonal matrix with the Jacobi
preconditioner) the half step already is exact, `omega` becomes 0/0, and in arithmetic with IEEE
special values and no rounding **every** element of `x` becomes NaN. -/
theorem C53_violated (sq : K → K) (cfg : Cfg (Ext K))
    (hlib : cfg.lib = 0) (hm : cfg.residMethod = 0) (hmax : 0 < cfg.maxiter) (hn : 0 < n)
    (A : Mat (Ext K)) (M : Matrix (Fin n) (Fin n) K) (hA : IsMat A Ext.fin M)
    (pc : List (Ext K) → Res (List (Ext K))) (P : (Fin n → K) → Fin n → K)
    (hpc : ∀ v, pc (vec Ext.fin v) = .ok (vec Ext.fin (P v))) (hP0 : P 0 = 0)
    (x b : Fin n → K) (hx : M *ᵥ x ≠ b) (c : K) (hc : c ≠ 0)
    (heig : M *ᵥ P (b - M *ᵥ x) = c • (b - M *ᵥ x)) :
    BiCG.solve (Ext.num sq) cfg A (.ok pc) (vec Ext.fin x) (vec Ext.fin b) =
      .ok { status := RESIDUAL_NAN, x := nans K n, finalIter := 1, finalResid := .nan } := by
  have h := Ext.exact sq (K := K)
  obtain ⟨m, hm'⟩ : ∃ m, cfg.maxiter = m + 1 := ⟨cfg.maxiter - 1, by omega⟩
  set r := b - M *ᵥ x with hr
  have hr0 : r ≠ 0 := fun h0 => hx (sub_eq_zero.1 h0).symm
  have hrr : r ⬝ᵥ r ≠ 0 := by
    intro h0
    have := (Finset.sum_eq_zero_iff_of_nonneg (fun i _ => mul_self_nonneg (r i))).1 h0
    exact hr0 (funext fun i => mul_self_eq_zero.1 (this i (Finset.mem_univ _)))
  simp only [BiCG.solve, hlib, if_true, BiCG.monolish, hA.row, hA.col, ne_eq, not_true_eq_false,
    if_false, Res.ok_bind, hA.mv, vsub_vec h, hm', ← hr]
  unfold BiCG.loop
  have hal : (Ext.num sq).div (Ext.fin (r ⬝ᵥ r)) (Ext.fin ((c • r) ⬝ᵥ r)) = Ext.fin (1 / c) := by
    rw [h.div _ _ (by rw [smul_dotProduct, smul_eq_mul]; exact mul_ne_zero hc hrr),
      smul_dotProduct, smul_eq_mul]
    congr 1
    field_simp
  have hmid : r - (1 / c) • c • r = 0 := by
    rw [smul_smul, one_div, inv_mul_cancel₀ hc, one_smul, sub_self]
  have hdiv : (Ext.num sq).div (Ext.fin 0) (Ext.fin (0 : K)) = .nan := by simp [Ext.num, Ext.div]
  have hz : (Ext.num sq).isZero (Ext.nan : Ext K) = false := rfl
  have key : ∀ (c : Ext K) (u v : List (Ext K)), c = .nan → u.length = n → v.length = n →
      List.zipWith (fun u v => (Ext.num sq).add ((Ext.num sq).mul c u) v) u v = nans K n := by
    intro c u v hc hu hv
    subst hc
    apply List.ext_getElem
    · simp [nans, hu, hv]
    · intro i _ _
      simp [nans, Ext.num, Ext.nan_mul, Ext.nan_add]
  have haxpy : ∀ u v : Fin n → K, (Ext.num sq).axpy .nan (vec Ext.fin u) (vec Ext.fin v) =
      .ok (nans K n) := by
    intro u v
    simp only [Num.axpy, vec_length, cassert, decide_true, if_true]
    rw [key _ _ _ rfl (vec_length _ _) (vec_length _ _)]
    rfl
  have haxpyz : ∀ u v : Fin n → K, (Ext.num sq).axpyz ((Ext.num sq).neg .nan) (vec Ext.fin u)
      (vec Ext.fin v) n = .ok (nans K n) := by
    intro u v
    simp only [Num.axpyz, vec_length, cassert, and_self, decide_true, if_true]
    rw [key ((Ext.num sq).neg .nan) _ _ rfl (vec_length _ _) (vec_length _ _)]
    rfl
  have h1 : (Ext.num sq).lt (Ext.nan : Ext K) cfg.tol = false := rfl
  have h2 : (Ext.num sq).isNaN (Ext.nan : Ext K) = true := rfl
  simp only [dot_vec h, Res.ok_bind, h.isZero, hrr, decide_false, Bool.false_eq_true, if_false,
    BiCG.direction, if_true, hA.row, copyV_vec, hpc, hA.mv, heig, hal, axpyz_neg_vec h, hmid, hP0,
    mulVec_zero, dotProduct_zero, hdiv, hz, axpy_vec h, haxpy, haxpyz, getResidual, hm,
    Ext.nrm2_nan sq _ (mem_nans hn), stopCheck, h1, h2, Bool.false_and]

/-- the identity matrix: BiCGSTAB fails for every right-hand side and every inexact initial guess -/
theorem C53_identity_violated (sq : K → K) (cfg : Cfg (Ext K))
    (hlib : cfg.lib = 0) (hm : cfg.residMethod = 0) (hmax : 0 < cfg.maxiter) (hn : 0 < n)
    (A : Mat (Ext K)) (hA : IsMat A Ext.fin (1 : Matrix (Fin n) (Fin n) K))
    (x b : Fin n → K) (hx : x ≠ b) :
    BiCG.solve (Ext.num sq) cfg A noPrecond (vec Ext.fin x) (vec Ext.fin b) =
      .ok { status := RESIDUAL_NAN, x := nans K n, finalIter := 1, finalResid := .nan } :=
  C53_violated sq cfg hlib hm hmax hn A 1 hA (fun r => .ok r) (fun v => v) (fun _ => rfl) rfl x b
    (by rwa [one_mulVec]) 1 one_ne_zero (by simp)

end special

/-! ### Concrete runs -/

/-- a non-symmetric system, no preconditioner: accepted after one iteration -/
example : BiCG.solve (fieldNum id) exCfg
    (ofCrs [0, 1] [1, 0] ⟨2, 2, [0, 2, 4], [0, 1, 0, 1], [2, 1, 0, 3], 4, 4, true⟩) noPrecond
    [0, 0] [1, 2] =
    .ok { status := SUCCESS, x := [3/16, 11/16], finalIter := 1, finalResid := 1/128 } := by
  decide +kernel

/-- the CRS identity matrix of size 2: NaN -/
example : BiCG.solve (Ext.num (id : ℚ → ℚ))
    { tol := .fin (1 / 100), maxiter := 10, omega := .fin 1, prevResid := .fin 0 }
    (ofCrs [1, 0] [0, 1] (crsMap Ext.fin ⟨2, 2, [0, 1, 2], [0, 1], [1, 1], 2, 2, true⟩)) noPrecond
    [.fin 0, .fin 0] [.fin 1, .fin 5] =
    .ok { status := RESIDUAL_NAN, x := [.nan, .nan], finalIter := 1, finalResid := .nan } := by
  decide +kernel

/-- the hypothesis of `C30_exact` holds for this system with `maxiter = 1` -/
example : ∀ j, j < 1 →
    (Spec.BiCG.at' (!![2, 1; 0, 3] : Matrix (Fin 2) (Fin 2) ℚ) (fun v => v) ![1, 2] 0 j).Regular
      !![2, 1; 0, 3] (fun v => v) (![1, 2] - !![2, 1; 0, 3] *ᵥ 0) j := by
  intro j hj
  obtain rfl : j = 0 := by omega
  unfold Spec.BiCG.Regular
  decide +kernel

end Verif.Solver
