import Verif.Props.SolverDevMat

/-!
C107, continued: what a solve leaves alone, and the main statements.
-/

set_option linter.constructorNameAsVariable false

namespace Verif.Solver.Dev

open Verif.Solver

variable {α : Type} {N : Num α} {gpu : Bool}

/-- what no solve changes: on which side the matrix and the vectors `x`, `b` are, the contents of the matrix and of
`b` -/
structure Keep (s s' : St α) : Prop where
  on : ∀ o ∈ [V.A, V.x, V.b], s'.on o = s.on o
  get : ∀ o ∈ [V.A, V.b], s'.get o = s.get o

theorem Keep.refl (s : St α) : Keep s s := ⟨fun _ _ => rfl, fun _ _ => rfl⟩

theorem Keep.trans {s s' s'' : St α} (h : Keep s s') (h' : Keep s' s'') : Keep s s'' :=
  ⟨fun o ho => by rw [h'.on o ho, h.on o ho], fun o ho => by rw [h'.get o ho, h.get o ho]⟩

theorem call_keep {s s' : St α} {os : List V} {y : V} {f : Res (List α)} (hy : y ∉ [V.A, V.b])
    (h : call s os y f = .ok s') : Keep s s' := by
  obtain ⟨_, _, h⟩ := Res.bind_eq_ok.mp h
  obtain ⟨l, _, h⟩ := Res.bind_eq_ok.mp h
  cases h
  have u := put_upd s y l
  exact ⟨fun o _ => by rw [u.on], fun o ho => u.get_ne (fun e => hy (e ▸ ho))⟩

/-- a preconditioner that changes nothing but its own vector and the one it is asked to fill -/
structure Quiet (pc : PC α) : Prop where
  create : ∀ s s', pc.create s = .ok s' → Keep s s'
  apply : ∀ r z s s', z ∉ [V.A, V.x, V.b] → pc.apply r z s = .ok s' → Keep s s'

theorem Frame.keep {os : List V} {s s' : St α} (h : Frame os s s') (hA : V.A ∉ os) (hx : V.x ∉ os) (hb : V.b ∉ os) :
    Keep s s' := by
  refine ⟨fun o ho => ?_, fun o ho => ?_⟩
  · simp only [List.mem_cons, List.not_mem_nil, or_false] at ho
    rcases ho with rfl | rfl | rfl
    · exact h.on _ hA
    · exact h.on _ hx
    · exact h.on _ hb
  · simp only [List.mem_cons, List.not_mem_nil, or_false] at ho
    rcases ho with rfl | rfl
    · exact h.get _ hA
    · exact h.get _ hb

theorem none_quiet : Quiet (nonePC : PC α) where
  create := fun s s' h => by cases h; exact Keep.refl s
  apply := fun r z s s' hz h => call_keep (fun hm => hz (by simp at hm ⊢; tauto)) h

/-- the operations on single objects -/
theorem update_frame (s : St α) (o : V) (l : List α) : Frame [o] s { s with host := Function.update s.host o l } := by
  refine ⟨fun _ _ => rfl, fun o' ho => ?_, fun o' ho => ?_⟩ <;>
  · have : o' ≠ o := by simpa using ho
    simp [St.get, this]

theorem send_frame (s : St α) (o : V) : Frame [o] s (s.send gpu o) := by
  unfold St.send
  split
  · refine ⟨fun o' ho => ?_, fun o' ho => ?_, fun _ _ => rfl⟩ <;>
    · have : o' ≠ o := by simpa using ho
      simp [St.get, this]
  · exact ⟨fun _ _ => rfl, fun _ _ => rfl, fun _ _ => rfl⟩

theorem recv_frame (s : St α) (o : V) : Frame [o] s (s.recv gpu o) := by
  unfold St.recv
  split
  · refine ⟨fun o' ho => ?_, fun o' ho => ?_, fun o' ho => ?_⟩ <;>
    · have : o' ≠ o := by simpa using ho
      simp [St.get, this]
  · exact ⟨fun _ _ => rfl, fun _ _ => rfl, fun _ _ => rfl⟩

theorem nonfreeRecv_frame (s : St α) (o : V) : Frame [o] s (s.nonfreeRecv gpu o) := by
  unfold St.nonfreeRecv
  split
  · refine ⟨fun o' ho => rfl, fun o' ho => ?_, fun o' ho => ?_⟩ <;>
    · have : o' ≠ o := by simpa using ho
      simp [St.get, this]
  · exact ⟨fun _ _ => rfl, fun _ _ => rfl, fun _ _ => rfl⟩

theorem deviceFree_frame (s : St α) (o : V) : Frame [o] s (s.deviceFree gpu o) := by
  unfold St.deviceFree
  split
  · refine ⟨fun o' ho => ?_, fun o' ho => ?_, fun o' ho => rfl⟩ <;>
    · have : o' ≠ o := by simpa using ho
      simp [St.get, this]
  · exact ⟨fun _ _ => rfl, fun _ _ => rfl, fun _ _ => rfl⟩

theorem freshM_frame (l : List α) (s : St α) : Frame [.M] s (freshM gpu l s) := by
  unfold freshM
  dsimp only
  split
  · exact ((deviceFree_frame s .M).trans (update_frame _ .M l)).trans (send_frame _ .M)
  · exact (deviceFree_frame s .M).trans (update_frame _ .M l)

theorem jacobi_quiet (A : MatD α) : Quiet (jacobiPC N gpu A) where
  create := by
    intro s s' h
    unfold jacobiPC at h
    dsimp only at h
    split at h
    · cases h
    · have h : (diag A .M (freshM gpu (List.replicate A.row N.zero) s) >>= fun s => reciprocal N .M s) = .ok s' := h
      obtain ⟨s1, h1, h⟩ := Res.bind_eq_ok.mp h
      exact (((freshM_frame _ s).keep (by decide) (by decide) (by decide)).trans (call_keep (by decide) h1)).trans
        (call_keep (by decide) h)
  apply := fun r z s s' hz h => call_keep (fun hm => hz (by simp at hm ⊢; tauto)) h

theorem sor_quiet {omega : α} (A : MatD α) : Quiet (sorPC N gpu omega A) where
  create := by
    intro s s' h
    unfold sorPC at h
    dsimp only at h
    split at h
    · cases h
    · have h : (diag A .M (freshM gpu (List.replicate A.row N.zero) s) >>= fun s => scal N omega .M s >>= fun s =>
        reciprocal N .M s >>= fun s => .ok (s.recv gpu .M)) = .ok s' := h
      obtain ⟨s1, h1, h⟩ := Res.bind_eq_ok.mp h
      obtain ⟨s2, h2, h⟩ := Res.bind_eq_ok.mp h
      obtain ⟨s3, h3, h⟩ := Res.bind_eq_ok.mp h
      cases h
      exact (((((freshM_frame _ s).keep (by decide) (by decide) (by decide)).trans (call_keep (by decide) h1)).trans
        (call_keep (by decide) h2)).trans (call_keep (by decide) h3)).trans
        ((recv_frame s3 .M).keep (by decide) (by decide) (by decide))
  apply := by
    intro r z s s' hz h
    obtain ⟨l, _, h⟩ := Res.bind_eq_ok.mp h
    cases h
    have hz' : V.A ≠ z ∧ V.x ≠ z ∧ V.b ≠ z := by
      simp only [List.mem_cons, List.not_mem_nil, or_false, not_or] at hz
      exact ⟨Ne.symm hz.1, Ne.symm hz.2.1, Ne.symm hz.2.2⟩
    exact ((update_frame s z l).trans (send_frame _ z)).keep (by simp [hz'.1]) (by simp [hz'.2.1]) (by simp [hz'.2.2])

theorem newAll_keep (l : List α) (os : List V) (s : St α) (hA : V.A ∉ os) (hx : V.x ∉ os) (hb : V.b ∉ os) :
    Keep s (newAll l os s) := (newAll_spec l os s).2.keep hA hx hb

theorem sendAll_keep (os : List V) (s : St α) (hA : V.A ∉ os) (hx : V.x ∉ os) (hb : V.b ∉ os) :
    Keep s (sendAll gpu os s) := by
  cases gpu with
  | false => rw [sendAll_cpu]; exact Keep.refl s
  | true => exact (sendAll_spec os s).2.2.keep hA hx hb

theorem finish_keep {cfg : Cfg α} {iter : Nat} {resid : α} {s : St α} {o : Option (Ret α)}
    (h : finish N cfg iter resid s = .ok o) {r : Ret α} (ho : o = some r) : r.1 = s := by
  obtain ⟨o', _, h⟩ := Res.bind_eq_ok.mp h
  subst ho
  cases o' with
  | none => cases h
  | some o' =>
    cases h
    rfl

theorem atMax_keep {cfg : Cfg α} {s : St α} {r : Ret α} (h : atMax N cfg s = .ok r) : Keep s r.1 := by
  obtain ⟨fr, _, h⟩ := Res.bind_eq_ok.mp h
  cases h
  exact Keep.refl s

theorem cgLoop_keep {cfg : Cfg α} {A : MatD α} {pc : PC α} (hq : Quiet pc) :
    ∀ (k iter : Nat) (s : St α) (r : Ret α), cgLoop N cfg A pc k iter s = .ok r → Keep s r.1
  | 0, _, s, r, h => atMax_keep h
  | k + 1, iter, s, r, h => by
    obtain ⟨s1, h1, h⟩ := Res.bind_eq_ok.mp h
    obtain ⟨tmp, _, h⟩ := Res.bind_eq_ok.mp h
    obtain ⟨pq, _, h⟩ := Res.bind_eq_ok.mp h
    obtain ⟨s2, h2, h⟩ := Res.bind_eq_ok.mp h
    obtain ⟨s3, h3, h⟩ := Res.bind_eq_ok.mp h
    obtain ⟨s4, h4, h⟩ := Res.bind_eq_ok.mp h
    obtain ⟨zr, _, h⟩ := Res.bind_eq_ok.mp h
    obtain ⟨s5, h5, h⟩ := Res.bind_eq_ok.mp h
    obtain ⟨resid, _, h⟩ := Res.bind_eq_ok.mp h
    obtain ⟨o, ho, h⟩ := Res.bind_eq_ok.mp h
    have k5 : Keep s s5 := ((((call_keep (by decide) h1).trans (call_keep (by decide) h2)).trans
      (call_keep (by decide) h3)).trans (hq.apply _ _ _ _ (by decide) h4)).trans (call_keep (by decide) h5)
    cases o with
    | some o =>
      cases h
      rw [finish_keep ho rfl]
      exact k5
    | none => exact k5.trans (cgLoop_keep hq k _ s5 r h)

theorem cg_keep {cfg : Cfg α} {A : MatD α} {pc : PC α} (hq : Quiet pc) {s : St α} {r : Ret α}
    (h : cg N gpu cfg A pc s = .ok r) : Keep s r.1 := by
  unfold cg at h
  split at h
  · split at h
    · cases h
    · obtain ⟨_, _, h⟩ := Res.bind_eq_ok.mp h
      dsimp only at h
      obtain ⟨s1, h1, h⟩ := Res.bind_eq_ok.mp h
      obtain ⟨s2, h2, h⟩ := Res.bind_eq_ok.mp h
      obtain ⟨s3, h3, h⟩ := Res.bind_eq_ok.mp h
      obtain ⟨s4, h4, h⟩ := Res.bind_eq_ok.mp h
      obtain ⟨s5, h5, h⟩ := Res.bind_eq_ok.mp h
      have k0 : Keep s (newAll (List.replicate A.row N.zero) [.r, .p, .q, .z] s) :=
        newAll_keep _ _ s (by decide) (by decide) (by decide)
      have k1 := hq.create _ _ h1
      have k1 : Keep s s1 := by
        split at k1
        · exact (k0.trans (sendAll_keep _ _ (by decide) (by decide) (by decide))).trans k1
        · exact k0.trans k1
      exact ((((k1.trans (call_keep (by decide) h2)).trans (call_keep (by decide) h3)).trans
        (hq.apply _ _ _ _ (by decide) h4)).trans (call_keep (by decide) h5)).trans (cgLoop_keep hq _ _ _ _ h)
  · cases h
    exact Keep.refl s

theorem bicgLoop_keep {cfg : Cfg α} {A : MatD α} {pc : PC α} (hq : Quiet pc) :
    ∀ (k iter : Nat) (rhoOld alpha omega : α) (s : St α) (r : Ret α),
      bicgLoop N cfg A pc k iter rhoOld alpha omega s = .ok r → Keep s r.1
  | 0, _, _, _, _, s, r, h => atMax_keep h
  | k + 1, iter, rhoOld, alpha, omega, s, r, h => by
    obtain ⟨rho, _, h⟩ := Res.bind_eq_ok.mp h
    split at h
    · obtain ⟨fr, _, h⟩ := Res.bind_eq_ok.mp h
      cases h
      exact Keep.refl s
    · obtain ⟨s1, h1, h⟩ := Res.bind_eq_ok.mp h
      obtain ⟨s2, h2, h⟩ := Res.bind_eq_ok.mp h
      obtain ⟨s3, h3, h⟩ := Res.bind_eq_ok.mp h
      obtain ⟨vr0, _, h⟩ := Res.bind_eq_ok.mp h
      obtain ⟨s4, h4, h⟩ := Res.bind_eq_ok.mp h
      obtain ⟨s5, h5, h⟩ := Res.bind_eq_ok.mp h
      obtain ⟨s6, h6, h⟩ := Res.bind_eq_ok.mp h
      obtain ⟨ts, _, h⟩ := Res.bind_eq_ok.mp h
      obtain ⟨tt, _, h⟩ := Res.bind_eq_ok.mp h
      have k1 : Keep s s1 := by
        unfold bicgDirection at h1
        split at h1
        · exact call_keep (by decide) h1
        · obtain ⟨s0, h0, h1⟩ := Res.bind_eq_ok.mp h1
          exact (call_keep (by decide) h0).trans (call_keep (by decide) h1)
      have k6 : Keep s s6 := ((((k1.trans (hq.apply _ _ _ _ (by decide) h2)).trans (call_keep (by decide) h3)).trans
        (call_keep (by decide) h4)).trans (hq.apply _ _ _ _ (by decide) h5)).trans (call_keep (by decide) h6)
      dsimp only at h
      split at h
      · obtain ⟨fr, _, h⟩ := Res.bind_eq_ok.mp h
        cases h
        exact k6
      · obtain ⟨s7, h7, h⟩ := Res.bind_eq_ok.mp h
        obtain ⟨s8, h8, h⟩ := Res.bind_eq_ok.mp h
        obtain ⟨s9, h9, h⟩ := Res.bind_eq_ok.mp h
        obtain ⟨resid, _, h⟩ := Res.bind_eq_ok.mp h
        obtain ⟨o, ho, h⟩ := Res.bind_eq_ok.mp h
        have k9 : Keep s s9 := ((k6.trans (call_keep (by decide) h7)).trans (call_keep (by decide) h8)).trans
          (call_keep (by decide) h9)
        cases o with
        | some o =>
          cases h
          rw [finish_keep ho rfl]
          exact k9
        | none => exact k9.trans (bicgLoop_keep hq k _ _ _ _ s9 r h)

theorem bicg_keep {cfg : Cfg α} {A : MatD α} {pc : PC α} (hq : Quiet pc) {s : St α} {r : Ret α}
    (h : bicg N gpu cfg A pc s = .ok r) : Keep s r.1 := by
  unfold bicg at h
  split at h
  · split at h
    · cases h
    · obtain ⟨_, _, h⟩ := Res.bind_eq_ok.mp h
      dsimp only at h
      obtain ⟨s1, h1, h⟩ := Res.bind_eq_ok.mp h
      obtain ⟨s2, h2, h⟩ := Res.bind_eq_ok.mp h
      obtain ⟨s3, h3, h⟩ := Res.bind_eq_ok.mp h
      obtain ⟨s4, h4, h⟩ := Res.bind_eq_ok.mp h
      have k0 : Keep s (newAll (List.replicate A.row N.zero) [.r, .r0, .p, .phat, .s, .shat, .v, .t] s) :=
        newAll_keep _ _ s (by decide) (by decide) (by decide)
      have k1 := hq.create _ _ h1
      have k1 : Keep s s1 := by
        split at k1
        · exact (k0.trans (sendAll_keep _ _ (by decide) (by decide) (by decide))).trans k1
        · exact k0.trans k1
      exact (((k1.trans (call_keep (by decide) h2)).trans (call_keep (by decide) h3)).trans
        (call_keep (by decide) h4)).trans (bicgLoop_keep hq _ _ _ _ _ _ _ h)
  · cases h
    exact Keep.refl s

theorem jacobiLoop_keep {cfg : Cfg α} {A : MatD α} {pc : PC α} (hq : Quiet pc) {binv : α} :
    ∀ (k iter : Nat) (s : St α) (r : Ret α), jacobiLoop N cfg A pc binv k iter s = .ok r → Keep s r.1
  | 0, _, s, r, h => atMax_keep h
  | k + 1, iter, s, r, h => by
    obtain ⟨s1, h1, h⟩ := Res.bind_eq_ok.mp h
    obtain ⟨s2, h2, h⟩ := Res.bind_eq_ok.mp h
    obtain ⟨s3, h3, h⟩ := Res.bind_eq_ok.mp h
    obtain ⟨s4, h4, h⟩ := Res.bind_eq_ok.mp h
    obtain ⟨s5, h5, h⟩ := Res.bind_eq_ok.mp h
    obtain ⟨s6, h6, h⟩ := Res.bind_eq_ok.mp h
    obtain ⟨o, ho, h⟩ := Res.bind_eq_ok.mp h
    have k6 : Keep s s6 := (((((hq.apply _ _ _ _ (by decide) h1).trans (call_keep (by decide) h2)).trans
      (call_keep (by decide) h3)).trans (call_keep (by decide) h4)).trans (call_keep (by decide) h5)).trans
      (call_keep (by decide) h6)
    cases o with
    | some o =>
      cases h
      rw [finish_keep ho rfl]
      exact k6
    | none => exact k6.trans (jacobiLoop_keep hq k _ s6 r h)

theorem jacobi_keep {cfg : Cfg α} {A : MatD α} {pc : PC α} (hq : Quiet pc) {s : St α} {r : Ret α}
    (h : jacobi N gpu cfg A pc s = .ok r) : Keep s r.1 := by
  unfold jacobi at h
  split at h
  · split at h
    · cases h
    · obtain ⟨_, _, h⟩ := Res.bind_eq_ok.mp h
      dsimp only at h
      obtain ⟨s1, h1, h⟩ := Res.bind_eq_ok.mp h
      obtain ⟨s2, h2, h⟩ := Res.bind_eq_ok.mp h
      obtain ⟨s3, h3, h⟩ := Res.bind_eq_ok.mp h
      have k0 : Keep s (newAll (List.replicate A.row N.zero) [.r, .t, .s, .d] s) :=
        newAll_keep _ _ s (by decide) (by decide) (by decide)
      exact ((((k0.trans (sendAll_keep _ _ (by decide) (by decide) (by decide))).trans (call_keep (by decide) h1)).trans
        (call_keep (by decide) h2)).trans (hq.create _ _ h3)).trans (jacobiLoop_keep hq _ _ _ _ h)
  · cases h
    exact Keep.refl s

theorem sorLoop_keep {cfg : Cfg α} {A : MatD α} {pc : PC α} (hq : Quiet pc) {binv : α} :
    ∀ (k iter : Nat) (s : St α) (r : Ret α), sorLoop N gpu cfg A pc binv k iter s = .ok r → Keep s r.1
  | 0, _, s, r, h => atMax_keep h
  | k + 1, iter, s, r, h => by
    obtain ⟨s1, h1, h⟩ := Res.bind_eq_ok.mp h
    obtain ⟨s2, h2, h⟩ := Res.bind_eq_ok.mp h
    obtain ⟨s3, h3, h⟩ := Res.bind_eq_ok.mp h
    dsimp only at h
    obtain ⟨l, _, h⟩ := Res.bind_eq_ok.mp h
    obtain ⟨s4, h4, h⟩ := Res.bind_eq_ok.mp h
    obtain ⟨o, ho, h⟩ := Res.bind_eq_ok.mp h
    have k4 : Keep s s4 := ((((((hq.apply _ _ _ _ (by decide) h1).trans (call_keep (by decide) h2)).trans
      (call_keep (by decide) h3)).trans ((nonfreeRecv_frame s3 .r).keep (by decide) (by decide) (by decide))).trans
      ((update_frame _ .t l).keep (by decide) (by decide) (by decide))).trans
      ((send_frame _ .t).keep (by decide) (by decide) (by decide))).trans (call_keep (by decide) h4)
    cases o with
    | some o =>
      cases h
      rw [finish_keep ho rfl]
      exact k4
    | none => exact k4.trans (sorLoop_keep hq k _ s4 r h)

theorem sor_keep {cfg : Cfg α} {A : MatD α} {pc : PC α} (hq : Quiet pc) {s : St α} {r : Ret α}
    (h : sor N gpu cfg A pc s = .ok r) : Keep s r.1 := by
  unfold sor at h
  split at h
  · split at h
    · cases h
    · obtain ⟨_, _, h⟩ := Res.bind_eq_ok.mp h
      dsimp only at h
      obtain ⟨s1, h1, h⟩ := Res.bind_eq_ok.mp h
      obtain ⟨s2, h2, h⟩ := Res.bind_eq_ok.mp h
      obtain ⟨s3, h3, h⟩ := Res.bind_eq_ok.mp h
      obtain ⟨s4, h4, h⟩ := Res.bind_eq_ok.mp h
      have k0 : Keep s (newAll (List.replicate A.row N.zero) [.r, .t, .s, .d] s) :=
        newAll_keep _ _ s (by decide) (by decide) (by decide)
      exact ((((((k0.trans (sendAll_keep _ _ (by decide) (by decide) (by decide))).trans (call_keep (by decide) h1)).trans
        (call_keep (by decide) h2)).trans (call_keep (by decide) h3)).trans
        ((nonfreeRecv_frame s3 .d).keep (by decide) (by decide) (by decide))).trans (hq.create _ _ h4)).trans
        (sorLoop_keep hq _ _ _ _ h)
  · cases h
    exact Keep.refl s

/-! ### Main statements -/

/-- the preconditioner the user has set -/
inductive Pc (α : Type)
  | none
  | jacobi
  | sor (omega : α)

/-- … in the code -/
def Pc.code (p : Pc α) (N : Num α) (gpu : Bool) (A : MatD α) : PC α :=
  match p with
  | .none => nonePC
  | .jacobi => jacobiPC N gpu A
  | .sor omega => sorPC N gpu omega A

/-- … in the mathematical description of the solvers (`Model/Solver.lean`, `Model/Sor.lean`, the subject of C30, C31, C32,
…) -/
def Pc.list (p : Pc α) (N : Num α) (A : MatD α) (a : List α) : Res (List α → Res (List α)) :=
  match p with
  | .none => noPrecond
  | .jacobi => jacobiPrecond N (A.at_ a)
  | .sor omega => sorPrecond N omega (A.at_ a) (A.precond a)

/-- The matrix and the two vectors are on the same side (`side = true`: the device, which only a GPU build has), and no
object is on the device in a CPU build. -/
structure Ready (gpu side : Bool) (s : St α) : Prop where
  A : s.on .A = side
  x : s.on .x = side
  b : s.on .b = side
  dev : side = true → gpu = true
  cpu : gpu = false → s.on .M = false

/-- what SOR needs in addition: the data are on the device in a GPU build, and the host copy of the matrix is up to
date -/
structure SorReady (gpu side : Bool) (s : St α) : Prop where
  all : side = gpu
  host : s.host .A = s.get .A

/-- what is used of the matrix classes -/
structure Good (A : MatD α) : Prop where
  kernels : Kernels A
  mv : ∀ a x y, A.mv a x = .ok y → y.length = A.row

theorem crs_good [Zero α] [One α] [Add α] [Mul α] (order zo : List Nat) (A : Crs α) : Good (crsD N order zo A) :=
  ⟨crs_kernels order zo A, crs_mv_len order zo A⟩

theorem dense_good [Zero α] [One α] [Add α] [Mul α] (order : List Nat) (A : Dense α) : Good (denseD N order A) :=
  ⟨dense_kernels order A, dense_mv_len order A⟩

theorem Pc.quiet (p : Pc α) (A : MatD α) : Quiet (p.code N gpu A) := by
  cases p with
  | none => exact none_quiet
  | jacobi => exact jacobi_quiet A
  | sor w => exact sor_quiet A

variable {side : Bool} {s : St α}

theorem Pc.models (p : Pc α) {A : MatD α} (hA : Good A) (h : Ready gpu side s)
    (hs : (∃ w, p = .sor w) → SorReady gpu side s) :
    ∃ P, Models (p.code N gpu A) side A.row (s.get .A) P (p.list N A (s.get .A)) ∧ P (s.host .A) (s.on .M) := by
  cases p with
  | none => exact ⟨_, none_models _ _, trivial⟩
  | jacobi => exact ⟨_, jacobi_models A h.dev, h.cpu⟩
  | sor w => exact ⟨_, sor_models A hA.kernels (hs ⟨w, rfl⟩).all, (hs ⟨w, rfl⟩).host, h.cpu⟩

/-- **C107 (CG).** With the matrix and both vectors on the same side, CG computes on that side what the host algorithm
computes from the same contents – the same `x`, return code, iteration count, residual, or the same error – in a CPU
build, and in a GPU build with all data on the host or all on the device; with SOR as preconditioner the data have to be
on the device in a GPU build and the host copy of the matrix up to date. `A` and `b` keep their contents, `x` stays where it
is. -/
theorem C107_cg (cfg : Cfg α) {A : MatD α} (hA : Good A) (p : Pc α) (h : Ready gpu side s)
    (hs : (∃ w, p = .sor w) → SorReady gpu side s) :
    view (cg N gpu cfg A (p.code N gpu A) s) =
      CG.solve N cfg (A.at_ (s.get .A)) (p.list N A (s.get .A)) (s.get .x) (s.get .b) ∧
    ∀ r, cg N gpu cfg A (p.code N gpu A) s = .ok r → Keep s r.1 := by
  obtain ⟨P, hm, hp⟩ := p.models (N := N) hA h hs
  exact ⟨cg_view hm h.dev h.A h.x h.b rfl hp, fun r hr => cg_keep (p.quiet A) hr⟩

/-- **C107 (BiCGSTAB).** -/
theorem C107_bicg (cfg : Cfg α) {A : MatD α} (hA : Good A) (p : Pc α) (h : Ready gpu side s)
    (hs : (∃ w, p = .sor w) → SorReady gpu side s) :
    view (bicg N gpu cfg A (p.code N gpu A) s) =
      BiCG.solve N cfg (A.at_ (s.get .A)) (p.list N A (s.get .A)) (s.get .x) (s.get .b) ∧
    ∀ r, bicg N gpu cfg A (p.code N gpu A) s = .ok r → Keep s r.1 := by
  obtain ⟨P, hm, hp⟩ := p.models (N := N) hA h hs
  exact ⟨bicg_view hm h.dev hA.mv h.A h.x h.b rfl hp, fun r hr => bicg_keep (p.quiet A) hr⟩

/-- **C107 (Jacobi).** In a GPU build only for data on the device (`C107_jacobi_violated`). -/
theorem C107_jacobi_partial (cfg : Cfg α) {A : MatD α} (hA : Good A) (p : Pc α) (h : Ready gpu side s) (hg : side = gpu)
    (hs : (∃ w, p = .sor w) → SorReady gpu side s) (hx : (s.get .x).length = A.row) :
    view (jacobi N gpu cfg A (p.code N gpu A) s) =
      Jacobi.solve N cfg (A.at_ (s.get .A)) (p.list N A (s.get .A)) (s.get .x) (s.get .b) ∧
    ∀ r, jacobi N gpu cfg A (p.code N gpu A) s = .ok r → Keep s r.1 := by
  obtain ⟨P, hm, hp⟩ := p.models (N := N) hA h hs
  exact ⟨jacobi_view hm hg h.A h.x h.b rfl hp hx, fun r hr => jacobi_keep (p.quiet A) hr⟩

/-- **C107 (SOR).** In a GPU build only for data on the device (`C107_sor_violated`) and an up-to-date host copy of the
matrix (`C107_stale_violated`). -/
theorem C107_sor_partial (cfg : Cfg α) {A : MatD α} (hA : Good A) (p : Pc α) (h : Ready gpu side s)
    (hs : SorReady gpu side s) (hx : (s.get .x).length = A.row) :
    view (sor N gpu cfg A (p.code N gpu A) s) =
      SOR.solve N cfg (A.at_ (s.get .A)) (A.lower (s.get .A)) (p.list N A (s.get .A)) (s.get .x) (s.get .b) ∧
    ∀ r, sor N gpu cfg A (p.code N gpu A) s = .ok r → Keep s r.1 := by
  obtain ⟨P, hm, hp⟩ := p.models (N := N) hA h (fun _ => hs)
  exact ⟨sor_view hm hs.all hA.kernels hA.mv h.A h.x h.b rfl hs.host hp hx, fun r hr => sor_keep (p.quiet A) hr⟩

/-- **C107 (portability).** A CPU build and a GPU build with the data on the device give the same answer to the same
CG problem with a CRS matrix (and likewise the other solvers, from the statements above). -/
theorem C107_portable [Zero α] [One α] [Add α] [Mul α] (cfg : Cfg α) (order zo : List Nat) (A : Crs α) (p : Pc α)
    {s' : St α} (h : Ready false false s) (h' : Ready true true s') (hA' : s'.host .A = s'.get .A)
    (hc : ∀ o ∈ [V.A, V.x, V.b], s'.get o = s.get o) :
    view (cg N true cfg (crsD N order zo A) (p.code N true (crsD N order zo A)) s') =
      view (cg N false cfg (crsD N order zo A) (p.code N false (crsD N order zo A)) s) := by
  have hs : s.host .A = s.get .A := by simp [St.get, h.A]
  rw [(C107_cg cfg (crs_good order zo A) p h (fun _ => ⟨rfl, hs⟩)).1,
    (C107_cg cfg (crs_good order zo A) p h' (fun _ => ⟨rfl, hA'⟩)).1, hc .A (by decide), hc .x (by decide),
    hc .b (by decide)]

/-! ### Where it fails -/

theorem checkStat_mixed (h : s.on .A = s.on .x ∨ s.on .A = s.on .b) : checkStat s = .ok () := by
  unfold checkStat
  rw [if_neg]
  rintro ⟨h1, h2⟩
  rcases h with h | h
  · exact h1 h
  · exact h2 h

theorem jdiag_abort {A : MatD α} (l : List α) (h : s.on .A = false) :
    ∃ m, diag A .d (sendAll true [.r, .t, .s, .d] (newAll l [.r, .t, .s, .d] s)) = .abort m := by
  obtain ⟨w1, w2⟩ := jwork_spec (side := true) (gpu := true) l s rfl
  refine ⟨"assert", ?_⟩
  unfold diag call same
  dsimp only
  rw [w2.on _ (by decide), h]
  simp [(w1 .d (by decide)).1, cassert]

/-- **C107 (Jacobi, violated).** In a GPU build the Jacobi solver, called with a matrix and vectors that are on the host, ends
with a failed assertion, for every square matrix: its working vectors are sent to the device in any case
(jacobi.cpp:102). -/
theorem C107_jacobi_violated (cfg : Cfg α) (A : MatD α) (pc : PC α) (hl : cfg.lib = 0) (hsq : A.row = A.col)
    (h : Ready true false s) : ∃ m, jacobi N true cfg A pc s = .abort m := by
  obtain ⟨m, hm⟩ := jdiag_abort (A := A) (s := s) (List.replicate A.row N.zero) h.A
  refine ⟨m, ?_⟩
  unfold jacobi
  rw [if_pos hl, if_neg (by simp [hsq]), checkStat_ok h.A h.x, Res.ok_bind]
  dsimp only
  rw [hm]
  rfl

/-- **C107 (SOR, violated).** The same for the SOR solver (sor.cpp:110). -/
theorem C107_sor_violated (cfg : Cfg α) (A : MatD α) (pc : PC α) (hl : cfg.lib = 0) (hsq : A.row = A.col)
    (h : Ready true false s) : ∃ m, sor N true cfg A pc s = .abort m := by
  obtain ⟨m, hm⟩ := jdiag_abort (A := A) (s := s) (List.replicate A.row N.zero) h.A
  refine ⟨m, ?_⟩
  unfold sor
  rw [if_pos hl, if_neg (by simp [hsq]), checkStat_ok h.A h.x, Res.ok_bind]
  dsimp only
  rw [hm]
  rfl

/-- **C107 (mixed sides, violated).** Matrix and `b` on the device, `x` on the host: the check at the beginning does not
notice (it asks whether *both* vectors differ from the matrix), so instead of the exception the call ends with a failed
assertion. -/
theorem C107_mixed_violated (cfg : Cfg α) (A : MatD α) (hl : cfg.lib = 0) (hsq : A.row = A.col)
    (hA : s.on .A = true) (hb : s.on .b = true) (hx : s.on .x = false) :
    ∃ m, cg N true cfg A nonePC s = .abort m := by
  refine ⟨"assert", ?_⟩
  unfold cg
  rw [if_pos hl, if_neg (by simp [hsq]), checkStat_mixed (Or.inr (by rw [hA, hb])), Res.ok_bind]
  have eA : (newAll (List.replicate A.row N.zero) [.r, .p, .q, .z] s).on .A = true := by
    rw [(newAll_spec _ _ s).2.on _ (by decide), hA]
  obtain ⟨w1, w2⟩ := work_spec (gpu := true) (side := true) (List.replicate A.row N.zero) [.r, .p, .q, .z] s
    (go := true) rfl
  dsimp only at w1 w2 ⊢
  rw [eA]
  generalize (if true = true then sendAll true [.r, .p, .q, .z] (newAll (List.replicate A.row N.zero) [.r, .p, .q, .z] s)
    else newAll (List.replicate A.row N.zero) [.r, .p, .q, .z] s) = s0 at w1 w2 ⊢
  show matvec A .x .q s0 >>= _ = _
  unfold matvec call same
  dsimp only
  rw [w2.on .A (by decide), hA]
  simp [w2.on .x (by decide), hx, cassert]

/-! ### Concrete cases -/

/-- `exA`, `x = 0`, `b = (1, 0)`, all on one side -/
def exS (on : Bool) (a : List ℚ) : St ℚ where
  host o := match o with
    | .A => [2, 1, 1, 2]
    | .x => [0, 0]
    | .b => [1, 0]
    | _ => []
  dev o := match o with
    | .A => a
    | .x => [0, 0]
    | .b => [1, 0]
    | _ => []
  on o := match o with
    | .A | .x | .b => on
    | _ => false

abbrev exAD : MatD ℚ := crsD (Verif.Spec.fieldNum id) [0, 1] [0, 1] exA

/-- **C107 (SOR as preconditioner, violated).** Data on the host of a GPU build, CG with SOR as preconditioner: a failed
assertion, because the kernel ends with `z.send()` (sor_kernel.hpp:73). The same call in a CPU build solves the system. -/
theorem C107_pc_violated :
    view (cg (Verif.Spec.fieldNum id) true exCfg exAD ((Pc.sor 1).code (Verif.Spec.fieldNum id) true exAD)
      (exS false [2, 1, 1, 2])) = .abort "assert" ∧
    view (cg (Verif.Spec.fieldNum id) false exCfg exAD ((Pc.sor 1).code (Verif.Spec.fieldNum id) false exAD)
      (exS false [2, 1, 1, 2])) = .ok ⟨SUCCESS, [2 / 3, -1 / 3], 2, 0⟩ := by decide +kernel

/-- **C107 (stale host copy, violated).** The matrix has been changed on the device (device values `[4, 0, 0, 4]`, host copy
`[2, 1, 1, 2]`). The SOR solver multiplies with the device values and divides by the host values; the host algorithm on
the contents the user sees would return after one iteration. -/
theorem C107_stale_violated :
    Ready true true (exS true [4, 0, 0, 4]) ∧
    view (sor (Verif.Spec.fieldNum id) true exCfg exAD nonePC (exS true [4, 0, 0, 4])) ≠
      SOR.solve (Verif.Spec.fieldNum id) exCfg (exAD.at_ [4, 0, 0, 4]) (exAD.lower [4, 0, 0, 4]) noPrecond [0, 0] [1, 0] :=
  ⟨⟨rfl, rfl, rfl, fun _ => rfl, by simp⟩, by decide +kernel⟩

/-- the hypotheses of the theorems hold for data on the device … -/
example : Ready true true (exS true [2, 1, 1, 2]) ∧ SorReady true true (exS true [2, 1, 1, 2]) :=
  ⟨⟨rfl, rfl, rfl, fun _ => rfl, by simp⟩, rfl, rfl⟩

/-- … and on the host, -/
example : Ready true false (exS false []) ∧ Ready false false (exS false []) ∧ SorReady false false (exS false []) :=
  ⟨⟨rfl, rfl, rfl, by simp, by simp⟩, ⟨rfl, rfl, rfl, by simp, fun _ => rfl⟩, rfl, rfl⟩

/-- … and the solvers do solve: CG on the device, two iterations, the exact solution -/
example : view (cg (Verif.Spec.fieldNum id) true exCfg exAD nonePC (exS true [2, 1, 1, 2])) =
    .ok ⟨SUCCESS, [2 / 3, -1 / 3], 2, 0⟩ := by decide +kernel

/-- the hypotheses of `C107_mixed_violated`: `x` still on the host -/
example : ∃ m, cg (Verif.Spec.fieldNum id) true exCfg exAD nonePC
    { exS true [2, 1, 1, 2] with on := fun o => o == .A || o == .b } = .abort m :=
  C107_mixed_violated exCfg exAD rfl rfl rfl rfl rfl

end Verif.Solver.Dev
