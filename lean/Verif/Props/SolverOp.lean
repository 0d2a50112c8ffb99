import Verif.Model.SolverOp
import Verif.Props.LinOp
import Verif.Props.LinDiag
import Verif.Props.SolverMat

/-!
C105: the solvers on LinearOperators, and the same system in different representations.
-/

namespace Verif.Solver

open Verif.Spec Matrix

variable {α : Type}

/-! ### Two matrix arguments that cannot be told apart -/

/-- two `n × n` matrix arguments that give the same product with every vector of length `n`, and the same diagonal -/
structure SameMat (n : Nat) (A A' : Mat α) : Prop where
  row : A.row = n
  row' : A'.row = n
  col : A.col = n
  col' : A'.col = n
  mv : ∀ x, x.length = n → A.mv x = A'.mv x
  diag : A.diag = A'.diag

/-- a preconditioner that keeps the length of vectors -/
def KeepsLength (pc : List α → Res (List α)) : Prop := ∀ u w, pc u = .ok w → w.length = u.length

theorem of_cassert {p : Prop} [Decidable p] {u : Unit} (h : cassert (decide p) = .ok u) : p := by
  unfold cassert at h
  split at h
  · next h1 => exact of_decide_eq_true h1
  · cases h

theorem xpay_len {N : Num α} {a : α} {x y z : List α} (h : N.xpay a x y = .ok z) : z.length = y.length := by
  unfold Num.xpay at h
  obtain ⟨_, hc, h⟩ := Res.bind_eq_ok.mp h
  have := of_cassert hc
  cases h
  simp [this]

theorem axpy_len {N : Num α} {a : α} {x y z : List α} (h : N.axpy a x y = .ok z) : z.length = y.length := by
  unfold Num.axpy at h
  obtain ⟨_, hc, h⟩ := Res.bind_eq_ok.mp h
  have := of_cassert hc
  cases h
  simp [this]

theorem axpyz_len {N : Num α} {a : α} {x y z : List α} {nz : Nat} (h : N.axpyz a x y nz = .ok z) :
    z.length = nz := by
  unfold Num.axpyz at h
  obtain ⟨_, hc, h⟩ := Res.bind_eq_ok.mp h
  have := of_cassert hc
  cases h
  simp only [List.length_zipWith]
  omega

theorem vadd_len {N : Num α} {x y z : List α} {nz : Nat} (h : N.vadd x y nz = .ok z) : z.length = nz := by
  unfold Num.vadd at h
  obtain ⟨_, hc, h⟩ := Res.bind_eq_ok.mp h
  have := of_cassert hc
  cases h
  simp only [List.length_zipWith]
  omega

theorem copyV_len {x y : List α} {n : Nat} (h : Num.copyV x n = .ok y) : y.length = n := by
  unfold Num.copyV at h
  obtain ⟨_, hc, h⟩ := Res.bind_eq_ok.mp h
  have := of_cassert hc
  cases h
  exact this

/-- two computations with the same first part -/
theorem bind_congr' {β γ : Type} {m m' : Res β} {f g : β → Res γ} (h : m = m') (hfg : ∀ a, m = .ok a → f a = g a) :
    (m >>= f) = (m' >>= g) := by
  subst h
  cases m with
  | ok a => exact hfg a rfl
  | _ => rfl

variable {N : Num α} {cfg : Cfg α} {n : Nat} {A A' : Mat α} {pc : List α → Res (List α)}

theorem CG.loop_same (hA : SameMat n A A') : ∀ (k iter : Nat) (s : CG.St α), s.p.length = n →
    CG.loop N cfg A pc k iter s = CG.loop N cfg A' pc k iter s
  | 0, _, _, _ => rfl
  | k + 1, iter, s, hs => by
    unfold CG.loop
    have hstep : CG.step N A pc s = CG.step N A' pc s := by
      unfold CG.step
      rw [hA.mv _ hs]
    refine bind_congr' hstep (fun s' hs' => ?_)
    have hp : s'.p.length = n := by
      unfold CG.step at hs'
      obtain ⟨q, _, hs'⟩ := Res.bind_eq_ok.mp hs'
      obtain ⟨_, _, hs'⟩ := Res.bind_eq_ok.mp hs'
      obtain ⟨_, _, hs'⟩ := Res.bind_eq_ok.mp hs'
      obtain ⟨_, _, hs'⟩ := Res.bind_eq_ok.mp hs'
      obtain ⟨_, _, hs'⟩ := Res.bind_eq_ok.mp hs'
      obtain ⟨_, _, hs'⟩ := Res.bind_eq_ok.mp hs'
      obtain ⟨_, _, hs'⟩ := Res.bind_eq_ok.mp hs'
      obtain ⟨p, hp, hs'⟩ := Res.bind_eq_ok.mp hs'
      cases hs'
      rw [xpay_len hp, hs]
    refine bind_congr' rfl (fun resid _ => bind_congr' rfl (fun o _ => ?_))
    cases o with
    | some out => rfl
    | none => exact CG.loop_same hA k (iter + 1) s' hp

/-- **C105**: CG gives the same outcome for two matrix arguments with the same products, in every arithmetic. -/
theorem C105_cg_same (hA : SameMat n A A') (create : Res (List α → Res (List α))) {x : List α} (hx : x.length = n)
    (b : List α) : CG.solve N cfg A create x b = CG.solve N cfg A' create x b := by
  unfold CG.solve CG.monolish
  rw [hA.row, hA.row', hA.col, hA.col']
  split
  · split
    · rfl
    · refine bind_congr' rfl (fun pc _ => ?_)
      have hinit : CG.init N A pc x b = CG.init N A' pc x b := by
        unfold CG.init
        rw [hA.mv x hx, hA.row, hA.row']
      refine bind_congr' hinit (fun s hs => ?_)
      refine CG.loop_same hA _ _ s ?_
      unfold CG.init at hs
      obtain ⟨_, _, hs⟩ := Res.bind_eq_ok.mp hs
      obtain ⟨_, _, hs⟩ := Res.bind_eq_ok.mp hs
      obtain ⟨_, _, hs⟩ := Res.bind_eq_ok.mp hs
      obtain ⟨p, hp, hs⟩ := Res.bind_eq_ok.mp hs
      cases hs
      rw [copyV_len hp, hA.row]
  · rfl

theorem BiCG.loop_same (hA : SameMat n A A') (hpc : KeepsLength pc) {r0 : List α} :
    ∀ (k iter : Nat) (s : BiCG.St α), s.p.length = n →
      BiCG.loop N cfg A pc r0 k iter s = BiCG.loop N cfg A' pc r0 k iter s
  | 0, _, _, _ => rfl
  | k + 1, iter, s, hs => by
    unfold BiCG.loop
    rw [hA.row, hA.row']
    refine bind_congr' rfl (fun rho _ => ?_)
    split
    · rfl
    refine bind_congr' rfl (fun p hp => ?_)
    have hpl : p.length = n := by
      unfold BiCG.direction at hp
      split at hp
      · exact copyV_len hp
      · obtain ⟨p1, h1, hp⟩ := Res.bind_eq_ok.mp hp
        rw [xpay_len hp, axpy_len h1, hs]
    refine bind_congr' rfl (fun phat hphat => ?_)
    have h1 : phat.length = n := by rw [hpc _ _ hphat, hpl]
    refine bind_congr' (hA.mv _ h1) (fun v _ => ?_)
    refine bind_congr' rfl (fun vr0 _ => ?_)
    refine bind_congr' rfl (fun sv hsv => ?_)
    refine bind_congr' rfl (fun shat hshat => ?_)
    have h2 : shat.length = n := by rw [hpc _ _ hshat, axpyz_len hsv]
    refine bind_congr' (hA.mv _ h2) (fun t _ => ?_)
    refine bind_congr' rfl (fun ts _ => ?_)
    refine bind_congr' rfl (fun tt _ => ?_)
    dsimp only
    split
    · rfl
    refine bind_congr' rfl (fun x _ => ?_)
    refine bind_congr' rfl (fun x _ => ?_)
    refine bind_congr' rfl (fun r _ => ?_)
    refine bind_congr' rfl (fun resid _ => ?_)
    refine bind_congr' rfl (fun o _ => ?_)
    cases o with
    | some out => rfl
    | none => exact BiCG.loop_same hA hpc k (iter + 1) _ hpl

/-- **C105** for BiCGSTAB. -/
theorem C105_bicg_same (hA : SameMat n A A') {create : Res (List α → Res (List α))}
    (hc : ∀ pc, create = .ok pc → KeepsLength pc) {x : List α} (hx : x.length = n) (b : List α) :
    BiCG.solve N cfg A create x b = BiCG.solve N cfg A' create x b := by
  unfold BiCG.solve BiCG.monolish
  rw [hA.row, hA.row', hA.col, hA.col']
  split
  · split
    · rfl
    · refine bind_congr' rfl (fun pc hpc => ?_)
      refine bind_congr' (hA.mv x hx) (fun q _ => ?_)
      refine bind_congr' rfl (fun r _ => ?_)
      exact BiCG.loop_same hA (hc pc hpc) _ _ _ (by simp)
  · rfl

theorem Jacobi.loop_same (hA : SameMat n A A') {b d : List α} {binv : α} :
    ∀ (k iter : Nat) (x r : List α),
      Jacobi.loop N cfg A pc b d binv k iter x r = Jacobi.loop N cfg A' pc b d binv k iter x r
  | 0, _, _, _ => rfl
  | k + 1, iter, x, r => by
    unfold Jacobi.loop
    rw [hA.row, hA.row']
    refine bind_congr' rfl (fun _ _ => ?_)
    refine bind_congr' rfl (fun s hs => ?_)
    refine bind_congr' (hA.mv _ (copyV_len hs)) (fun t _ => ?_)
    refine bind_congr' rfl (fun r _ => ?_)
    refine bind_congr' rfl (fun r _ => ?_)
    refine bind_congr' rfl (fun x _ => ?_)
    refine bind_congr' rfl (fun o _ => ?_)
    cases o with
    | some out => rfl
    | none => exact Jacobi.loop_same hA k (iter + 1) _ _

/-- **C105** for the Jacobi solver. -/
theorem C105_jacobi_same (hA : SameMat n A A') (create : Res (List α → Res (List α))) (x b : List α) :
    Jacobi.solve N cfg A create x b = Jacobi.solve N cfg A' create x b := by
  unfold Jacobi.solve Jacobi.monolish
  rw [hA.row, hA.row', hA.col, hA.col', hA.diag]
  split
  · split
    · rfl
    · refine bind_congr' rfl (fun d _ => ?_)
      refine bind_congr' rfl (fun pc _ => ?_)
      exact Jacobi.loop_same hA _ _ _ _
  · rfl

/-- the Jacobi preconditioners of the two are the same -/
theorem jacobiPrecond_same (hA : SameMat n A A') : jacobiPrecond N A = jacobiPrecond N A' := by
  unfold jacobiPrecond
  rw [hA.row, hA.row', hA.col, hA.col', hA.diag]

theorem jacobiPrecond_keeps {pc : List α → Res (List α)} (h : jacobiPrecond N A = .ok pc) : KeepsLength pc := by
  unfold jacobiPrecond at h
  split at h
  · cases h
  obtain ⟨d, _, h⟩ := Res.bind_eq_ok.mp h
  have e := Res.ok.inj h
  intro u w hw
  rw [← e] at hw
  unfold Num.vmul at hw
  obtain ⟨_, hc, hw⟩ := Res.bind_eq_ok.mp hw
  have := of_cassert hc
  cases hw
  simp only [List.length_zipWith]
  omega

/-! ### Representations of one matrix -/

section field

variable {K : Type} [Field K] [LinearOrder K] [IsStrictOrderedRing K] {M : Matrix (Fin n) (Fin n) K}

/-- two matrix arguments that stand for the same matrix cannot be told apart -/
theorem sameMat_of_isMat {A A' : Mat K} (h : IsMat A id M) (h' : IsMat A' id M) : SameMat n A A' where
  row := h.row
  row' := h'.row
  col := h.col
  col' := h'.col
  mv x hx := by
    have e : x = vec id (fun i : Fin n => x[i.1]'(by rw [hx]; exact i.2)) := by
      refine List.ext_getElem (by simp [vec, hx]) (fun i h1 h2 => by simp [vec])
    rw [e, h.mv, h'.mv]
  diag := by rw [h.diag, h'.diag]

open LinOp in
/-- An operator that acts as the matrix `f` is one as solver argument, for every distribution of the loop of `diag`
and every schedule that lets it finish. -/
theorem isMat_ofOp {ord : Nat → List Nat} {σ : Store K} {a : Nat} {f : Nat → Nat → K} {L : Op K}
    (hL : σ a = .op L) (h : Acts ord σ false a n n f) {work : Nat → List Nat} {sched : List Nat}
    (hw : LinDiag.Shares n work) (hs : ∀ t, 4 * (work t).length ≤ sched.count t) :
    ∃ d0, ∀ depth, d0 ≤ depth →
      IsMat (ofOp ord depth σ a L work sched) id (Matrix.of (fun i j : Fin n => f i j)) := by
  obtain ⟨L', hL', hr, hc⟩ := h.op
  rw [hL] at hL'
  cases hL'
  obtain ⟨d0, hd⟩ := h.call
  refine ⟨d0, fun depth hdep => ?_⟩
  have hmv : ∀ x : List K, x.length = n → LinOp.matvec ord depth σ false a x n = .ok (image n n f x) := by
    intro x hx
    exact hd depth hdep x (by simpa using hx)
  refine { row := hr, col := hc, mv := ?_, diag := ?_ }
  · intro v
    show LinOp.matvec ord depth σ false a (vec id v) L.rowN = _
    rw [hr, hmv _ (by simp [vec])]
    congr 1
    refine List.ext_getElem (by simp [image, vec]) (fun i h1 h2 => ?_)
    have hi : i < n := by simpa [vec] using h2
    have hm := mulVec_ext f v ⟨i, hi⟩
    simp only [image, List.getElem_map, List.getElem_range, vec, List.getElem_ofFn, id]
    rw [← hm]
    congr 1
    funext j
    unfold ext
    by_cases hj : j < n
    · simp [hj]
    · simp [hj]
  · show (do
      let s ← LinDiag.diagVector L.rowN L.colN (fun x => LinOp.matvec ord depth σ false a x L.rowN)
        (List.replicate L.rowN 0) L.rowN work sched
      .ok s.mem) = _
    rw [hr, hc]
    obtain ⟨s, h1, h2, h3⟩ := LinDiag.C41_vector (rows := n) (cols := n) (M := f) hmv (List.replicate n 0)
      (by simp) (by rw [Nat.min_self]; exact hw) sched
    rw [List.length_replicate] at h1
    rw [h1, Res.ok_bind, h3 (h2 hs)]
    congr 1
    refine List.ext_getElem (by simp [vec]) (fun i h1 h2 => ?_)
    simp [vec, Matrix.diag]

open LinOp

/-- an operator made from a CRS matrix -/
theorem acts_crs {ord : Nat → List Nat} {σ : Store K} (hord : ∀ n, Order (ord n) n) {l m : Nat} {L : Op K} {A : Crs K}
    (hL : σ l = .op L) (hr : L.rowN = A.rowN) (hc : L.colN = A.colN) (hf : L.mv = some (.crs l m))
    (hm : σ m = .crs A) (hA : A.Safe) : Acts ord σ false l A.rowN A.colN (crsAt A) := by
  refine acts_of_call hL hr hc hf ⟨1, fun n hn x hx => ?_⟩
  obtain ⟨n, rfl⟩ : ∃ m, n = m + 1 := ⟨n - 1, by omega⟩
  simp only [call, getOp_ok hL, getCrs, hm, Res.ok_bind]
  exact crs_mv A hA _ _ (hord _) x (by simpa using hx)

/-- **C105**: a LinearOperator that acts as a matrix `f` and a CRS matrix with the same elements give the same
outcome with CG, BiCGSTAB and the Jacobi solver, without preconditioner and with the Jacobi preconditioner, whatever
the arithmetic of the vector operations, the settings and the schedules are. -/
theorem C105_operator {ord : Nat → List Nat} {σ : Store K} {a : Nat} {f : Nat → Nat → K} {L : Op K}
    (hL : σ a = .op L) (h : Acts ord σ false a n n f) {work : Nat → List Nat} {sched : List Nat}
    (hw : LinDiag.Shares n work) (hs : ∀ t, 4 * (work t).length ≤ sched.count t)
    {A : Crs K} (hA : A.Safe) (hd : DistinctPos A.entries) (hr : A.rowN = n) (hc : A.colN = n)
    (hf : ∀ i j, i < n → j < n → crsAt A i j = f i j) {order zo : List Nat} (ho : Order order n) (hz : Order zo n) :
    ∃ d0, ∀ depth, d0 ≤ depth → ∀ (N : Num K) (cfg : Cfg K) (x b : List K), x.length = n →
      let A1 := ofOp ord depth σ a L work sched
      let A2 := ofCrs order zo A
      CG.solve N cfg A1 noPrecond x b = CG.solve N cfg A2 noPrecond x b ∧
      CG.solve N cfg A1 (jacobiPrecond N A1) x b = CG.solve N cfg A2 (jacobiPrecond N A2) x b ∧
      BiCG.solve N cfg A1 noPrecond x b = BiCG.solve N cfg A2 noPrecond x b ∧
      BiCG.solve N cfg A1 (jacobiPrecond N A1) x b = BiCG.solve N cfg A2 (jacobiPrecond N A2) x b ∧
      Jacobi.solve N cfg A1 noPrecond x b = Jacobi.solve N cfg A2 noPrecond x b := by
  obtain ⟨d0, hd0⟩ := isMat_ofOp hL h hw hs
  refine ⟨d0, fun depth hdep N cfg x b hx => ?_⟩
  have e : Matrix.of (fun i j : Fin n => crsAt A i j) = Matrix.of (fun i j : Fin n => f i j) := by
    ext i j
    exact hf i j i.2 j.2
  have h1 := isMat_crs A hA hd hr hc order zo ho hz
  rw [e] at h1
  have hS := sameMat_of_isMat (hd0 depth hdep) h1
  refine ⟨C105_cg_same hS _ hx b, ?_, C105_bicg_same hS ?_ hx b, ?_, C105_jacobi_same hS _ x b⟩
  · rw [jacobiPrecond_same hS]
    exact C105_cg_same hS _ hx b
  · intro pc hpc u w huw
    cases hpc
    cases huw
    rfl
  · rw [jacobiPrecond_same hS]
    exact C105_bicg_same hS (fun pc hpc => jacobiPrecond_keeps hpc) hx b

/-- **C105** for a Dense and a CRS matrix with the same elements. -/
theorem C105_dense {D : Dense K} (hD : D.WF) (h0 : D.first = 0) {f : Nat → Nat → K} (hD1 : D.Reads f)
    (hDr : D.rowN = n) (hDc : D.colN = n) {dorder : List Nat} (hdo : Order dorder n)
    {A : Crs K} (hA : A.Safe) (hd : DistinctPos A.entries) (hr : A.rowN = n) (hc : A.colN = n)
    (hf : ∀ i j, i < n → j < n → crsAt A i j = f i j) {order zo : List Nat} (ho : Order order n) (hz : Order zo n)
    (N : Num K) (cfg : Cfg K) (x b : List K) (hx : x.length = n) :
      let A1 := ofDense dorder D
      let A2 := ofCrs order zo A
      CG.solve N cfg A1 noPrecond x b = CG.solve N cfg A2 noPrecond x b ∧
      CG.solve N cfg A1 (jacobiPrecond N A1) x b = CG.solve N cfg A2 (jacobiPrecond N A2) x b ∧
      BiCG.solve N cfg A1 noPrecond x b = BiCG.solve N cfg A2 noPrecond x b ∧
      BiCG.solve N cfg A1 (jacobiPrecond N A1) x b = BiCG.solve N cfg A2 (jacobiPrecond N A2) x b ∧
      Jacobi.solve N cfg A1 noPrecond x b = Jacobi.solve N cfg A2 noPrecond x b := by
  have e : Matrix.of (fun i j : Fin n => crsAt A i j) = Matrix.of (fun i j : Fin n => f i j) := by
    ext i j
    exact hf i j i.2 j.2
  have h1 := isMat_crs A hA hd hr hc order zo ho hz
  rw [e] at h1
  have hS := sameMat_of_isMat (isMat_dense D hD h0 f hD1 hDr hDc dorder hdo) h1
  refine ⟨C105_cg_same hS _ hx b, ?_, C105_bicg_same hS ?_ hx b, ?_, C105_jacobi_same hS _ x b⟩
  · rw [jacobiPrecond_same hS]
    exact C105_cg_same hS _ hx b
  · intro pc hpc u w huw
    cases hpc
    cases huw
    rfl
  · rw [jacobiPrecond_same hS]
    exact C105_bicg_same hS (fun pc hpc => jacobiPrecond_keeps hpc) hx b

/-- **C105**: CG on a LinearOperator that acts as a symmetric positive definite matrix returns SUCCESS after at most
`n` iterations, without preconditioner or with the Jacobi preconditioner (exact arithmetic). -/
theorem C105_cg (sq : K → K) (hsq : sq 0 = 0) (cfg : Cfg K) (htol : 0 < cfg.tol) (hlib : cfg.lib = 0)
    (hm : cfg.residMethod = 0) (hmin : cfg.miniter = 0) (hmax : n ≤ cfg.maxiter)
    {ord : Nat → List Nat} {σ : Store K} {a : Nat} {f : Nat → Nat → K} {L : Op K} (hL : σ a = .op L)
    (h : Acts ord σ false a n n f) {work : Nat → List Nat} {sched : List Nat}
    (hw : LinDiag.Shares n work) (hs : ∀ t, 4 * (work t).length ≤ sched.count t)
    (hM : SPD (Matrix.of (fun i j : Fin n => f i j))) :
    ∃ d0, ∀ depth, d0 ≤ depth → ∀ create, (create = noPrecond ∨
        create = jacobiPrecond (fieldNum sq) (ofOp ord depth σ a L work sched)) →
      ∀ (x b : Fin n → K), Matrix.of (fun i j : Fin n => f i j) *ᵥ x ≠ b →
      ∃ k y, 1 ≤ k ∧ k ≤ n ∧ norm2 sq (b - Matrix.of (fun i j : Fin n => f i j) *ᵥ y) < cfg.tol ∧
        CG.solve (fieldNum sq) cfg (ofOp ord depth σ a L work sched) create (List.ofFn x) (List.ofFn b) =
          .ok { status := SUCCESS, x := List.ofFn y, finalIter := k,
                finalResid := norm2 sq (b - Matrix.of (fun i j : Fin n => f i j) *ᵥ y) } := by
  obtain ⟨d0, hd0⟩ := isMat_ofOp hL h hw hs
  refine ⟨d0, fun depth hdep create hP x b hx => ?_⟩
  have hI := hd0 depth hdep
  have hdiag : ∀ i, 0 < Matrix.of (fun i j : Fin n => f i j) i i := by
    intro i
    have h1 := hM.2 (Pi.single i 1) (by
      intro h
      have := congrFun h i
      simp at this)
    simpa [mulVec_single_one, single_one_dotProduct] using h1
  rcases hP with rfl | rfl
  · exact C34_terminates (fieldNum_exact sq) hsq cfg cfg.tol htol rfl hlib hm hmin hmax _ _ hI hM _ 1
      spd_one (noPrecond_is id) x b hx
  · exact C34_terminates (fieldNum_exact sq) hsq cfg cfg.tol htol rfl hlib hm hmin hmax _ _ hI hM _ _
      (spd_diagonal _ (fun i => div_pos one_pos (hdiag i)))
      (jacobiPrecond_is (fieldNum_exact sq) hI (fun i => ne_of_gt (hdiag i))) x b hx

/-- **C105** for the client program that solves with `B + s C` through operators. -/
theorem C105_sum (sq : K → K) (hsq : sq 0 = 0) (cfg : Cfg K) (htol : 0 < cfg.tol) (hlib : cfg.lib = 0)
    (hm : cfg.residMethod = 0) (hmin : cfg.miniter = 0) (hmax : n ≤ cfg.maxiter)
    {ord : Nat → List Nat} (hord : ∀ n, Order (ord n) n) {work : Nat → List Nat} {sched : List Nat}
    (hw : LinDiag.Shares n work) (hs : ∀ t, 4 * (work t).length ≤ sched.count t)
    {B C : Crs K} (hB : B.Safe) (hC : C.Safe) (hBr : B.rowN = n) (hBc : B.colN = n) (hCr : C.rowN = n)
    (hCc : C.colN = n) (s : K)
    (hM : SPD (Matrix.of (fun i j : Fin n => crsAt B i j + crsAt C i j * s))) :
    ∃ d0, ∀ depth, d0 ≤ depth → ∀ (x b : Fin n → K),
      Matrix.of (fun i j : Fin n => crsAt B i j + crsAt C i j * s) *ᵥ x ≠ b →
      ∃ k y, 1 ≤ k ∧ k ≤ n ∧
        norm2 sq (b - Matrix.of (fun i j : Fin n => crsAt B i j + crsAt C i j * s) *ᵥ y) < cfg.tol ∧
        sumCg (fieldNum sq) cfg ord depth work sched n B C s (List.ofFn x) (List.ofFn b) =
          .ok { status := SUCCESS, x := List.ofFn y, finalIter := k,
                finalResid := norm2 sq (b - Matrix.of (fun i j : Fin n => crsAt B i j + crsAt C i j * s) *ᵥ y) } := by
  let blank : LinOp.Op K := ⟨n, n, none, none, none, none⟩
  let σ0 : LinOp.Store K := fun
    | 0 => .op blank
    | 1 => .op blank
    | 2 => .op blank
    | 3 => .op blank
    | 4 => .crs B
    | 5 => .crs C
    | 6 => .scalar s
    | _ => .dead
  let o0 : Op K := ⟨B.rowN, B.colN, some (.crs 0 4), none, some (.crs 0 4), none⟩
  let o1 : Op K := ⟨C.rowN, C.colN, some (.crs 1 5), none, some (.crs 1 5), none⟩
  let o2 : Op K := ⟨n, n, some (.smul 1 6), none, none, none⟩
  let o3 : Op K := ⟨n, n, some (.add 0 2), none, none, none⟩
  let σ1 := σ0.set 0 (.op o0)
  let σ2 := σ1.set 1 (.op o1)
  let σ3 := σ2.set 2 (.op o2)
  let σ4 := σ3.set 3 (.op o3)
  have e1 : convertCrs σ0 0 4 = .ok σ1 := rfl
  have e2 : convertCrs σ1 1 5 = .ok σ2 := rfl
  have e3 : scalarOp .smul σ2 1 6 2 = .ok σ3 := by
    have : sameSize o1 blank = true := by simp [sameSize, o1, blank, hCr, hCc]
    show (do
      cassert (sameSize o1 blank)
      Res.ok (σ2.set 2 (.op (setFns o1 blank (.smul 1 6))))) = _
    rw [this]
    rfl
  have e4 : addsub .add σ3 0 2 3 = .ok σ4 := by
    have : (sameSize o0 o2 && sameSize o0 blank) = true := by simp [sameSize, o0, o2, blank, hBr, hBc]
    show (do
      cassert (sameSize o0 o2 && sameSize o0 blank)
      cassert (decide (o0.mv.isSome = o2.mv.isSome))
      cassert (decide (o0.rmv.isSome = o2.rmv.isSome))
      Res.ok (σ3.set 3 (.op (setFns o0 blank (.add 0 2))))) = _
    rw [this]
    rfl
  have e5 : getOp σ4 3 = .ok o3 := rfl
  have a0 : Acts ord σ4 false 0 n n (crsAt B) := by
    have := acts_crs (σ := σ4) hord (l := 0) (m := 4) (L := o0) (A := B) rfl rfl rfl rfl rfl hB
    rwa [hBr, hBc] at this
  have a1 : Acts ord σ4 false 1 n n (crsAt C) := by
    have := acts_crs (σ := σ4) hord (l := 1) (m := 5) (L := o1) (A := C) rfl rfl rfl rfl rfl hC
    rwa [hCr, hCc] at this
  have a2 : Acts ord σ4 false 2 n n (fun i j => crsAt C i j * s) :=
    C40_scalar_live (σ := σ4) (a := 1) (s := 6) (C := o2) (f := .smul 1 6) rfl rfl rfl rfl
      (Or.inr (Or.inr (Or.inl rfl))) a1 rfl
  have a3 : Acts ord σ4 false 3 n n (fun i j => crsAt B i j + crsAt C i j * s) :=
    C40_add_live (σ := σ4) (C := o3) rfl rfl rfl rfl a0 a2
  obtain ⟨d0, hd0⟩ := C105_cg sq hsq cfg htol hlib hm hmin hmax (σ := σ4) (a := 3) (L := o3) rfl a3 hw hs hM
  refine ⟨d0, fun depth hdep x b hx => ?_⟩
  obtain ⟨k, y, h1, h2, h3, h4⟩ := hd0 depth hdep noPrecond (Or.inl rfl) x b hx
  refine ⟨k, y, h1, h2, h3, ?_⟩
  rw [← h4]
  unfold sumCg
  dsimp only
  show (do
    let σ ← convertCrs σ0 0 4
    let σ ← convertCrs σ 1 5
    let σ ← scalarOp .smul σ 1 6 2
    let σ ← addsub .add σ 0 2 3
    let L ← getOp σ 3
    CG.solve (fieldNum sq) cfg (ofOp ord depth σ 3 L work sched) noPrecond (List.ofFn x) (List.ofFn b)) = _
  rw [e1, Res.ok_bind, e2, Res.ok_bind, e3, Res.ok_bind, e4, Res.ok_bind, e5, Res.ok_bind]

/-- **C105 needs the operands to be alive**: if the matrix an operator was made from has been destroyed, every solve
is undefined behaviour. -/
theorem C105_dangling_violated {ord : Nat → List Nat} {σ : Store K} {a m : Nat} {L : Op K} (hL : σ a = .op L)
    (hf : L.mv = some (.crs a m)) (hm : σ m = .dead) (hr : L.rowN = n) (hc : L.colN = n) (depth : Nat)
    (work : Nat → List Nat) (sched : List Nat) (N : Num K) (cfg : Cfg K) (hlib : cfg.lib = 0) {x : List K}
    (hx : x.length = n) (b : List K) :
    ∃ e, CG.solve N cfg (ofOp ord depth σ a L work sched) noPrecond x b = .ub e := by
  have hmv : ∃ e, (ofOp ord depth σ a L work sched).mv x = .ub e := by
    show ∃ e, LinOp.matvec ord depth σ false a x L.rowN = .ub e
    unfold LinOp.matvec applyOp
    rw [getOp_ok hL, Res.ok_bind, cassert_decide (by rfl), Res.ok_bind,
      cassert_decide (by rw [hx, ← hc]; rfl), Res.ok_bind]
    show ∃ e, (match L.mv with
      | none => Res.throw "error matvec is not initialized"
      | some c => do
        let y ← call ord σ false depth c x
        cassert (decide (y.length = L.rowN))
        .ok y) = .ub e
    rw [hf]
    cases depth with
    | zero => exact ⟨_, rfl⟩
    | succ d =>
      simp only [call, getOp_ok hL, Res.ok_bind, getCrs, hm]
      exact ⟨_, rfl⟩
  obtain ⟨e, he⟩ := hmv
  refine ⟨e, ?_⟩
  unfold CG.solve CG.monolish
  rw [if_pos hlib, if_neg (by simp [ofOp, hr, hc])]
  simp only [noPrecond, Res.ok_bind, CG.init, he]
  rfl

end field

/-! ### Concrete systems -/

/-- the loop of `diag` of a 2 × 2 operator on one thread -/
def exWork (t : Nat) : List Nat := if t = 0 then [0, 1] else []

theorem exWork_shares : LinDiag.Shares 2 exWork where
  nodup t := by by_cases h : t = 0 <;> simp [exWork, h]
  disj t u i htu ht := by
    by_cases h : t = 0
    · have hu : u ≠ 0 := fun hu => htu (h.trans hu.symm)
      simp [exWork, hu]
    · simp [exWork, h] at ht
  mem i := by
    constructor
    · intro hi
      refine ⟨0, ?_⟩
      simp [exWork]
      omega
    · rintro ⟨t, ht⟩
      by_cases h : t = 0
      · simp [exWork, h] at ht
        omega
      · simp [exWork, h] at ht

theorem exWork_sched (t : Nat) : 4 * (exWork t).length ≤ (List.replicate 8 0).count t := by
  by_cases h : t = 0
  · subst h
    decide
  · simp [exWork, h]

/-- `LinearOperator A(exA)` -/
def exOp : LinOp.Op ℚ := ⟨2, 2, some (.crs 0 1), none, some (.crs 0 1), none⟩

/-- the operator at address 0, its matrix at address 1 -/
def exStore : LinOp.Store ℚ := fun
  | 0 => .op exOp
  | 1 => .crs exA
  | _ => .dead

theorem range_order (n : Nat) : Order (List.range n) n := List.Perm.refl _

theorem exStore_acts : LinOp.Acts List.range exStore false 0 2 2 (crsAt exA) :=
  acts_crs (σ := exStore) (l := 0) (m := 1) (L := exOp) (A := exA) range_order rfl rfl rfl rfl rfl exA_safe

/-- the hypotheses of `C105_operator` (and `isMat_ofOp`, `sameMat_of_isMat`) hold for this system -/
example (x b : List ℚ) (hx : x.length = 2) : ∃ d0, ∀ depth, d0 ≤ depth → ∀ N cfg,
    BiCG.solve N cfg (ofOp List.range depth exStore 0 exOp exWork (List.replicate 8 0)) noPrecond x b =
      BiCG.solve N cfg (ofCrs [1, 0] [0, 1] exA) noPrecond x b := by
  obtain ⟨d0, h⟩ := C105_operator (n := 2) (L := exOp) rfl exStore_acts exWork_shares exWork_sched exA_safe exA_distinct
    rfl rfl (fun _ _ _ _ => rfl) (order := [1, 0]) (zo := [0, 1]) (by unfold Order; decide) (by unfold Order; decide)
  exact ⟨d0, fun depth hd N cfg => (h depth hd N cfg x b hx).2.2.1⟩

/-- the hypotheses of `C105_sum` hold for `exA + 1 · exA` -/
example : ∃ d0, ∀ depth, d0 ≤ depth → ∃ k y r, k ≤ 2 ∧ r < 1 / 100 ∧
    sumCg (fieldNum id) exCfg List.range depth exWork (List.replicate 8 0) 2 exA exA 1 [0, 0] [1, 0] =
      .ok { status := SUCCESS, x := y, finalIter := k, finalResid := r } := by
  have hM : SPD (Matrix.of (fun i j : Fin 2 => crsAt exA i j + crsAt exA i j * 1)) := by
    have e : Matrix.of (fun i j : Fin 2 => crsAt exA i j + crsAt exA i j * 1) =
        (2 : ℚ) • Matrix.of (fun i j : Fin 2 => crsAt exA i j) := by
      ext i j
      simp
      ring
    rw [e]
    refine ⟨by rw [Matrix.transpose_smul, exA_spd.1], fun v hv => ?_⟩
    rw [Matrix.smul_mulVec, dotProduct_smul]
    have := exA_spd.2 v hv
    simpa using this
  obtain ⟨d0, h⟩ := C105_sum (n := 2) id rfl exCfg (by norm_num [exCfg]) rfl rfl rfl (by decide) range_order
    exWork_shares exWork_sched exA_safe exA_safe rfl rfl rfl rfl (1 : ℚ) hM
  refine ⟨d0, fun depth hd => ?_⟩
  obtain ⟨k, y, _, h2, h3, h4⟩ := h depth hd ![0, 0] ![1, 0] (by
    intro h
    have h := congrFun h 0
    simp [Matrix.mulVec] at h)
  exact ⟨k, List.ofFn y, _, h2, h3, h4⟩

example : sumCg (fieldNum id) exCfg List.range 4 exWork (List.replicate 8 0) 2 exA exA 1 [0, 0] [1, 0] =
    .ok { status := SUCCESS, x := [1/3, -1/6], finalIter := 2, finalResid := 0 } := by decide +kernel

/-- the matrix is gone: `C105_dangling_violated` applies -/
example : ∃ e, CG.solve (fieldNum id) exCfg
    (ofOp List.range 4 (exStore.set 1 .dead) 0 exOp exWork (List.replicate 8 0)) noPrecond [0, 0] [1, 0] = .ub e :=
  C105_dangling_violated (n := 2) (a := 0) (m := 1) (L := exOp) rfl rfl rfl rfl rfl 4 exWork _ _ exCfg rfl rfl [1, 0]

/-- the same matrix as Dense -/
def exD : Dense ℚ := ⟨2, 2, [2, 1, 1, 2], 4, 4, 0, true⟩

theorem exD_at : ∀ i j : Fin 2, exD.at_ i j = .ok (crsAt exA i j) := by decide +kernel

/-- `C105_dense` on the Dense matrix with the same elements -/
example (x b : List ℚ) (hx : x.length = 2) (N : Num ℚ) (cfg : Cfg ℚ) :
    Jacobi.solve N cfg (ofDense [0, 1] exD) noPrecond x b =
      Jacobi.solve N cfg (ofCrs [1, 0] [0, 1] exA) noPrecond x b :=
  (C105_dense (n := 2) (f := fun i j => crsAt exA i j) (D := exD)
    ⟨rfl, rfl, by decide⟩ rfl 
    (fun i j hi hj => exD_at ⟨i, hi⟩ ⟨j, hj⟩) rfl rfl (by unfold Order; decide) exA_safe exA_distinct
    rfl rfl (fun _ _ _ _ => rfl) (order := [1, 0]) (zo := [0, 1]) (by unfold Order; decide) (by unfold Order; decide)
    N cfg x b hx).2.2.2.2

end Verif.Solver
