import Verif.Lemmas.Session

/-!
C98: solver objects over their lifetime.
-/

namespace Verif.Solver

open Verif.Spec

variable {α : Type} {N : Num α} {opens : String → Bool} {tol0 omega0 : α}

/-! ### A call of `solve` does not see the counters of earlier calls -/

theorem CG.loop_prev (cfg : Cfg α) (pi : Nat) (pr : α) (A : Mat α) (pc : List α → Res (List α))
    (m : Nat) : ∀ iter s, CG.loop N { cfg with prevIter := pi, prevResid := pr } A pc m iter s =
      CG.loop N cfg A pc m iter s := by
  induction m with
  | zero => intro iter s; rfl
  | succ m ih =>
    intro iter s
    unfold CG.loop
    simp only [ih]
    rfl

theorem BiCG.loop_prev (cfg : Cfg α) (pi : Nat) (pr : α) (A : Mat α) (pc : List α → Res (List α))
    (r0 : List α) (m : Nat) : ∀ iter s,
    BiCG.loop N { cfg with prevIter := pi, prevResid := pr } A pc r0 m iter s =
      BiCG.loop N cfg A pc r0 m iter s := by
  induction m with
  | zero => intro iter s; rfl
  | succ m ih =>
    intro iter s
    unfold BiCG.loop
    simp only [ih]
    rfl

theorem Jacobi.loop_prev (cfg : Cfg α) (pi : Nat) (pr : α) (A : Mat α) (pc : List α → Res (List α))
    (b d : List α) (binv : α) (m : Nat) : ∀ iter x r,
    Jacobi.loop N { cfg with prevIter := pi, prevResid := pr } A pc b d binv m iter x r =
      Jacobi.loop N cfg A pc b d binv m iter x r := by
  induction m with
  | zero => intro iter x r; rfl
  | succ m ih =>
    intro iter x r
    unfold Jacobi.loop
    simp only [ih]
    rfl

theorem SOR.loop_prev (cfg : Cfg α) (pi : Nat) (pr : α) (A : Mat α)
    (lower : List α → List α → List α → Res (List α)) (pc : List α → Res (List α))
    (b d : List α) (binv : α) (m : Nat) : ∀ iter x r,
    SOR.loop N { cfg with prevIter := pi, prevResid := pr } A lower pc b d binv m iter x r =
      SOR.loop N cfg A lower pc b d binv m iter x r := by
  induction m with
  | zero => intro iter x r; rfl
  | succ m ih =>
    intro iter x r
    unfold SOR.loop
    simp only [ih]
    rfl

theorem single_prev {k : Kind} (hk : k ≠ .none) {cfg : Cfg α} (hlib : cfg.lib = 0) (pi : Nat) (pr : α)
    (A : SMat α) (create : Res (List α → Res (List α))) (x b : List α) :
    single N k { cfg with prevIter := pi, prevResid := pr } A create x b =
      single N k cfg A create x b := by
  cases k with
  | none => exact absurd rfl hk
  | cg =>
    unfold single CG.solve
    dsimp only
    rw [if_pos hlib, if_pos hlib]
    unfold CG.monolish
    simp only [CG.loop_prev]
  | bicg =>
    unfold single BiCG.solve
    dsimp only
    rw [if_pos hlib, if_pos hlib]
    unfold BiCG.monolish
    simp only [BiCG.loop_prev]
  | jacobi =>
    unfold single Jacobi.solve
    dsimp only
    rw [if_pos hlib, if_pos hlib]
    unfold Jacobi.monolish
    simp only [Jacobi.loop_prev]
  | sor =>
    unfold single SOR.solve
    dsimp only
    rw [if_pos hlib, if_pos hlib]
    unfold SOR.monolish
    simp only [SOR.loop_prev]

theorem solveH_outcome (k : Kind) (cfg : Cfg α) (A : SMat α) (create : Res (List α → Res (List α)))
    (print : Bool) (x b : List α) :
    outcome (k.solveH N cfg A create print x b) = single N k cfg A create x b := by
  cases k with
  | none => rfl
  | cg => exact C97_same_cg ..
  | bicg => exact C97_same_bicg ..
  | jacobi => exact C97_same_jacobi ..
  | sor => exact C97_same_sor ..

theorem solveH_off {k : Kind} {cfg : Cfg α} {A : SMat α} {create : Res (List α → Res (List α))}
    {x b : List α} {o : Out α} {h : History α}
    (e : k.solveH N cfg A create false x b = .ok (o, h)) : h = [] := by
  cases k with
  | none => cases e; rfl
  | cg => exact C97_silent (lower := A.lower) (.inl e)
  | bicg => exact C97_silent (lower := A.lower) (.inr (.inl e))
  | jacobi => exact C97_silent (lower := A.lower) (.inr (.inr (.inl e)))
  | sor => exact C97_silent (.inr (.inr (.inr e)))

/-- the size check comes before everything else -/
theorem single_nonsquare {k : Kind} (hk : k ≠ .none) {cfg : Cfg α} (hlib : cfg.lib = 0) {A : SMat α}
    (hA : A.mat.row ≠ A.mat.col) (c c' : Res (List α → Res (List α))) (x b : List α) :
    single N k cfg A c x b = single N k cfg A c' x b := by
  cases k with
  | none => exact absurd rfl hk
  | cg => simp [single, CG.solve, CG.monolish, hlib, hA]
  | bicg => simp [single, BiCG.solve, BiCG.monolish, hlib, hA]
  | jacobi => simp [single, Jacobi.solve, Jacobi.monolish, hlib, hA]
  | sor => simp [single, SOR.solve, SOR.monolish, hlib, hA]

/-- a run that fails while the diagonal is read fails in the same way with and without preconditioner -/
theorem single_throw {k : Kind} (hk : k ≠ .none) {cfg : Cfg α} (hlib : cfg.lib = 0) {A : SMat α}
    (hA : A.mat.row = A.mat.col) {m : String} (hd : A.mat.diag = .throw m) (x b : List α) :
    single N k cfg A (.throw m) x b = .throw m := by
  cases k with
  | none => exact absurd rfl hk
  | cg => simp [single, CG.solve, CG.monolish, hlib, hA]
  | bicg => simp [single, BiCG.solve, BiCG.monolish, hlib, hA]
  | jacobi => simp [single, Jacobi.solve, Jacobi.monolish, hlib, hA, hd]
  | sor => simp [single, SOR.solve, SOR.monolish, hlib, hA, hd]

theorem single_abort {k : Kind} (hk : k ≠ .none) {cfg : Cfg α} (hlib : cfg.lib = 0) {A : SMat α}
    (hA : A.mat.row = A.mat.col) {m : String} (hd : A.mat.diag = .abort m) (x b : List α) :
    single N k cfg A (.abort m) x b = .abort m := by
  cases k with
  | none => exact absurd rfl hk
  | cg => simp [single, CG.solve, CG.monolish, hlib, hA]
  | bicg => simp [single, BiCG.solve, BiCG.monolish, hlib, hA]
  | jacobi => simp [single, Jacobi.solve, Jacobi.monolish, hlib, hA, hd]
  | sor => simp [single, SOR.solve, SOR.monolish, hlib, hA, hd]

theorem single_ub {k : Kind} (hk : k ≠ .none) {cfg : Cfg α} (hlib : cfg.lib = 0) {A : SMat α}
    (hA : A.mat.row = A.mat.col) {m : String} (hd : A.mat.diag = .ub m) (x b : List α) :
    single N k cfg A (.ub m) x b = .ub m := by
  cases k with
  | none => exact absurd rfl hk
  | cg => simp [single, CG.solve, CG.monolish, hlib, hA]
  | bicg => simp [single, BiCG.solve, BiCG.monolish, hlib, hA]
  | jacobi => simp [single, Jacobi.solve, Jacobi.monolish, hlib, hA, hd]
  | sor => simp [single, SOR.solve, SOR.monolish, hlib, hA, hd]

/-! ### One call in a world -/

theorem write_ok {ops : List (Op α)} {w : World α} (g : Good opens tol0 omega0 ops w) {i : Nat}
    {o : Obj α} (ho : w.Has i o) {h : History α} (hp : o.print = false → h = []) :
    ∃ w', w.write o.sink h = .ok w' := by
  unfold World.write
  split
  · exact ⟨w, rfl⟩
  · rename_i hne
    have hd := (g.live i o ho).2.dest
    unfold DestOk at hd
    split at hd
    · rw [hp hd.2.2] at hne
      exact absurd rfl hne
    · rw [hd]
      exact ⟨_, rfl⟩
    · obtain ⟨id, f, h1, h2, _, _, h5⟩ := hd
      rw [h1]
      dsimp only
      rw [h2]
      dsimp only
      rw [h5]
      split
      · contradiction
      · split <;> exact ⟨_, rfl⟩

theorem create_has {w w' : World α} {o : Obj α} {A : SMat α} (h : w.create N o A = .ok w') {i : Nat}
    {p : Obj α} (hp : w.Has i p) : ∃ M B, w'.Has i { p with
      M := M
      A := B } := by
  unfold World.create at h
  split at h
  · cases h; exact ⟨p.M, p.A, hp⟩
  · rename_i j hj
    obtain ⟨q, hq, h⟩ := Res.bind_eq_ok.1 h
    obtain ⟨q', hq', h⟩ := Res.bind_eq_ok.1 h
    cases h
    rw [World.obj_ok] at hq
    obtain ⟨M, B, rfl⟩ := createPrecond_fields hq'
    by_cases hij : j = i
    · subst hij
      cases hp.symm.trans hq
      exact ⟨M, B, (World.has_put hq.lt).2 (.inl ⟨rfl, rfl⟩)⟩
    · exact ⟨p.M, p.A, (World.has_put hq.lt).2 (.inr ⟨hij, hp⟩)⟩

theorem solve_seen {ops : List (Op α)} {w w1 : World α} (g : Good opens tol0 omega0 ops w) {i : Nat}
    {o : Obj α} (ho : w.Has i o) {A : SMat α} {x b : List α}
    (h1 : (if o.creates A then w.create N o A else .ok w) = .ok w1) :
    seen (w.solve N i A x b) = single N o.kind o.cfg A (.ok (w1.apply N o A.mat.row)) x b := by
  have g1 : Good opens tol0 omega0 ops w1 := by
    split at h1
    · exact g.create h1
    · cases h1; exact g
  obtain ⟨M, B, ho1⟩ : ∃ M B, w1.Has i { o with
      M := M
      A := B } := by
    split at h1
    · exact create_has h1 ho
    · cases h1; exact ⟨o.M, o.A, ho⟩
  unfold World.solve
  rw [World.obj_ok.2 ho, Res.ok_bind, h1]
  dsimp only
  rw [← solveH_outcome (print := o.print)]
  rcases hr : o.kind.solveH N o.cfg A (.ok (w1.apply N o A.mat.row)) o.print x b with ⟨out, h⟩ | m | m | m
  · dsimp only
    rw [World.obj_ok.2 ho1, Res.ok_bind]
    have g2 := g1.data (o' := { o with
      M := M
      A := B
      finalIter := out.finalIter
      finalResid := out.finalResid }) ho1 rfl rfl rfl rfl rfl rfl rfl rfl rfl rfl rfl rfl
    obtain ⟨w2, hw2⟩ := write_ok g2 ((World.has_put ho1.lt).2 (.inl ⟨rfl, rfl⟩)) (h := h) (by
      intro hp
      have hp : o.print = false := hp
      rw [hp] at hr
      exact solveH_off hr)
    dsimp only at hw2 ⊢
    rw [hw2]
    rfl
  · rfl
  · rfl
  · rfl

theorem Matches.cfg {files : List (File α)} {o : Obj α} {s : Settings α}
    (m : Matches opens files o s) :
    { o.cfg with
      prevIter := 0
      prevResid := N.zero } = s.cfg N := by
  unfold Obj.cfg Settings.cfg
  rw [m.lib, m.tol, m.miniter, m.maxiter, m.residMethod, m.omega]

theorem resizeV_length (M : List α) (n : Nat) : (resizeV N M n).length = n := by
  simp [resizeV]
  omega

theorem vmul_size {M : List α} {row : Nat} (h : M.length = row) (r : List α) :
    N.vmul M r row = N.vmul M r r.length := by
  subst h
  unfold Num.vmul
  by_cases h : M.length = r.length <;> simp [h]

theorem createJacobi {w : World α} {j : Nat} {p : Obj α} (hp : w.Has j p) (hk : p.kind = .jacobi)
    {o : Obj α} (hc : o.create = some j) (ha : o.apply = some j) {A : SMat α} (hA : Overwrites A)
    (hs : A.mat.row = A.mat.col) {d : List α} (hd : A.mat.diag = .ok d) :
    ∃ w1, w.create N o A = .ok w1 ∧
      jacobiPrecond N A.mat = .ok (w1.apply N o A.mat.row) := by
  refine ⟨w.put j { p with M := N.reciprocal d }, ?_, ?_⟩
  · unfold World.create
    rw [hc]
    dsimp only
    rw [World.obj_ok.2 hp, Res.ok_bind]
    unfold Obj.createPrecond
    rw [hk]
    dsimp only
    rw [if_neg (not_not.2 hs), hA.all hs _ (resizeV_length _ _), hd]
    rfl
  · unfold jacobiPrecond
    rw [if_neg (not_not.2 hs), hd, Res.ok_bind]
    congr 1
    funext r
    unfold World.apply
    rw [ha]
    dsimp only
    rw [World.obj_ok.2 ((World.has_put hp.lt).2 (.inl ⟨rfl, rfl⟩)), Res.ok_bind]
    unfold Obj.applyPrecond
    dsimp only
    rw [hk]
    exact (vmul_size (by simp [Num.reciprocal, hA.len hs d hd]) r).symm

theorem createSor {w : World α} {j : Nat} {p : Obj α} (hp : w.Has j p) (hk : p.kind = .sor)
    {o : Obj α} (hc : o.create = some j) (ha : o.apply = some j) {A : SMat α} (hA : Overwrites A)
    (hs : A.mat.row = A.mat.col) {d : List α} (hd : A.mat.diag = .ok d) :
    ∃ w1, w.create N o A = .ok w1 ∧
      sorPrecond N p.omega A.mat A.prec = .ok (w1.apply N o A.mat.row) := by
  refine ⟨w.put j { p with
    M := N.reciprocal (d.map (N.mul p.omega))
    A := some A }, ?_, ?_⟩
  · unfold World.create
    rw [hc]
    dsimp only
    rw [World.obj_ok.2 hp, Res.ok_bind]
    unfold Obj.createPrecond
    rw [hk]
    dsimp only
    rw [if_neg (not_not.2 hs), hA.all hs _ (resizeV_length _ _), hd]
    rfl
  · unfold sorPrecond
    rw [if_neg (not_not.2 hs), hd, Res.ok_bind]
    dsimp only
    congr 1
    funext r
    unfold World.apply
    rw [ha]
    dsimp only
    rw [World.obj_ok.2 ((World.has_put hp.lt).2 (.inl ⟨rfl, rfl⟩)), Res.ok_bind]
    unfold Obj.applyPrecond
    dsimp only
    rw [hk]

/-- **C98, without preconditioner**: after any program that copies no solver object, a call of `solve` of
an object that is not destroyed returns exactly what a single call with the settings of the last setter
calls would return on fresh objects (same vector, return code, counters, exception or failed
assertion), whatever was solved before with whatever matrices, by this or other objects. -/
theorem C98_plain {ops : List (Op α)} (hcopy : NoCopy ops) {w : World α}
    (hrun : World.run N opens tol0 omega0 {} ops = .ok w) {i : Nat} {k : Kind}
    (hk : (made ops)[i]? = some k) (hk0 : k ≠ .none) (hlive : Op.destroy i ∉ ops)
    (hlib : (inForce tol0 omega0 ops i).lib = 0) (hc : (inForce tol0 omega0 ops i).create = none)
    (ha : (inForce tol0 omega0 ops i).apply = none) (A : SMat α) (x b : List α) :
    seen (w.step N opens tol0 omega0 (.solve i A x b)) =
      single N k ((inForce tol0 omega0 ops i).cfg N) A noPrecond x b := by
  have g := good_run hcopy hrun
  obtain ⟨o, ho⟩ := g.alive i (by
    rw [g.count]; exact (List.getElem?_eq_some_iff.1 hk).1) hlive
  obtain ⟨hk', m⟩ := g.live i o ho
  rw [hk] at hk'
  injection hk' with hk'
  subst hk'
  have h1 : (if o.creates A then w.create N o A else .ok w) = .ok w := by
    have : w.create N o A = .ok w := by
      unfold World.create
      rw [m.create, hc]
    rw [this, ite_self]
  have hap : w.apply N o A.mat.row = fun r => .ok r := by
    funext r
    unfold World.apply
    rw [m.apply, ha]
  rw [World.step, solve_seen g ho h1, hap, ← m.cfg]
  exact (single_prev (cfg := o.cfg) hk0 (m.lib.trans hlib) 0 N.zero A noPrecond x b).symm

/-- **C98, with a preconditioner**: the same if one object `j` (class `none`, `Jacobi` or `SOR`) has been
registered with both `set_create_precond` and `set_apply_precond`: the preconditioner is always the one
of the matrix of this call, made with the settings in force for `j`, even if `j` served other solvers
and other matrices, of any sizes, before. -/
theorem C98_precond {ops : List (Op α)} (hcopy : NoCopy ops) {w : World α}
    (hrun : World.run N opens tol0 omega0 {} ops = .ok w) {i j : Nat} {k kp : Kind}
    (hk : (made ops)[i]? = some k) (hk0 : k ≠ .none) (hlive : Op.destroy i ∉ ops)
    (hkp : (made ops)[j]? = some kp) (hkp' : kp = .none ∨ kp = .jacobi ∨ kp = .sor)
    (hlivep : Op.destroy j ∉ ops)
    (hlib : (inForce tol0 omega0 ops i).lib = 0) (hc : (inForce tol0 omega0 ops i).create = some j)
    (ha : (inForce tol0 omega0 ops i).apply = some j) (A : SMat α) (hA : Overwrites A)
    (x b : List α) :
    seen (w.step N opens tol0 omega0 (.solve i A x b)) =
      single N k ((inForce tol0 omega0 ops i).cfg N) A
        (precondOf N kp (inForce tol0 omega0 ops j).omega A) x b := by
  have g := good_run hcopy hrun
  obtain ⟨o, ho⟩ := g.alive i (by
    rw [g.count]; exact (List.getElem?_eq_some_iff.1 hk).1) hlive
  obtain ⟨hk', m⟩ := g.live i o ho
  rw [hk] at hk'
  injection hk' with hk'
  subst hk'
  obtain ⟨p, hp⟩ := g.alive j (by
    rw [g.count]; exact (List.getElem?_eq_some_iff.1 hkp).1) hlivep
  obtain ⟨hkq, mp⟩ := g.live j p hp
  rw [hkp] at hkq
  injection hkq with hkq
  have hlib' : o.lib = 0 := m.lib.trans hlib
  rw [World.step, ← m.cfg, single_prev hk0 hlib']
  by_cases hs : A.mat.row = A.mat.col
  · have hcr : o.creates A = true := by
      unfold Obj.creates
      exact decide_eq_true ⟨hk0, hlib', hs⟩
    -- the preconditioner could be made
    have made : ∀ w1, w.create N o A = .ok w1 →
        precondOf N kp (inForce tol0 omega0 ops j).omega A = .ok (w1.apply N o A.mat.row) →
        seen (w.solve N i A x b) = single N o.kind o.cfg A
          (precondOf N kp (inForce tol0 omega0 ops j).omega A) x b := by
      intro w1 h1 h2
      rw [h2]
      exact solve_seen g ho (by rw [hcr]; exact h1)
    -- the diagonal could not be read
    have failed : kp = .jacobi ∨ kp = .sor → (∀ d, A.mat.diag ≠ .ok d) →
        seen (w.solve N i A x b) = single N o.kind o.cfg A
          (precondOf N kp (inForce tol0 omega0 ops j).omega A) x b := by
      intro hkp hd
      have hcreate : w.create N o A = A.mat.diag.bind (fun _ => .ub "") := by
        unfold World.create
        rw [m.create, hc]
        dsimp only
        rw [World.obj_ok.2 hp, Res.ok_bind]
        unfold Obj.createPrecond
        rw [← hkq]
        rcases hkp with rfl | rfl
        · dsimp only
          rw [if_neg (not_not.2 hs), hA.all hs _ (resizeV_length _ _)]
          rcases hdd : A.mat.diag with d | e | e | e
          · exact absurd hdd (hd d)
          · rfl
          · rfl
          · rfl
        · dsimp only
          rw [if_neg (not_not.2 hs), hA.all hs _ (resizeV_length _ _)]
          rcases hdd : A.mat.diag with d | e | e | e
          · exact absurd hdd (hd d)
          · rfl
          · rfl
          · rfl
      have hpre : precondOf N kp (inForce tol0 omega0 ops j).omega A =
          A.mat.diag.bind (fun _ => .ub "") := by
        unfold precondOf
        rcases hkp with rfl | rfl
        · dsimp only [jacobiPrecond]
          rw [if_neg (not_not.2 hs)]
          rcases hdd : A.mat.diag with d | e | e | e
          · exact absurd hdd (hd d)
          · rfl
          · rfl
          · rfl
        · dsimp only [sorPrecond]
          rw [if_neg (not_not.2 hs)]
          rcases hdd : A.mat.diag with d | e | e | e
          · exact absurd hdd (hd d)
          · rfl
          · rfl
          · rfl
      rw [hpre]
      unfold World.solve
      rw [World.obj_ok.2 ho, Res.ok_bind, hcr, if_pos rfl, hcreate]
      rcases hdd : A.mat.diag with d | e | e | e
      · exact absurd hdd (hd d)
      · exact (single_throw (cfg := o.cfg) hk0 hlib' hs hdd x b).symm
      · exact (single_abort (cfg := o.cfg) hk0 hlib' hs hdd x b).symm
      · exact (single_ub (cfg := o.cfg) hk0 hlib' hs hdd x b).symm
    rcases hkp' with rfl | rfl | rfl
    · refine made (w.put j p) ?_ ?_
      · unfold World.create
        rw [m.create, hc]
        dsimp only
        rw [World.obj_ok.2 hp, Res.ok_bind]
        unfold Obj.createPrecond
        rw [← hkq]
        rfl
      · unfold precondOf
        dsimp only
        congr 1
        funext r
        unfold World.apply
        rw [m.apply, ha]
        dsimp only
        rw [World.obj_ok.2 ((World.has_put hp.lt).2 (.inl ⟨rfl, rfl⟩)), Res.ok_bind]
        unfold Obj.applyPrecond
        rw [← hkq]
    · rcases hdd : A.mat.diag with d | e | e | e
      · obtain ⟨w1, h1, h2⟩ := createJacobi (N := N) hp hkq.symm (m.create.trans hc) (m.apply.trans ha) hA hs hdd
        exact made w1 h1 h2
      all_goals exact failed (.inl rfl) (fun d h => by rw [hdd] at h; cases h)
    · rcases hdd : A.mat.diag with d | e | e | e
      · obtain ⟨w1, h1, h2⟩ := createSor (N := N) hp hkq.symm (m.create.trans hc) (m.apply.trans ha) hA hs hdd
        rw [mp.omega] at h2
        exact made w1 h1 h2
      all_goals exact failed (.inr rfl) (fun d h => by rw [hdd] at h; cases h)
  · have hcr : o.creates A = false := by
      unfold Obj.creates
      exact decide_eq_false (fun h => hs h.2.2)
    rw [solve_seen g ho (w1 := w) (by rw [hcr]; rfl)]
    exact single_nonsquare (cfg := o.cfg) hk0 hlib' hs _ _ x b

/-- **C98, no crash**: after any program that copies no solver object, every further statement that uses
live objects succeeds or throws; in particular no stream is deleted twice, none is written to after it
was deleted, and destroying an object is always possible. (For `solve` the result is in `C98_plain` and
`C98_precond`.) -/
theorem C98_safe {ops : List (Op α)} (hcopy : NoCopy ops) {w : World α}
    (hrun : World.run N opens tol0 omega0 {} ops = .ok w) {op : Op α}
    (hc : ∀ i, op ≠ .copy i) (hs : ∀ i A x b, op ≠ .solve i A x b)
    (hlive : ∀ i ∈ uses op, i < (made ops).length ∧ Op.destroy i ∉ ops) :
    ∃ p, w.step N opens tol0 omega0 op = .ok p := by
  have g := good_run hcopy hrun
  have has : ∀ i ∈ uses op, ∃ o, w.Has i o := fun i hi =>
    g.alive i (by rw [g.count]; exact (hlive i hi).1) (hlive i hi).2
  have setter : ∀ i ∈ uses op, ∀ f : Obj α → Obj α, ∃ p, w.modify i f = .ok p := by
    intro i hi f
    obtain ⟨o, ho⟩ := has i hi
    exact ⟨_, by unfold World.modify; rw [World.obj_ok.2 ho]; rfl⟩
  cases op with
  | new k => exact ⟨_, rfl⟩
  | setLib i l => exact setter i (by simp [uses]) _
  | setTol i t => exact setter i (by simp [uses]) _
  | setMiniter i t => exact setter i (by simp [uses]) _
  | setMaxiter i t => exact setter i (by simp [uses]) _
  | setResidMethod i t => exact setter i (by simp [uses]) _
  | setOmega i t => exact setter i (by simp [uses]) _
  | setPrint i t => exact setter i (by simp [uses]) _
  | setFile i name =>
    obtain ⟨o, ho⟩ := has i (by simp [uses])
    exact ⟨_, by unfold World.step; dsimp only; rw [World.obj_ok.2 ho]; rfl⟩
  | setCreate i j =>
    obtain ⟨o, ho⟩ := has j (by simp [uses])
    unfold World.step
    dsimp only
    rw [World.obj_ok.2 ho, Res.ok_bind]
    exact setter i (by simp [uses]) _
  | setApply i j =>
    obtain ⟨o, ho⟩ := has j (by simp [uses])
    unfold World.step
    dsimp only
    rw [World.obj_ok.2 ho, Res.ok_bind]
    exact setter i (by simp [uses]) _
  | solve i A x b => exact absurd rfl (hs i A x b)
  | copy i => exact absurd rfl (hc i)
  | destroy i =>
    obtain ⟨o, ho⟩ := has i (by simp [uses])
    have hd := (g.live i o ho).2.dest
    show ∃ p, w.destroy i = .ok p
    unfold World.destroy
    rw [World.obj_ok.2 ho, Res.ok_bind]
    dsimp only
    unfold DestOk at hd
    split at hd
    · rw [if_neg (by rw [hd.2.1]; simp)]
      exact ⟨_, rfl⟩
    · rw [if_neg (by rw [hd]; simp)]
      exact ⟨_, rfl⟩
    · obtain ⟨id, f, h1, h2, _, _, h5⟩ := hd
      rw [h1]
      dsimp only
      rw [h2]
      dsimp only
      rw [h5]
      split <;> exact ⟨_, rfl⟩

theorem solveH_reports {k : Kind} (hk : k ≠ .none) {cfg : Cfg α} (hlib : cfg.lib = 0) {A : SMat α}
    {create : Res (List α → Res (List α))} {x b : List α} {o : Out α} {h : History α}
    (e : k.solveH N cfg A create true x b = .ok (o, h)) : Reports N cfg h o := by
  cases k with
  | none => exact absurd rfl hk
  | cg => exact (C97_cg hlib e).1
  | bicg => exact (C97_bicg hlib e).1
  | jacobi => exact C97_jacobi_partial hlib e
  | sor => exact (C97_sor hlib e).1

theorem create_io {w w' : World α} {o : Obj α} {A : SMat α} (h : w.create N o A = .ok w') :
    w'.cout = w.cout ∧ w'.files = w.files := by
  unfold World.create at h
  split at h
  · cases h; exact ⟨rfl, rfl⟩
  · obtain ⟨q, hq, h⟩ := Res.bind_eq_ok.1 h
    obtain ⟨q', hq', h⟩ := Res.bind_eq_ok.1 h
    cases h
    exact ⟨rfl, rfl⟩

theorem write_went {ops : List (Op α)} {w w' : World α} (g : Good opens tol0 omega0 ops w) {i : Nat}
    {o : Obj α} (ho : w.Has i o) {h : History α} (hp : o.print = false → h = [])
    (e : w.write o.sink h = .ok w') : Went opens w w' h (inForce tol0 omega0 ops i).dest := by
  have hd := (g.live i o ho).2.dest
  revert hd
  generalize (inForce tol0 omega0 ops i).dest = d
  intro hd
  unfold World.write at e
  cases d with
  | unset =>
    have hh := hp hd.2.2
    subst hh
    cases e
    exact ⟨rfl, rfl, rfl⟩
  | stdout =>
    split at e
    · rename_i hh
      cases e
      have hh := List.isEmpty_iff.1 hh
      subst hh
      exact ⟨(List.append_nil _).symm, rfl⟩
    · rw [show o.sink = .cout from hd] at e
      cases e
      exact ⟨rfl, rfl⟩
  | file name =>
    obtain ⟨id, f, h1, h2, h3, h4, h5⟩ := hd
    have same : f.lines ++ [] = f.lines → w.files = w.files.set id { f with lines := f.lines ++ [] } := by
      intro hl
      rw [hl]
      obtain ⟨hlt, rfl⟩ := List.getElem?_eq_some_iff.1 h2
      exact (List.set_getElem_self hlt).symm
    split at e
    · rename_i hh
      cases e
      have hh := List.isEmpty_iff.1 hh
      subst hh
      refine ⟨rfl, id, f, h2, h3, ?_⟩
      rw [ite_self]
      exact same (List.append_nil _)
    · rw [h1] at e
      dsimp only at e
      rw [h2] at e
      dsimp only at e
      rw [h5, if_neg Bool.false_ne_true] at e
      split at e
      · rename_i hg
        cases e
        refine ⟨rfl, id, f, h2, h3, ?_⟩
        rw [← h4, if_pos hg, h5]
      · rename_i hg
        cases e
        refine ⟨rfl, id, f, h2, h3, ?_⟩
        rw [← h4, if_neg hg]
        exact same (List.append_nil _)

/-- **C98, where the history goes**: after any program that copies no solver object, the lines of a call
of `solve` that returns go to the standard output if `set_print_rhistory` was the last of the two
setters called, to the named file if `set_rhistory_filename` was, and nowhere else; they are the history
of this run (C97), and none at all if printing is off. -/
theorem C98_destination {ops : List (Op α)} (hcopy : NoCopy ops) {w w' : World α}
    (hrun : World.run N opens tol0 omega0 {} ops = .ok w) {i : Nat} {k : Kind}
    (hk : (made ops)[i]? = some k) (hk0 : k ≠ .none)
    (hlib : (inForce tol0 omega0 ops i).lib = 0) {A : SMat α} {x b : List α} {out : Out α}
    (e : w.step N opens tol0 omega0 (.solve i A x b) = .ok (w', .ret out)) :
    ∃ h, Went opens w w' h (inForce tol0 omega0 ops i).dest ∧
      ((inForce tol0 omega0 ops i).print = false → h = []) ∧
      ((inForce tol0 omega0 ops i).print = true →
        Reports N ((inForce tol0 omega0 ops i).cfg N) h out) := by
  have g := good_run hcopy hrun
  obtain ⟨o, ho, e⟩ := Res.bind_eq_ok.1 e
  rw [World.obj_ok] at ho
  obtain ⟨hk', m⟩ := g.live i o ho
  rw [hk] at hk'
  injection hk' with hk'
  subst hk'
  split at e
  · cases e
  · cases e
  · cases e
  · rename_i w1 hw1
    have g1 : Good opens tol0 omega0 ops w1 := by
      split at hw1
      · exact g.create hw1
      · cases hw1; exact g
    have hio : w1.cout = w.cout ∧ w1.files = w.files := by
      split at hw1
      · exact create_io hw1
      · cases hw1; exact ⟨rfl, rfl⟩
    split at e
    · cases e
    · cases e
    · cases e
    · rename_i out' h hr
      obtain ⟨o', ho', e⟩ := Res.bind_eq_ok.1 e
      obtain ⟨w2, hw2, e⟩ := Res.bind_eq_ok.1 e
      cases e
      rw [World.obj_ok] at ho'
      have m' := (g1.live i o' ho').2
      obtain ⟨M, B, ho1⟩ : ∃ M B, w1.Has i { o with
          M := M
          A := B } := by
        split at hw1
        · exact create_has hw1 ho
        · cases hw1; exact ⟨o.M, o.A, ho⟩
      cases ho'.symm.trans ho1
      have g2 := g1.data (o' := { o with
        M := M
        A := B
        finalIter := out.finalIter
        finalResid := out.finalResid }) ho1 rfl rfl rfl rfl rfl rfl rfl rfl rfl rfl rfl rfl
      have hoff : o.print = false → h = [] := by
        intro hp
        rw [hp] at hr
        exact solveH_off hr
      have hwent := write_went g2 ((World.has_put ho1.lt).2 (.inl ⟨rfl, rfl⟩)) (h := h) hoff hw2
      refine ⟨h, ?_, fun hp => hoff (m.print.trans hp), fun hp => ?_⟩
      · revert hwent
        cases (inForce tol0 omega0 ops i).dest with
        | unset => rintro ⟨a, b, c⟩; exact ⟨a, b.trans hio.1, c.trans hio.2⟩
        | stdout => rintro ⟨a, b⟩; exact ⟨a.trans (congrArg (· ++ h) hio.1), b.trans hio.2⟩
        | file name =>
          rintro ⟨a, id, f, h1, h2, h3⟩
          refine ⟨a.trans hio.1, id, f, hio.2 ▸ h1, h2, h3.trans ?_⟩
          exact congrArg (fun l => List.set l id _) hio.2
      · rw [m.print.trans hp] at hr
        have r := solveH_reports hk0 (cfg := o.cfg) (m.lib.trans hlib) hr
        rw [← m.cfg]
        exact ⟨r.numbers, r.earlier, r.codes, r.success, r.nan, r.maxiter, r.iters⟩

end Verif.Solver
