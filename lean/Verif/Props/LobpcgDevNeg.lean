import Verif.Props.LobpcgDev
import Verif.Props.LobpcgCases

/-!
C117: where the LOBPCG eigensolvers fail in a GPU build.
-/

namespace Verif.Lobpcg.Dev

open Solver Lapack Spec

variable {α : Type}

/-- once `Sbm` is on the device and the rest is not, the projection aborts -/
theorem project_abort {N : Num α} {general : Bool} {n k : Nat} {s : St α} {h : Lobpcg.St α} (hi : Inv N false true general n s h)
    {sb : St α → D (Fam α)} (hsb : ∀ s' : St α, s'.F.on = false → s'.H.on = false → (sb s').on = false) :
    project N true false k sb s = .abort "assert" := by
  unfold project
  simp only [Bool.false_eq_true, if_false]
  rw [same3 hi.G.on hi.T hi.Sam, Res.ok_bind]
  have hb := hsb { s with
    T := { s.T with host := s.F.host.rows.take k }
    Sam := s.Sam.put (gram N (s.G.get.rows.take k) (D.get { s.T with host := s.F.host.rows.take k })) } hi.F.on hi.H
  rw [hb, hi.T, hi.Sbm]
  rfl

theorem pass_abort {N : Num α} {general : Bool} {n : Nat} {s : St α} {h : Lobpcg.St α} (hi : Inv N false true general n s h)
    {sb : St α → D (Fam α)} (hsb : ∀ s' : St α, s'.F.on = false → s'.H.on = false → (sb s').on = false)
    (L Cu : Lib α) (cfg : Cfg α) (m iter : Nat) (sing : Bool)
    (body : (k : Nat) → Nat → St α → Res (Sum (Ret α) (St α × α))) :
    pass N true false L Cu cfg general m iter sing sb body s = .abort "assert" := by
  unfold pass passWith
  rw [project_abort hi hsb, project_abort hi hsb]
  split <;> rfl

/-- a loop that aborts in its second pass -/
theorem loop_second {cfg : Cfg α} {m : Nat} {Q : St α → Lobpcg.St α → Prop}
    {body : (iter : Nat) → (singular : Bool) → St α → Res (Pass α)}
    {hbody : (iter : Nat) → (singular : Bool) → Lobpcg.St α → Res (Lobpcg.Pass α)} {s : St α} {h : Lobpcg.St α} {resid : α}
    (hmax : 2 ≤ cfg.maxiter)
    (hb : Sim (RP false Q) (body 0 false s) (hbody 0 false h))
    (hab : ∀ iter sing s h, Q s h → body iter sing s = .abort "assert")
    (hnone : Lobpcg.loop cfg hbody 1 0 false resid h = none) (fuel : Nat) :
    loop cfg m body (fuel + 2) 0 false resid s = some (.abort "assert") := by
  unfold Lobpcg.loop at hnone
  unfold loop
  rw [if_pos (by omega)] at hnone ⊢
  cases hx : body 0 false s <;> cases hy : hbody 0 false h <;> rw [hx, hy] at hb <;> rw [hy] at hnone <;>
    first | exact hb.elim | (injection hnone; done) | skip
  next a b =>
    cases a <;> cases b <;> first | exact hb.elim | (injection hnone; done) | skip
    · dsimp only
      unfold loop
      rw [if_pos (by omega), hab _ _ _ _ hb]
    · dsimp only
      unfold loop
      rw [if_pos (by omega), hab _ _ _ _ hb.2]

/-- **C117**, violated: in a GPU build with all arguments on the host, every calculation of the standard problem that needs a second pass
aborts: `sygvd` has left `Sbm` on the device. (That the host calculation is not finished after one pass is said with the number of
passes it may make.) -/
theorem C117_standard_host_violated (N : Num α) (L Cu : Lib α) (cfg : Cfg α) (A : Mat α) (create : Res (Pc α))
    (hpc : ∀ pc, create = .ok pc → pc.Fits false) (l : D (List α)) (xin : D (List (List α))) (xcol : Nat)
    (rs : Option (List (List α))) (hp : Placed false rs l xin) (hmax : 2 ≤ cfg.maxiter)
    (hrun : Lobpcg.standard N Cu cfg A (do let pc ← create; .ok pc.f) l.get xin.get xcol rs 1 = none) (fuel : Nat) :
    standard N true L Cu cfg A false create l xin xcol rs (fuel + 2) = some (.abort "assert") := by
  unfold Lobpcg.standard at hrun
  unfold standard
  dsimp only at hrun ⊢
  by_cases h1 : A.col ≠ xcol
  · rw [if_pos h1] at hrun
    exact nomatch hrun
  rw [if_neg h1] at hrun ⊢
  by_cases h2 : l.get.length ≠ xin.get.length
  · rw [if_pos h2] at hrun
    exact nomatch hrun
  rw [if_neg h2] at hrun ⊢
  cases create with
  | throw e => exact nomatch hrun
  | abort e => exact nomatch hrun
  | ub e => exact nomatch hrun
  | ok pc =>
    simp only [Res.ok_bind] at hrun ⊢
    rw [initial_at hp, Res.ok_bind]
    have hf := first_at (N := N) (gpu := true) (side := false) (fun h => nomatch h) (A := A) (m := l.get.length) (n := A.col)
      (x := Lobpcg.initial N l.get.length rs xin.get) hp
    cases hx : firstVecs N A false A.col
        (start N true false l.get.length A.col (Lobpcg.initial N l.get.length rs xin.get) l xin) <;>
      cases hy : mapRes (initVec N A A.col) (Lobpcg.initial N l.get.length rs xin.get) <;> rw [hx, hy] at hf <;>
      rw [hy] at hrun <;> first | exact hf.elim | (injection hrun; done) | skip
    simp only [Res.ok_bind] at hrun ⊢
    refine loop_second (Q := Inv N false true false A.col) hmax ?_ (fun iter sing s h hi => ?_) hrun fuel
    · unfold pass Lobpcg.pass
      rw [if_pos (Or.inl rfl), if_pos (Or.inl rfl)]
      exact passWith_sim (gpu := true) (side := false) (fun h => nomatch h) L Cu cfg _ _ _ _ _ (fam := fun h => h.F) (fun _ => rfl)
        (fun _ _ h _ _ => h) (fun k S prev i s h hc => column_sim hc rfl (hpc pc rfl) _ k _ i) hf
    · exact pass_abort hi (fun _ h _ => h) _ _ _ _ _ _ _

/-- **C117**, violated: in a GPU build with all arguments on the host, every calculation of the generalised problem that needs a second pass
aborts: `sygvd` has left `Sbm` on the device. (That the host calculation is not finished after one pass is said with the number of
passes it may make.) -/
theorem C117_generalized_host_violated (N : Num α) (L Cu : Lib α) (cfg : Cfg α) (A B : Mat α) (create : Res (Pc α))
    (hpc : ∀ pc, create = .ok pc → pc.Fits false) (l : D (List α)) (xin : D (List (List α))) (xcol : Nat) (itype : Int)
    (rs : Option (List (List α))) (hp : Placed false rs l xin) (hmax : 2 ≤ cfg.maxiter)
    (hrun : Lobpcg.generalized N Cu cfg A B (do let pc ← create; .ok pc.f) l.get xin.get xcol itype rs 1 = none) (fuel : Nat) :
    generalized N true L Cu cfg A B false false create l xin xcol itype rs (fuel + 2) = some (.abort "assert") := by
  unfold Lobpcg.generalized at hrun
  unfold generalized
  dsimp only at hrun ⊢
  by_cases h0 : itype ≠ 1
  · rw [show cassert (decide (itype = 1)) "assert" = .abort "assert" by simp [h0, cassert]] at hrun
    exact nomatch hrun
  rw [cassert_decide (Decidable.not_not.mp h0)] at hrun ⊢
  simp only [Res.ok_bind] at hrun ⊢
  by_cases h1 : A.col ≠ xcol
  · rw [if_pos h1] at hrun
    exact nomatch hrun
  rw [if_neg h1] at hrun ⊢
  by_cases h3 : A.col ≠ B.col ∨ A.row ≠ B.row
  · rw [if_pos h3] at hrun
    exact nomatch hrun
  rw [if_neg h3] at hrun ⊢
  by_cases h2 : l.get.length ≠ xin.get.length
  · rw [if_pos h2] at hrun
    exact nomatch hrun
  rw [if_neg h2] at hrun ⊢
  cases create with
  | throw e => exact nomatch hrun
  | abort e => exact nomatch hrun
  | ub e => exact nomatch hrun
  | ok pc =>
    simp only [Res.ok_bind] at hrun ⊢
    rw [initial_at hp, Res.ok_bind]
    have hf := gfirst_at (N := N) (gpu := true) (side := false) (fun h => nomatch h) (A := A) (B := B) (m := l.get.length) (n := A.col)
      (x := Lobpcg.initial N l.get.length rs xin.get) hp
    cases hx : gfirstVecs N A B false false A.col
        (start N true false l.get.length A.col (Lobpcg.initial N l.get.length rs xin.get) l xin) <;>
      cases hy : mapRes (ginitVec N A B A.col) (Lobpcg.initial N l.get.length rs xin.get) <;> rw [hx, hy] at hf <;>
      rw [hy] at hrun <;> first | exact hf.elim | (injection hrun; done) | skip
    simp only [Res.ok_bind] at hrun ⊢
    refine loop_second (Q := Inv N false true true A.col) hmax ?_ (fun iter sing s h hi => ?_) hrun fuel
    · unfold pass Lobpcg.pass
      rw [if_pos (Or.inl rfl), if_pos (Or.inl rfl)]
      exact passWith_sim (gpu := true) (side := false) (fun h => nomatch h) L Cu cfg _ _ _ _ _ (fam := fun h => h.H) (fun _ => rfl)
        (fun _ _ _ h h' => ⟨h, h' rfl⟩) (fun k S prev i s h hc => gcolumn_sim hc rfl rfl (hpc pc rfl) _ k _ i) hf
    · exact pass_abort hi (fun _ _ h => h) _ _ _ _ _ _ _

/-- **C117**, violated: in a GPU build, user-supplied initial vectors that are on the device make the call abort. -/
theorem C117_device_vectors_violated (N : Num α) (gpu : Bool) (L Cu : Lib α) (cfg : Cfg α) (A : Mat α) (Aon : Bool) (pc : Pc α)
    (l : D (List α)) (xin : D (List (List α))) (hx : xin.on = true) (hl : l.get.length = xin.get.length)
    (hm : 0 < l.get.length) (fuel : Nat) :
    standard N gpu L Cu cfg A Aon (.ok pc) l xin A.col none fuel = some (.abort "assert") := by
  unfold standard
  dsimp only
  rw [if_neg (by simp), if_neg (by simp [hl]), Res.ok_bind]
  have : initial N l.get.length none xin = .abort "assert" := by
    unfold initial rowsCheck
    dsimp only
    rw [if_neg (by omega), hx]
    rfl
  rw [this]
  rfl

theorem columns_device {body : Nat → St α → Res (Sum (Ret α) (St α × α))} (hb : ∀ i s r, s.l.on = true → body i s ≠ .ok r)
    {m : Nat} (hm : 0 < m) (s : St α) (hs : s.l.on = true) (r : Sum (Ret α) (St α × List α)) :
    columns body (List.range m) [] s ≠ .ok r := by
  obtain ⟨k, rfl⟩ : ∃ k, m = k + 1 := ⟨m - 1, by omega⟩
  rw [List.range_succ_eq_map]
  unfold columns
  intro h
  obtain ⟨a, h1, _⟩ := Res.bind_eq_ok.mp h
  exact hb _ _ _ hs h1

theorem column_device {N : Num α} {A : Mat α} {Aon : Bool} {pc : Pc α} {m n k iter i : Nat} {s : St α} (hs : s.l.on = true)
    (r : Sum (Ret α) (St α × α)) : column N A Aon pc m n k iter i s ≠ .ok r := by
  unfold column
  intro h
  obtain ⟨a, _, h⟩ := Res.bind_eq_ok.mp h
  obtain ⟨b, h, _⟩ := Res.bind_eq_ok.mp h
  unfold vwr at h
  rw [hs, if_pos rfl] at h
  exact nomatch h

theorem keep_l {general : Bool} {s s' : St α} (h : keep general s = .ok s') : s'.l = s.l := by
  unfold keep at h
  dsimp only at h
  obtain ⟨_, _, h⟩ := Res.bind_eq_ok.mp h
  obtain ⟨_, _, h⟩ := Res.bind_eq_ok.mp h
  split at h
  · obtain ⟨_, _, h⟩ := Res.bind_eq_ok.mp h
    cases h
    rfl
  · cases h
    rfl

theorem project_l {N : Num α} {gpu Aon : Bool} {k : Nat} {sb : St α → D (Fam α)} {s s' : St α}
    (h : project N gpu Aon k sb s = .ok s') : s'.l = s.l := by
  unfold project at h
  dsimp only at h
  obtain ⟨_, _, h⟩ := Res.bind_eq_ok.mp h
  obtain ⟨_, _, h⟩ := Res.bind_eq_ok.mp h
  cases Aon <;> cases h <;> rfl

theorem sygvd_l (gpu : Bool) (L Cu : Lib α) (k : Nat) (s : St α) : (sygvd gpu L Cu k s).1.l = s.l := by
  unfold sygvd
  split <;> rfl

theorem pass_device {N : Num α} {gpu Aon : Bool} {L Cu : Lib α} {cfg : Cfg α} {general : Bool} {m iter k : Nat} {lb ub : Int}
    {sb : St α → D (Fam α)} {body : (k : Nat) → Nat → St α → Res (Sum (Ret α) (St α × α))} (hm : 0 < m)
    (hb : ∀ k i s r, s.l.on = true → body k i s ≠ .ok r) {s : St α} (hs : s.l.on = true) {p : Pass α}
    (h : passWith N gpu Aon L Cu cfg general m iter k lb ub sb body s = .ok p) : ∃ s', p = .restart s' ∧ s'.l.on = true := by
  unfold passWith at h
  obtain ⟨s1, h1, h⟩ := Res.bind_eq_ok.mp h
  have e := sygvd_l gpu L Cu k s1
  rw [project_l h1] at e
  generalize sygvd gpu L Cu k s1 = t at h e
  obtain ⟨s2, info⟩ := t
  dsimp only at h e
  split at h
  · cases h
    exact ⟨s2, rfl, by rw [e]; exact hs⟩
  split at h
  · exact nomatch h
  exfalso
  obtain ⟨s3, h3, h⟩ := Res.bind_eq_ok.mp h
  obtain ⟨c, h4, _⟩ := Res.bind_eq_ok.mp h
  refine columns_device (hb k) hm s3 ?_ c h4
  rw [keep_l h3]
  split
  · rw [e]; exact hs
  · rw [e]; exact hs

/-- **C117**, violated: with the vector of the eigenvalues on the device no call ever returns (unless no pass is allowed at all): it throws, or
restarts for ever. -/
theorem C117_device_values_violated (N : Num α) (gpu : Bool) (L Cu : Lib α) (cfg : Cfg α) (A : Mat α) (Aon : Bool)
    (create : Res (Pc α)) (l : D (List α)) (xin : D (List (List α))) (xcol : Nat) (rs : Option (List (List α)))
    (hl : l.on = true) (hm : 0 < l.get.length) (hmax : 0 < cfg.maxiter) (fuel : Nat) (r : Ret α) :
    standard N gpu L Cu cfg A Aon create l xin xcol rs fuel ≠ some (.ok r) := by
  unfold standard
  dsimp only
  split
  · next pc s heq =>
    have hs : s.l.on = true := by
      split at heq
      · exact nomatch heq
      split at heq
      · exact nomatch heq
      obtain ⟨_, _, heq⟩ := Res.bind_eq_ok.mp heq
      obtain ⟨_, _, heq⟩ := Res.bind_eq_ok.mp heq
      obtain ⟨s', h', heq⟩ := Res.bind_eq_ok.mp heq
      unfold firstVecs at h'
      obtain ⟨_, _, h'⟩ := Res.bind_eq_ok.mp h'
      cases h'
      cases heq
      exact hl
    clear heq
    suffices ∀ (fuel : Nat) (sing : Bool) (resid : α) (s : St α), s.l.on = true →
        loop cfg l.get.length (fun iter singular s => pass N gpu Aon L Cu cfg false l.get.length iter singular (fun s => s.F)
          (fun k i s => column N A Aon pc l.get.length A.col k iter i s) s) fuel 0 sing resid s ≠ some (.ok r) from
      this fuel false N.zero s hs
    intro fuel
    induction fuel with
    | zero => intro _ _ _ _ h; exact nomatch h
    | succ fuel ih =>
      intro sing resid s hs h
      unfold loop at h
      rw [if_pos hmax] at h
      unfold pass at h
      rw [if_pos (Or.inl rfl)] at h
      cases hp : passWith N gpu Aon L Cu cfg false l.get.length 0 (2 * l.get.length) (3 * l.get.length) (4 * l.get.length)
          (fun s => s.F) (fun k i s => column N A Aon pc l.get.length A.col k 0 i s) s with
      | ok p =>
        obtain ⟨s', rfl, h'⟩ := pass_device hm (fun k i s r h => column_device h r) hs hp
        rw [hp] at h
        exact ih true resid s' h' h
      | throw e => rw [hp] at h; exact nomatch h
      | abort e => rw [hp] at h; exact nomatch h
      | ub e => rw [hp] at h; exact nomatch h
  · exact fun h => nomatch h
  · exact fun h => nomatch h
  · exact fun h => nomatch h

/-! ### Concrete runs -/

/-- no preconditioner -/
def plain {α : Type} : Res (Pc α) := .ok { f := fun r => .ok r, on := none }

theorem plain_fits {α : Type} (side : Bool) : ∀ pc, (plain : Res (Pc α)) = .ok pc → pc.Fits side := by
  intro pc h
  cases h
  exact Or.inl rfl

/-- cuSOLVER's answer in the run `lob_run` -/
def lobCu : Lib (Ext ℚ) :=
  answer [34/25, 12/25, 12/25, 41/25] [1, 0, 0, 1] ([q (-4/5), q (3/5), q (3/5), q (4/5)], [], [q 1, q 2], 0)

/-- the run `lob_run` in a GPU build with the matrix on the device: the same eigenpair, `xinout` on the device -/
def lobDev (fuel : Nat) : Option (Res (Ret (Ext ℚ))) :=
  standard (Ext.num lobSq) true (answer [] [] ([], [], [], -1)) lobCu lobCfg (ofCrs [1, 0] [0, 1] (crsMap Ext.fin lobA)) true plain
    (D.new [q 0]) (D.new [[q (3/5), q (4/5)]]) 2 none fuel

example : ∃ r, lobDev 5 = some (.ok r) ∧ r.status = SUCCESS ∧ r.s.l.get = [q 1] ∧ r.s.l.on = false ∧
    r.s.xin.get = [[q 1, q 0]] ∧ r.s.xin.on = true := by
  have h := C117_standard_partial (Ext.num lobSq) (gpu := true) (answer [] [] ([], [], [], -1)) lobCu lobCfg
    (ofCrs [1, 0] [0, 1] (crsMap Ext.fin lobA)) plain (plain_fits _) (D.new [q 0]) (D.new [[q (3/5), q (4/5)]]) 2 none
    ⟨rfl, Or.inl rfl⟩ 5
  have e : Lobpcg.standard (Ext.num lobSq) (if true then lobCu else answer [] [] ([], [], [], -1)) lobCfg
      (ofCrs [1, 0] [0, 1] (crsMap Ext.fin lobA)) (do let pc ← plain; .ok pc.f) (D.new [q 0]).get
      (D.new [[q (3/5), q (4/5)]]).get 2 none 5 = _ := lob_run
  rw [e] at h
  change Agree true (lobDev 5) _ at h
  cases hd : lobDev 5 with
  | none => rw [hd] at h; exact h.elim
  | some a =>
    rw [hd] at h
    cases a with
    | ok r =>
      obtain ⟨h1, h2, h3⟩ := h
      exact ⟨r, rfl, congrArg Out.status h1, congrArg Out.l h1, h2, congrArg Out.x h1, h3⟩
    | throw e => exact h.elim
    | abort e => exact h.elim
    | ub e => exact h.elim

/-- the same call with everything on the host and at least three iterations asked for: aborts -/
example : standard (Ext.num lobSq) true (answer [] [] ([], [], [], -1)) lobCu { lobCfg with miniter := 3 }
      (ofCrs [1, 0] [0, 1] (crsMap Ext.fin lobA)) false plain (D.new [q 0]) (D.new [[q (3/5), q (4/5)]]) 2 none 5 =
    some (.abort "assert") :=
  C117_standard_host_violated (Ext.num lobSq) (answer [] [] ([], [], [], -1)) lobCu { lobCfg with miniter := 3 }
    (ofCrs [1, 0] [0, 1] (crsMap Ext.fin lobA)) plain (plain_fits _) (D.new [q 0]) (D.new [[q (3/5), q (4/5)]]) 2 none
    ⟨rfl, Or.inl rfl⟩ (by decide) (by decide +kernel) 3

/-- the generalised run `gen_run` in a GPU build -/
def genDev (side : Bool) (cfg : Cfg (Ext ℚ)) (fuel : Nat) : Option (Res (Ret (Ext ℚ))) :=
  generalized (Ext.num lobSq) true (answer [] [] ([], [], [], -1))
    (answer [169/625, 0, 0, 169/625] [73/100, 9/25, 9/25, 13/25] genAns) cfg
    (ofCrs [0, 1, 2] [0, 1, 2] (crsMap Ext.fin genA)) (ofCrs [0, 1, 2] [0, 1, 2] (crsMap Ext.fin genB)) side side plain
    (D.new [q 0]) (D.new [[q 1, q 0, q 0]]) 3 1 none fuel

example : ∃ r, genDev true lobCfg 5 = some (.ok r) ∧ r.status = SUCCESS ∧ r.s.l.get = [q (169/625)] ∧
    r.s.xin.get = [[q (3/5), q (4/5), q 0]] ∧ r.s.xin.on = true := by
  have h := C117_generalized_partial (Ext.num lobSq) (gpu := true) (answer [] [] ([], [], [], -1))
    (answer [169/625, 0, 0, 169/625] [73/100, 9/25, 9/25, 13/25] genAns) lobCfg
    (ofCrs [0, 1, 2] [0, 1, 2] (crsMap Ext.fin genA)) (ofCrs [0, 1, 2] [0, 1, 2] (crsMap Ext.fin genB)) plain (plain_fits _)
    (D.new [q 0]) (D.new [[q 1, q 0, q 0]]) 3 1 none ⟨rfl, Or.inl rfl⟩ 5
  have e : Lobpcg.generalized (Ext.num lobSq) (if true then (answer [169/625, 0, 0, 169/625] [73/100, 9/25, 9/25, 13/25] genAns)
        else answer [] [] ([], [], [], -1)) lobCfg
      (ofCrs [0, 1, 2] [0, 1, 2] (crsMap Ext.fin genA)) (ofCrs [0, 1, 2] [0, 1, 2] (crsMap Ext.fin genB))
      (do let pc ← plain; .ok pc.f) (D.new [q 0]).get (D.new [[q 1, q 0, q 0]]).get 3 1 none 5 = _ := gen_run
  rw [e] at h
  change Agree true (genDev true lobCfg 5) _ at h
  cases hd : genDev true lobCfg 5 with
  | none => rw [hd] at h; exact h.elim
  | some a =>
    rw [hd] at h
    cases a with
    | ok r =>
      obtain ⟨h1, h2, h3⟩ := h
      exact ⟨r, rfl, congrArg Out.status h1, congrArg Out.l h1, congrArg Out.x h1, h3⟩
    | throw e => exact h.elim
    | abort e => exact h.elim
    | ub e => exact h.elim

example : genDev false { lobCfg with miniter := 3 } 5 = some (.abort "assert") :=
  C117_generalized_host_violated (Ext.num lobSq) (answer [] [] ([], [], [], -1))
    (answer [169/625, 0, 0, 169/625] [73/100, 9/25, 9/25, 13/25] genAns) { lobCfg with miniter := 3 }
    (ofCrs [0, 1, 2] [0, 1, 2] (crsMap Ext.fin genA)) (ofCrs [0, 1, 2] [0, 1, 2] (crsMap Ext.fin genB)) plain (plain_fits _)
    (D.new [q 0]) (D.new [[q 1, q 0, q 0]]) 3 1 none ⟨rfl, Or.inl rfl⟩ (by decide) (by decide +kernel) 3

/-- vectors or eigenvalues on the device -/
example : standard (Ext.num lobSq) true lobCu lobCu lobCfg (ofCrs [1, 0] [0, 1] (crsMap Ext.fin lobA)) true plain (D.new [q 0])
      ((D.new [[q (3/5), q (4/5)]]).send true) 2 none 5 = some (.abort "assert") ∧
    ∀ r, standard (Ext.num lobSq) true lobCu lobCu lobCfg (ofCrs [1, 0] [0, 1] (crsMap Ext.fin lobA)) true plain
      ((D.new [q 0]).send true) (D.new [[q (3/5), q (4/5)]]) 2 none 5 ≠ some (.ok r) :=
  ⟨C117_device_vectors_violated _ true _ _ _ _ true _ _ _ rfl rfl (by decide) 5,
    fun r => C117_device_values_violated _ true _ _ _ _ true _ _ _ _ _ rfl (by decide) (by decide) 5 r⟩

end Verif.Lobpcg.Dev
