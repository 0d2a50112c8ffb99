import Verif.Spec.LobpcgDevSpec

/-!
Lemmas for C117: the calls of LOBPCG in a GPU build, step by step.
-/

namespace Verif.Lobpcg.Dev

open Solver Lapack

variable {α β γ δ : Type}

theorem Sim.bind_same {R : β → γ → Prop} {x : Res δ} {f : δ → Res β} {g : δ → Res γ}
    (h : ∀ a, x = .ok a → Sim R (f a) (g a)) : Sim R (x >>= f) (x >>= g) := by
  cases x with
  | ok a => exact h a rfl
  | throw e => exact rfl
  | abort e => exact rfl
  | ub e => exact rfl

theorem Sim.bind {δ' : Type} {R : β → γ → Prop} {Q : δ → δ' → Prop} {x : Res δ} {y : Res δ'} {f : δ → Res β} {g : δ' → Res γ}
    (hxy : Sim Q x y) (h : ∀ a b, x = .ok a → y = .ok b → Q a b → Sim R (f a) (g b)) : Sim R (x >>= f) (y >>= g) := by
  cases x <;> cases y <;> first | exact hxy.elim | exact h _ _ rfl rfl hxy | exact hxy

theorem same_ok {fs : List Bool} (c : Bool) (h : ∀ f ∈ fs, f = c) : same fs = .ok () := by
  cases fs with
  | nil => rfl
  | cons f fs =>
    unfold same
    have : (fs.all fun g => g == f) = true := by
      rw [List.all_eq_true]
      intro g hg
      rw [h g (List.mem_cons_of_mem _ hg), h f List.mem_cons_self]
      simp
    show cassert (fs.all fun g => g == f) = _
    rw [this]
    rfl

theorem same2 {a b c : Bool} (ha : a = c) (hb : b = c) : same [a, b] = .ok () :=
  same_ok c (by simp [ha, hb])

theorem same3 {a b d c : Bool} (ha : a = c) (hb : b = c) (hd : d = c) : same [a, b, d] = .ok () :=
  same_ok c (by simp [ha, hb, hd])

/-- the object is on the given side and has the given contents -/
structure At (side : Bool) (o : D β) (v : β) : Prop where
  on : o.on = side
  get : o.get = v

theorem At.put {side : Bool} {o : D β} {v : β} (h : At side o v) (u : β) : At side (o.put u) u := by
  obtain ⟨h1, _⟩ := h
  unfold D.put
  cases side
  · constructor <;> simp [h1, D.get]
  · constructor <;> simp [h1, D.get]

theorem At.host {o : D β} {v : β} (h : At false o v) : o.host = v := by
  have := h.get
  rwa [D.get, h.on, if_neg (by simp)] at this

theorem At.dev {o : D β} {v : β} (h : At true o v) : o.dev = v := by
  have := h.get
  rwa [D.get, h.on, if_pos rfl] at this

theorem at_iff {o : D β} {v : β} : At false o v ↔ o.on = false ∧ o.host = v :=
  ⟨fun h => ⟨h.on, h.host⟩, fun h => ⟨h.1, by rw [D.get, h.1, if_neg (by simp), h.2]⟩⟩

theorem at_true {o : D β} {v : β} : At true o v ↔ o.on = true ∧ o.dev = v :=
  ⟨fun h => ⟨h.on, h.dev⟩, fun h => ⟨h.1, by rw [D.get, h.1, if_pos rfl, h.2]⟩⟩

theorem at_new (v : β) : At false (D.new v) v := ⟨rfl, rfl⟩

/-- what `if (A.get_device_mem_stat()) send(o)` does to an object on the host -/
theorem At.snd {gpu : Bool} {o : D β} {v : β} (h : At false o v) : At gpu (if gpu then o.send gpu else o) v := by
  cases gpu
  · exact h
  · refine at_true.mpr ⟨rfl, ?_⟩
    exact h.host

theorem vrd_at {v : D (List α)} {l : List α} (h : At false v l) (i : Nat) : vrd v i = rd l i := by
  unfold vrd
  rw [h.on, if_neg (by simp), h.host]

theorem vwr_at {v : D (List α)} {l : List α} (h : At false v l) (i : Nat) (a : α) :
    Sim (fun v' l' => At false v' l') (vwr v i a) (wr l i a) := by
  unfold vwr
  rw [h.on, if_neg (by simp), h.host]
  cases wr l i a with
  | ok l' => exact at_iff.mpr ⟨rfl, rfl⟩
  | throw e => exact rfl
  | abort e => exact rfl
  | ub e => exact rfl

theorem rd_of_wr {l l' : List α} {i : Nat} {a : α} (h : wr l i a = .ok l') : rd l' i = .ok a := by
  obtain ⟨hi, rfl⟩ := wr_eq_ok.mp h
  rw [rd_of_getElem?]
  simp [hi]

/-- the preconditioner may be applied to vectors on this side -/
def Pc.Fits (pc : Pc α) (side : Bool) : Prop := pc.on = none ∨ pc.on = some side

theorem Pc.apply_at {pc : Pc α} {side : Bool} (hp : pc.Fits side) {r z : D (List α)} {u v : List α} (hr : At side r u)
    (hz : At side z v) : Sim (fun z' w => At side z' w) (pc.apply r z) (pc.f u) := by
  unfold Pc.apply
  rcases hp with hp | hp <;> rw [hp] <;> dsimp only
  · rw [same2 hr.on hz.on, Res.ok_bind, hr.get]
    cases pc.f u with
    | ok w => exact hz.put w
    | throw e => exact rfl
    | abort e => exact rfl
    | ub e => exact rfl
  · rw [same3 hr.on rfl hz.on, Res.ok_bind, hr.get]
    cases pc.f u with
    | ok w => exact hz.put w
    | throw e => exact rfl
    | abort e => exact rfl
    | ub e => exact rfl

/-- The objects of the call against the state of the calculation on the host, between two passes. `sbm`: where `Sbm` is;
`general`: the family of `B` is in use. -/
structure Inv (N : Num α) (side sbm : Bool) (general : Bool) (n : Nat) (s : St α) (h : Lobpcg.St α) : Prop where
  F : At side s.F h.F
  G : At side s.G h.G
  H : s.H.on = side
  Hv : general = true → s.H.get = h.H
  Fp : s.Fp.on = side
  Gp : s.Gp.on = side
  Hp : s.Hp.on = side
  T : s.T.on = side
  Sam : s.Sam.on = false
  Sbm : s.Sbm.on = sbm
  lam : At false s.lam h.lam
  v1 : s.v1.on = side
  v2 : s.v2.on = side
  zero : At side s.zero (List.replicate n N.zero)
  l : At false s.l h.l
  xin : s.xin.on = side

/-- … and in the loop over the vectors -/
structure ColInv (N : Num α) (side sbm : Bool) (general : Bool) (n : Nat) (S : List α) (prev : Lobpcg.St α) (s : St α)
    (h : Lobpcg.St α) : Prop where
  inv : Inv N side sbm general n s h
  S : s.Sam.host = S
  Fp : s.Fp.get = prev.F
  Gp : s.Gp.get = prev.G
  Hp : general = true → s.Hp.get = prev.H

theorem at_self {side : Bool} {o : D β} (h : o.on = side) : At side o o.get := ⟨h, rfl⟩

theorem giveBack_at {side : Bool} {m : Nat} {s : St α} {f : Fam α} (hF : At side s.F f) (hx : s.xin.on = side) :
    ∃ s', giveBack m s = .ok s' ∧ s'.l = s.l ∧ At side s'.xin f.x := by
  unfold giveBack
  have : rowsCheck m [s.F.on, s.xin.on] = .ok () := by
    unfold rowsCheck
    split
    · rfl
    · exact same2 hF.on hx
  rw [this, Res.ok_bind, hF.get]
  exact ⟨_, rfl, rfl, (at_self hx).put _⟩

theorem combineD_at {N : Num α} {side : Bool} {m : Nat} {b : List α} {zero : D (List α)} {fp f : D (Fam α)} {z : List α}
    {g : Fam α} (hz : At side zero z) (hp : At side fp g) (hf : f.on = side) :
    combineD N m b zero fp f = combine N m b g z := by
  unfold combineD
  rw [same2 hz.on hf, Res.ok_bind, same2 hp.on hf, Res.ok_bind, hp.get, hz.get]

/-- results that agree -/
def RO (side : Bool) (r : Ret α) (o : Out α) : Prop := out r = o ∧ r.s.l.on = false ∧ r.s.xin.on = side

/-- results of the loop body that agree: both return, or both go on -/
def RS {σ τ : Type} (side : Bool) (Q : σ → τ → Prop) : Sum (Ret α) (σ × γ) → Sum (Out α) (τ × γ) → Prop
  | .inl r, .inl o => RO side r o
  | .inr (s, q), .inr (h, q') => q = q' ∧ Q s h
  | _, _ => False

theorem column_sim {N : Num α} {side sbm : Bool} {n : Nat} {S : List α} {prev h : Lobpcg.St α} {s : St α}
    (hc : ColInv N side sbm false n S prev s h) {A : Mat α} {Aon : Bool} (hA : Aon = side) {pc : Pc α} (hp : pc.Fits side)
    (m k iter i : Nat) :
    Sim (RS side (ColInv N side sbm false n S prev)) (column N A Aon pc m n k iter i s)
      (Lobpcg.column N A pc.f m n k S iter prev i h) := by
  have hi := hc.inv
  unfold column Lobpcg.column
  rw [vrd_at hi.lam]
  refine Sim.bind_same fun li hli => ?_
  refine Sim.bind (vwr_at hi.l i li) fun l l' _ hl' hl => ?_
  dsimp only
  rw [same2 hi.Sam rfl, Res.ok_bind]
  have hS : s.Sam.get = S := by rw [D.get, hi.Sam, if_neg (by simp), hc.S]
  rw [hS]
  refine Sim.bind_same fun b _ => ?_
  rw [combineD_at hi.zero ⟨hi.Fp, hc.Fp⟩ hi.F.on]
  refine Sim.bind_same fun px _ => ?_
  rw [combineD_at hi.zero ⟨hi.Gp, hc.Gp⟩ hi.G.on]
  refine Sim.bind_same fun PX _ => ?_
  rw [vrd_at hl, rd_of_wr hl', Res.ok_bind, same3 hi.F.on hi.G.on hi.F.on, Res.ok_bind]
  refine Sim.bind_same fun w _ => ?_
  rw [same2 hi.F.on hi.v2, Res.ok_bind]
  have h2 := (at_self hi.v2).put w
  refine Sim.bind (Pc.apply_at hp h2 (at_self hi.v1)) fun v1 w' _ _ h1 => ?_
  rw [same2 h1.on hi.F.on, Res.ok_bind, h1.get, hi.F.get, hi.G.get]
  split
  · next hn =>
    obtain ⟨s', e, e1, e2⟩ := giveBack_at (m := m) (s := { s with
      l := l, v1 := v1, v2 := s.v2.put w, F := s.F.put (h.F.put i w' _ _), G := s.G.put _ }) (hi.F.put _) hi.xin
    rw [e, Res.ok_bind]
    refine ⟨?_, ?_, e2.on⟩
    · unfold out
      dsimp only
      rw [e1, hl.get, e2.get]
      rfl
    · rw [e1]
      exact hl.on
  · rw [same3 hA hi.F.on hi.G.on, Res.ok_bind]
    refine Sim.bind_same fun W _ => ?_
    refine ⟨rfl, ?_⟩
    exact { inv := { hi with F := hi.F.put _, G := hi.G.put _, l := hl, v1 := h1.on, v2 := h2.on, Hv := nofun }
            S := hc.S, Fp := hc.Fp, Gp := hc.Gp, Hp := nofun }

theorem gcolumn_sim {N : Num α} {side sbm : Bool} {n : Nat} {S : List α} {prev h : Lobpcg.St α} {s : St α}
    (hc : ColInv N side sbm true n S prev s h) {A B : Mat α} {Aon Bon : Bool} (hA : Aon = side) (hB : Bon = side) {pc : Pc α}
    (hp : pc.Fits side) (m k iter i : Nat) :
    Sim (RS side (ColInv N side sbm true n S prev)) (gcolumn N A B Aon Bon pc m n k iter i s)
      (Lobpcg.gcolumn N A B pc.f m n k S iter prev i h) := by
  have hi := hc.inv
  unfold gcolumn Lobpcg.gcolumn
  rw [vrd_at hi.lam]
  refine Sim.bind_same fun li hli => ?_
  refine Sim.bind (vwr_at hi.l i li) fun l l' _ hl' hl => ?_
  dsimp only
  rw [same2 hi.Sam rfl, Res.ok_bind]
  have hS : s.Sam.get = S := by rw [D.get, hi.Sam, if_neg (by simp), hc.S]
  rw [hS]
  refine Sim.bind_same fun b _ => ?_
  rw [combineD_at hi.zero ⟨hi.Fp, hc.Fp⟩ hi.F.on]
  refine Sim.bind_same fun px _ => ?_
  rw [combineD_at hi.zero ⟨hi.Gp, hc.Gp⟩ hi.G.on]
  refine Sim.bind_same fun PX _ => ?_
  rw [combineD_at hi.zero ⟨hi.Hp, hc.Hp rfl⟩ hi.H]
  refine Sim.bind_same fun BPX _ => ?_
  rw [vrd_at hl, rd_of_wr hl', Res.ok_bind, same3 hi.F.on hi.G.on hi.F.on, Res.ok_bind]
  refine Sim.bind_same fun w _ => ?_
  rw [same2 hi.F.on hi.v2, Res.ok_bind]
  have h2 := (at_self hi.v2).put w
  refine Sim.bind (Pc.apply_at hp h2 (at_self hi.v1)) fun v1 w' _ _ h1 => ?_
  rw [same2 h1.on hi.F.on, Res.ok_bind, h1.get, hi.F.get, hi.G.get, hi.Hv rfl]
  split
  · next hn =>
    obtain ⟨s', e, e1, e2⟩ := giveBack_at (m := m) (s := { s with
      l := l, v1 := v1, v2 := s.v2.put w, F := s.F.put (h.F.put i w' _ _) }) (hi.F.put _) hi.xin
    rw [e, Res.ok_bind]
    refine ⟨?_, ?_, e2.on⟩
    · unfold out
      dsimp only
      rw [e1, hl.get, e2.get]
      rfl
    · rw [e1]
      exact hl.on
  · rw [same3 hA hi.F.on hi.G.on, Res.ok_bind]
    refine Sim.bind_same fun W _ => ?_
    rw [same3 hB hi.F.on hi.H, Res.ok_bind]
    refine Sim.bind_same fun BW _ => ?_
    refine ⟨rfl, ?_⟩
    have hH := (at_self hi.H).put (h.H.put i BW (scal N (N.div N.one (N.nrm2 px.2)) BPX.2)
      (scal N (N.div N.one (N.nrm2 px.1)) BPX.1))
    exact { inv := { hi with F := hi.F.put _, G := hi.G.put _, l := hl, v1 := h1.on, v2 := h2.on, H := hH.on, Hv := fun _ => hH.get }
            S := hc.S, Fp := hc.Fp, Gp := hc.Gp, Hp := hc.Hp }

/-- the loop over the vectors -/
theorem columns_sim {side : Bool} {Q : St α → Lobpcg.St α → Prop} {body : Nat → St α → Res (Sum (Ret α) (St α × α))}
    {hbody : Nat → Lobpcg.St α → Res (Sum (Out α) (Lobpcg.St α × α))}
    (hb : ∀ i s h, Q s h → Sim (RS side Q) (body i s) (hbody i h)) :
    ∀ (is : List Nat) (rs : List α) (s : St α) (h : Lobpcg.St α), Q s h →
      Sim (RS side Q) (columns body is rs s) (Lobpcg.columns hbody is rs h)
  | [], _, _, _, hq => ⟨rfl, hq⟩
  | i :: is, rs, s, h, hq => by
    unfold columns Lobpcg.columns
    refine Sim.bind (hb i s h hq) fun a b _ _ hab => ?_
    cases a with
    | inl r =>
      cases b with
      | inl o => exact hab
      | inr p => exact hab.elim
    | inr p =>
      cases b with
      | inl o => exact hab.elim
      | inr p' =>
        obtain ⟨s', q⟩ := p
        obtain ⟨h', q'⟩ := p'
        obtain ⟨rfl, hq'⟩ := hab
        exact columns_sim hb is _ s' h' hq'

/-- The projection. -/
theorem project_at {N : Num α} {gpu side general : Bool} (hg : side = true → gpu = true) {n : Nat} {s : St α} {h : Lobpcg.St α} (hi : Inv N side side general n s h)
    (k : Nat) {sb : St α → D (Fam α)} {v : Fam α}
    (hsb : ∀ s' : St α, At side s'.F h.F → s'.H = s.H → At side (sb s') v) :
    ∃ F T Sam Sbm lam, project N gpu side k sb s = .ok { s with F := F, T := T, Sam := Sam, Sbm := Sbm, lam := lam } ∧
      At side F h.F ∧ T.on = side ∧ Sam.on = side ∧ Sbm.on = side ∧ lam.on = side ∧
      Sam.host = gram N (h.G.rows.take k) (h.F.rows.take k) ∧ Sbm.host = gram N (v.rows.take k) (h.F.rows.take k) ∧
      lam.host = h.lam := by
  cases side with
  | false =>
    unfold project
    simp only [Bool.false_eq_true, if_false]
    have hb := hsb { s with
      T := { s.T with host := s.F.host.rows.take k }
      Sam := s.Sam.put (gram N (s.G.get.rows.take k) (D.get { s.T with host := s.F.host.rows.take k })) } hi.F rfl
    rw [same3 hi.G.on hi.T hi.Sam, Res.ok_bind, same3 hb.on hi.T hi.Sbm, Res.ok_bind, hb.get, hi.G.get, hi.F.host]
    have hT : D.get { s.T with host := h.F.rows.take k } = h.F.rows.take k := by
      rw [D.get]
      simp [hi.T]
    rw [hT]
    refine ⟨s.F, _, _, _, s.lam, rfl, hi.F, hi.T, ?_, ?_, hi.lam.on, ?_, ?_, hi.lam.host⟩
    · exact ((at_self hi.Sam).put _).on
    · exact ((at_self hi.Sbm).put _).on
    · exact ((at_self hi.Sam).put _).host
    · exact ((at_self hi.Sbm).put _).host
  | true =>
    rw [hg rfl]
    unfold project
    simp only [if_true]
    have hF : At true (s.F.nonfreeRecv true) h.F := by
      unfold D.nonfreeRecv
      rw [hi.F.on]
      exact at_true.mpr ⟨rfl, hi.F.dev⟩
    have hFh : (s.F.nonfreeRecv true).host = h.F := by
      unfold D.nonfreeRecv
      rw [hi.F.on]
      exact hi.F.dev
    rw [hFh]
    have hT : At true (D.send true { s.T with host := h.F.rows.take k }) (h.F.rows.take k) := ⟨rfl, rfl⟩
    have hSa : At true (s.Sam.send true) s.Sam.host := ⟨rfl, rfl⟩
    rw [same3 hi.G.on hT.on hSa.on, Res.ok_bind, hi.G.get, hT.get]
    have hb := hsb { s with
      F := s.F.nonfreeRecv true
      T := D.send true { s.T with host := h.F.rows.take k }
      Sam := (s.Sam.send true).put (gram N (h.G.rows.take k) (h.F.rows.take k))
      lam := s.lam.send true } hF rfl
    rw [same3 hb.on hT.on hi.Sbm, Res.ok_bind, hb.get]
    have h1 := hSa.put (gram N (h.G.rows.take k) (h.F.rows.take k))
    have h2 := (at_self hi.Sbm).put (gram N (v.rows.take k) (h.F.rows.take k))
    refine ⟨_, _, _, _, _, rfl, hF, rfl, ?_, ?_, rfl, ?_, ?_, hi.lam.host⟩
    all_goals unfold D.nonfreeRecv
    · rw [h1.on]; exact h1.on
    · rw [h2.on]; rfl
    · rw [h1.on]; exact h1.dev
    · rw [h2.on]; exact h2.dev

/-- The projection and `sygvd`: the same small problem as on the host, solved by cuSOLVER in a GPU build. -/
theorem project_sygvd {N : Num α} {gpu side general : Bool} (hg : side = true → gpu = true) {n : Nat} {s : St α} {h : Lobpcg.St α} (hi : Inv N side side general n s h)
    (L Cu : Lib α) (k : Nat) {sb : St α → D (Fam α)} {v : Fam α}
    (hsb : ∀ s' : St α, At side s'.F h.F → s'.H = s.H → At side (sb s') v)
    {r : List α × List α × List α × Int}
    (hr : r = (if gpu then Cu else L).sygvd 1 true false k (gram N (h.G.rows.take k) (h.F.rows.take k)) k
      (gram N (v.rows.take k) (h.F.rows.take k)) k) :
    ∃ s1 s2, project N gpu side k sb s = .ok s1 ∧ sygvd gpu L Cu k s1 = (s2, r.2.2.2) ∧ s2.Sam.host = r.1 ∧
      Inv N side gpu general n s2 { h with lam := overwrite h.lam r.2.2.1 } := by
  obtain ⟨F, T, Sam, Sbm, lam, e, hF, hT, h1, h2, h3, e1, e2, e3⟩ := project_at hg hi k hsb
  refine ⟨_, ⟨F, s.G, s.H, s.Fp, s.Gp, s.Hp, T, (if gpu then ⟨r.1, r.1, false⟩ else { Sam with host := r.1 }),
    (if gpu then { Sbm.send gpu with dev := r.2.1 } else { Sbm with host := r.2.1 }),
    (if gpu then ⟨overwrite h.lam r.2.2.1, overwrite h.lam r.2.2.1, false⟩ else { lam with host := overwrite h.lam r.2.2.1 }),
    s.v1, s.v2, s.zero, s.l, s.xin⟩, e, ?_, ?_, ?_⟩
  · cases gpu with
    | true =>
      unfold sygvd
      simp only [if_true, D.send, D.recv, e1, e2, e3, hr, Bool.and_self]
    | false =>
      unfold sygvd
      simp only [Bool.false_eq_true, if_false, e1, e2, e3, hr]
  · cases gpu <;> rfl
  · cases gpu with
    | true => exact { hi with F := hF, T := hT, Sam := rfl, Sbm := rfl, lam := ⟨rfl, rfl⟩, Hv := hi.Hv }
    | false =>
      have hs : side = false := by
        cases side
        · rfl
        · exact (hg rfl).symm
      subst hs
      exact { hi with F := hF, T := hT, Sam := h1, Sbm := h2, lam := at_iff.mpr ⟨h3, rfl⟩, Hv := hi.Hv }

/-- passes that agree -/
def RP (side : Bool) (Q : St α → Lobpcg.St α → Prop) : Pass α → Lobpcg.Pass α → Prop
  | .done r, .done o => RO side r o
  | .restart s, .restart h => Q s h
  | .next s r, .next h r' => r = r' ∧ Q s h
  | _, _ => False

theorem keep_at {N : Num α} {gpu sbm general : Bool} {n : Nat} {s : St α} {h : Lobpcg.St α} (hi : Inv N gpu sbm general n s h) :
    ∃ s', keep general s = .ok s' ∧ ColInv N gpu sbm general n s.Sam.host h s' h := by
  unfold keep
  dsimp only
  rw [same2 hi.F.on hi.Fp, Res.ok_bind, same2 hi.G.on hi.Gp, Res.ok_bind]
  have h1 := (at_self hi.Fp).put s.F.get
  have h2 := (at_self hi.Gp).put s.G.get
  cases general with
  | true =>
    simp only [if_true]
    rw [same2 hi.H hi.Hp, Res.ok_bind]
    have h3 := (at_self hi.Hp).put s.H.get
    refine ⟨_, rfl, { inv := { hi with Fp := h1.on, Gp := h2.on, Hp := h3.on }, S := rfl, Fp := ?_, Gp := ?_, Hp := fun _ => ?_ }⟩
    · exact h1.get.trans hi.F.get
    · exact h2.get.trans hi.G.get
    · exact h3.get.trans (hi.Hv rfl)
  | false =>
    refine ⟨_, rfl, { inv := { hi with Fp := h1.on, Gp := h2.on }, S := rfl, Fp := ?_, Gp := ?_, Hp := nofun }⟩
    · exact h1.get.trans hi.F.get
    · exact h2.get.trans hi.G.get

theorem passWith_sim {N : Num α} {gpu side general : Bool} (hg : side = true → gpu = true) {n : Nat} (L Cu : Lib α) (cfg : Cfg α) (m iter k : Nat) (lb ub : Int)
    {sb : St α → D (Fam α)} {hsb : Lobpcg.St α → List (List α)} {fam : Lobpcg.St α → Fam α} (hfam : ∀ h, hsb h = (fam h).rows)
    (hs : ∀ (s : St α) h, At side s.F h.F → s.H.on = side → (general = true → s.H.get = h.H) → At side (sb s) (fam h))
    {body : (k : Nat) → Nat → St α → Res (Sum (Ret α) (St α × α))}
    {hbody : (k : Nat) → (S : List α) → (prev : Lobpcg.St α) → Nat → Lobpcg.St α → Res (Sum (Out α) (Lobpcg.St α × α))}
    (hb : ∀ k S prev i s h, ColInv N side gpu general n S prev s h →
      Sim (RS side (ColInv N side gpu general n S prev)) (body k i s) (hbody k S prev i h))
    {s : St α} {h : Lobpcg.St α} (hi : Inv N side side general n s h) :
    Sim (RP side (Inv N side gpu general n)) (passWith N gpu side L Cu cfg general m iter k lb ub sb body s)
      (Lobpcg.passWith N (if gpu then Cu else L) cfg m iter k lb ub hsb hbody h) := by
  obtain ⟨s1, s2, e1, e2, e3, h2⟩ := project_sygvd hg hi L Cu k (sb := sb) (v := fam h)
    (fun s' hF hH => hs s' h hF (hH ▸ hi.H) (fun hg => hH ▸ hi.Hv hg)) rfl
  unfold passWith Lobpcg.passWith
  rw [e1, Res.ok_bind, e2]
  dsimp only
  rw [hfam]
  generalize (if gpu = true then Cu else L).sygvd 1 true false k (gram N (List.take k h.G.rows) (List.take k h.F.rows)) k
    (gram N (List.take k (fam h).rows) (List.take k h.F.rows)) k = r at *
  split
  · exact h2
  split
  · exact rfl
  have hrecv : ∃ s3 : St α, (if side = true then ({ s2 with Sam := s2.Sam.recv gpu, lam := s2.lam.recv gpu } : St α) else s2) = s3 ∧
      s3.Sam.host = r.1 ∧ Inv N side gpu general n s3 { h with lam := overwrite h.lam r.2.2.1 } := by
    have ea : s2.Sam.recv gpu = s2.Sam := by
      unfold D.recv
      rw [h2.Sam]
      simp
    have eb : s2.lam.recv gpu = s2.lam := by
      unfold D.recv
      rw [h2.lam.on]
      simp
    rw [ea, eb]
    refine ⟨s2, ?_, e3, h2⟩
    split <;> rfl
  obtain ⟨s3, e4, e5, h3⟩ := hrecv
  rw [e4]
  obtain ⟨s4, e6, h4⟩ := keep_at h3
  rw [e6, Res.ok_bind, ← e5]
  refine Sim.bind (columns_sim (hb k s3.Sam.host _) _ _ _ _ h4) fun a b _ _ hab => ?_
  cases a with
  | inl o =>
    cases b with
    | inl o' => exact hab
    | inr p => exact hab.elim
  | inr p =>
    cases b with
    | inl o => exact hab.elim
    | inr p' =>
      obtain ⟨s', q⟩ := p
      obtain ⟨h', q'⟩ := p'
      obtain ⟨rfl, hq'⟩ := hab
      dsimp only
      refine Sim.bind_same fun resid _ => ?_
      split
      · obtain ⟨s5, e, f1, f2⟩ := giveBack_at (m := m) hq'.inv.F hq'.inv.xin
        rw [e, Res.ok_bind]
        refine ⟨?_, ?_, f2.on⟩
        · unfold out
          dsimp only
          rw [f1, hq'.inv.l.get, f2.get]
        · show s5.l.on = false
          rw [f1]
          exact hq'.inv.l.on
      · exact ⟨rfl, hq'.inv⟩

theorem loop_sim {side : Bool} {Q : St α → Lobpcg.St α → Prop} (cfg : Cfg α) (m : Nat)
    {body : (iter : Nat) → (singular : Bool) → St α → Res (Pass α)}
    {hbody : (iter : Nat) → (singular : Bool) → Lobpcg.St α → Res (Lobpcg.Pass α)}
    (hb : ∀ iter sing s h, Q s h → Sim (RP side Q) (body iter sing s) (hbody iter sing h))
    (hq : ∀ s h, Q s h → At side s.F h.F ∧ s.xin.on = side ∧ At false s.l h.l) :
    ∀ (fuel iter : Nat) (sing : Bool) (resid : α) (s : St α) (h : Lobpcg.St α), Q s h →
      Agree side (loop cfg m body fuel iter sing resid s) (Lobpcg.loop cfg hbody fuel iter sing resid h)
  | 0, _, _, _, _, _, _ => trivial
  | fuel + 1, iter, sing, resid, s, h, hs => by
    unfold loop Lobpcg.loop
    split
    · have := hb iter sing s h hs
      cases hx : body iter sing s <;> cases hy : hbody iter sing h <;> rw [hx, hy] at this <;>
        first | exact this.elim | skip
      · next a b =>
        cases a <;> cases b <;> first | exact this.elim | skip
        · exact this
        · exact loop_sim cfg m hb hq fuel iter true resid _ _ this
        · obtain ⟨rfl, h1⟩ := this
          exact loop_sim cfg m hb hq fuel (iter + 1) false _ _ _ h1
      · exact this
      · exact this
      · exact this
    · obtain ⟨h1, h2, h3⟩ := hq s h hs
      obtain ⟨s5, e, f1, f2⟩ := giveBack_at (m := m) h1 h2
      rw [e]
      refine ⟨?_, ?_, f2.on⟩
      · unfold out
        dsimp only
        rw [f1, h3.get, f2.get]
      · show s5.l.on = false
        rw [f1]
        exact h3.on

end Verif.Lobpcg.Dev
