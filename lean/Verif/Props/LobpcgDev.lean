import Verif.Lemmas.LobpcgDev

/-!
C117: the LOBPCG eigensolvers in a GPU build.
-/

namespace Verif.Lobpcg.Dev

open Solver Lapack

variable {α β γ : Type}

/-- where the arguments may be: the eigenvalues on the host; `xinout` on the host, or anywhere if the initial vectors are random and the
matrices are on the device -/
structure Placed (side : Bool) (rs : Option (List (List α))) (l : D (List α)) (xin : D (List (List α))) : Prop where
  l : l.on = false
  x : xin.on = false ∨ side = true ∧ rs ≠ none

theorem initial_at {N : Num α} {side : Bool} {m : Nat} {rs : Option (List (List α))} {l : D (List α)} {xin : D (List (List α))}
    (hp : Placed side rs l xin) : initial N m rs xin = .ok (Lobpcg.initial N m rs xin.get) := by
  unfold initial
  cases rs with
  | some rs => rfl
  | none =>
    have hx : xin.on = false := hp.x.elim id fun h => absurd rfl h.2
    have : rowsCheck m [xin.on, false] = .ok () := by
      unfold rowsCheck
      split
      · rfl
      · exact same2 hx rfl
    dsimp only
    rw [this, Res.ok_bind]

/-- what `if (A.get_device_mem_stat()) send(...)` makes of an object on the host -/
theorem snd_at {gpu side : Bool} (hg : side = true → gpu = true) {o : D β} {v : β} (h : At false o v) :
    At side (if side = true then o.send gpu else o) v := by
  cases side
  · exact h
  · rw [hg rfl]
    exact at_true.mpr ⟨rfl, h.host⟩

theorem start_xin {N : Num α} {gpu side : Bool} (hg : side = true → gpu = true) {m n : Nat} {x : List (List α)}
    {rs : Option (List (List α))} {l : D (List α)} {xin : D (List (List α))} (hp : Placed side rs l xin) :
    (start N gpu side m n x l xin).xin.on = side := by
  unfold start
  dsimp only
  cases side
  · exact hp.x.elim id fun h => absurd h.1 (by simp)
  · rw [hg rfl]
    rfl

/-- the objects after the first products -/
theorem first_at {N : Num α} {gpu side : Bool} (hg : side = true → gpu = true) {A : Mat α} {m n : Nat} {x : List (List α)}
    {rs : Option (List (List α))} {l : D (List α)} {xin : D (List (List α))} (hp : Placed side rs l xin) :
    Sim (fun s (t : List (List α × List α × List α)) => Inv N side side false n s
        { F := ⟨t.map (fun v => v.2.1), x, List.replicate m (List.replicate n N.zero)⟩
          G := ⟨t.map (fun v => v.2.2), t.map (fun v => v.1), List.replicate m (List.replicate n N.zero)⟩
          H := ⟨[], [], []⟩
          l := l.get
          lam := List.replicate (3 * m) N.zero })
      (firstVecs N A side n (start N gpu side m n x l xin)) (mapRes (initVec N A n) x) := by
  have hF : At side (start N gpu side m n x l xin).F ⟨List.replicate m (List.replicate n N.zero), x,
      List.replicate m (List.replicate n N.zero)⟩ := snd_at hg (at_new _)
  have hG : At side (start N gpu side m n x l xin).G ⟨List.replicate m (List.replicate n N.zero),
      List.replicate m (List.replicate n N.zero), List.replicate m (List.replicate n N.zero)⟩ := snd_at hg (at_new _)
  unfold firstVecs
  rw [same3 rfl hF.on hG.on, hF.get, hG.get]
  simp only [Res.ok_bind]
  cases mapRes (initVec N A n) x with
  | throw e => exact rfl
  | abort e => exact rfl
  | ub e => exact rfl
  | ok t =>
    exact { F := hF.put _, G := hG.put _, H := (snd_at hg (at_new _)).on, Hv := nofun, Fp := (snd_at hg (at_new _)).on
            Gp := (snd_at hg (at_new _)).on, Hp := (snd_at hg (at_new _)).on, T := (snd_at hg (at_new _)).on, Sam := rfl
            Sbm := (snd_at hg (at_new _)).on, lam := at_new _, v1 := (snd_at hg (at_new _)).on
            v2 := (snd_at hg (at_new _)).on, zero := snd_at hg (at_new _), l := at_self hp.l, xin := start_xin (N := N) (m := m) (n := n) (x := x) hg hp }

/-- **C117**. The standard problem, in a GPU build with `A` on the device, or in a build without GPU: with the eigenvalues on the
host, and `xinout` on the host (with random initial vectors: anywhere), the call ends exactly like the calculation on the host that
uses cuSOLVER's `sygvd`: the same return code, eigenvalues, eigenvectors, number of iterations, residual, or the same error.
Afterwards the eigenvalues are on the host, and `xinout` is on the device if `A` is. -/
theorem C117_standard_partial (N : Num α) {gpu : Bool} (L Cu : Lib α) (cfg : Cfg α) (A : Mat α) (create : Res (Pc α))
    (hpc : ∀ pc, create = .ok pc → pc.Fits gpu) (l : D (List α)) (xin : D (List (List α))) (xcol : Nat)
    (rs : Option (List (List α))) (hp : Placed gpu rs l xin) (fuel : Nat) :
    Agree gpu (standard N gpu L Cu cfg A gpu create l xin xcol rs fuel)
      (Lobpcg.standard N (if gpu then Cu else L) cfg A (do let pc ← create; .ok pc.f) l.get xin.get xcol rs fuel) := by
  unfold standard Lobpcg.standard
  dsimp only
  by_cases h1 : A.col ≠ xcol
  · rw [if_pos h1, if_pos h1]
    exact rfl
  rw [if_neg h1, if_neg h1]
  by_cases h2 : l.get.length ≠ xin.get.length
  · rw [if_pos h2, if_pos h2]
    exact rfl
  rw [if_neg h2, if_neg h2]
  cases create with
  | throw e => exact rfl
  | abort e => exact rfl
  | ub e => exact rfl
  | ok pc =>
    simp only [Res.ok_bind]
    rw [initial_at hp, Res.ok_bind]
    have hf := first_at (N := N) (gpu := gpu) (fun h => h) (A := A) (m := l.get.length) (n := A.col)
      (x := Lobpcg.initial N l.get.length rs xin.get) hp
    cases hx : firstVecs N A gpu A.col (start N gpu gpu l.get.length A.col (Lobpcg.initial N l.get.length rs xin.get) l xin) <;>
      cases hy : mapRes (initVec N A A.col) (Lobpcg.initial N l.get.length rs xin.get) <;> rw [hx, hy] at hf <;>
      first | exact hf.elim | skip
    · simp only [Res.ok_bind]
      refine loop_sim (Q := Inv N gpu gpu false A.col) cfg _ (fun iter sing s h hi => ?_)
        (fun s h hi => ⟨hi.F, hi.xin, hi.l⟩) fuel 0 false N.zero _ _ hf
      have hs : ∀ (s : St α) (h : Lobpcg.St α), At gpu s.F h.F → s.H.on = gpu → (false = true → s.H.get = h.H) →
          At gpu s.F h.F := fun _ _ h _ _ => h
      unfold pass Lobpcg.pass
      split
      · exact passWith_sim (fun h => h) L Cu cfg _ iter _ _ _ (fam := fun h => h.F) (fun _ => rfl) hs
          (fun k S prev i s h hc => column_sim hc rfl (hpc pc rfl) _ k iter i) hi
      · exact passWith_sim (fun h => h) L Cu cfg _ iter _ _ _ (fam := fun h => h.F) (fun _ => rfl) hs
          (fun k S prev i s h hc => column_sim hc rfl (hpc pc rfl) _ k iter i) hi
    · exact hf
    · exact hf
    · exact hf

/-- the objects after the first products of the generalised solver -/
theorem gfirst_at {N : Num α} {gpu side : Bool} (hg : side = true → gpu = true) {A B : Mat α} {m n : Nat} {x : List (List α)}
    {rs : Option (List (List α))} {l : D (List α)} {xin : D (List (List α))} (hp : Placed side rs l xin) :
    Sim (fun s (t : List (List α × List α × List α × List α × List α)) => Inv N side side true n s
        { F := ⟨t.map (fun v => v.2.2.1), x, List.replicate m (List.replicate n N.zero)⟩
          G := ⟨t.map (fun v => v.2.2.2.1), t.map (fun v => v.1), List.replicate m (List.replicate n N.zero)⟩
          H := ⟨t.map (fun v => v.2.2.2.2), t.map (fun v => v.2.1), List.replicate m (List.replicate n N.zero)⟩
          l := l.get
          lam := List.replicate (3 * m) N.zero })
      (gfirstVecs N A B side side n (start N gpu side m n x l xin)) (mapRes (ginitVec N A B n) x) := by
  have hF : At side (start N gpu side m n x l xin).F ⟨List.replicate m (List.replicate n N.zero), x,
      List.replicate m (List.replicate n N.zero)⟩ := snd_at hg (at_new _)
  have hG : At side (start N gpu side m n x l xin).G ⟨List.replicate m (List.replicate n N.zero),
      List.replicate m (List.replicate n N.zero), List.replicate m (List.replicate n N.zero)⟩ := snd_at hg (at_new _)
  have hH : At side (start N gpu side m n x l xin).H ⟨List.replicate m (List.replicate n N.zero),
      List.replicate m (List.replicate n N.zero), List.replicate m (List.replicate n N.zero)⟩ := snd_at hg (at_new _)
  unfold gfirstVecs
  rw [same3 rfl hF.on hG.on, same3 rfl hF.on hH.on, hF.get, hG.get, hH.get]
  simp only [Res.ok_bind]
  show Sim _ (mapRes (ginitVec N A B n) x >>= _) _
  cases mapRes (ginitVec N A B n) x with
  | throw e => exact rfl
  | abort e => exact rfl
  | ub e => exact rfl
  | ok t =>
    exact { F := hF.put _, G := hG.put _, H := (hH.put _).on, Hv := fun _ => (hH.put _).get, Fp := (snd_at hg (at_new _)).on
            Gp := (snd_at hg (at_new _)).on, Hp := (snd_at hg (at_new _)).on, T := (snd_at hg (at_new _)).on, Sam := rfl
            Sbm := (snd_at hg (at_new _)).on, lam := at_new _, v1 := (snd_at hg (at_new _)).on
            v2 := (snd_at hg (at_new _)).on, zero := snd_at hg (at_new _), l := at_self hp.l, xin := start_xin (N := N) (m := m) (n := n) (x := x) hg hp }

/-- **C117**. The generalised problem, in a GPU build with `A` and `B` on the device, or in a build without GPU: with the eigenvalues on the host, and `xinout` on the host (with random initial vectors: anywhere), the call ends exactly like the calculation on the host that
uses cuSOLVER's `sygvd`: the same return code, eigenvalues, eigenvectors, number of iterations, residual, or the same error.
Afterwards the eigenvalues are on the host, and `xinout` is on the device if `A` is. -/
theorem C117_generalized_partial (N : Num α) {gpu : Bool} (L Cu : Lib α) (cfg : Cfg α) (A B : Mat α) (create : Res (Pc α))
    (hpc : ∀ pc, create = .ok pc → pc.Fits gpu) (l : D (List α)) (xin : D (List (List α))) (xcol : Nat) (itype : Int)
    (rs : Option (List (List α))) (hp : Placed gpu rs l xin) (fuel : Nat) :
    Agree gpu (generalized N gpu L Cu cfg A B gpu gpu create l xin xcol itype rs fuel)
      (Lobpcg.generalized N (if gpu then Cu else L) cfg A B (do let pc ← create; .ok pc.f) l.get xin.get xcol itype rs
        fuel) := by
  unfold generalized Lobpcg.generalized
  dsimp only
  by_cases h0 : itype ≠ 1
  · rw [show cassert (decide (itype = 1)) "assert" = .abort "assert" by simp [h0, cassert]]
    exact rfl
  rw [cassert_decide (Decidable.not_not.mp h0)]
  simp only [Res.ok_bind]
  by_cases h1 : A.col ≠ xcol
  · rw [if_pos h1, if_pos h1]
    exact rfl
  rw [if_neg h1, if_neg h1]
  by_cases h3 : A.col ≠ B.col ∨ A.row ≠ B.row
  · rw [if_pos h3, if_pos h3]
    exact rfl
  rw [if_neg h3, if_neg h3]
  by_cases h2 : l.get.length ≠ xin.get.length
  · rw [if_pos h2, if_pos h2]
    exact rfl
  rw [if_neg h2, if_neg h2]
  cases create with
  | throw e => exact rfl
  | abort e => exact rfl
  | ub e => exact rfl
  | ok pc =>
    simp only [Res.ok_bind]
    rw [initial_at hp, Res.ok_bind]
    have hf := gfirst_at (N := N) (gpu := gpu) (fun h => h) (A := A) (B := B) (m := l.get.length) (n := A.col)
      (x := Lobpcg.initial N l.get.length rs xin.get) hp
    cases hx : gfirstVecs N A B gpu gpu A.col (start N gpu gpu l.get.length A.col (Lobpcg.initial N l.get.length rs xin.get) l xin) <;>
      cases hy : mapRes (ginitVec N A B A.col) (Lobpcg.initial N l.get.length rs xin.get) <;> rw [hx, hy] at hf <;>
      first | exact hf.elim | skip
    · simp only [Res.ok_bind]
      refine loop_sim (Q := Inv N gpu gpu true A.col) cfg _ (fun iter sing s h hi => ?_)
        (fun s h hi => ⟨hi.F, hi.xin, hi.l⟩) fuel 0 false N.zero _ _ hf
      have hs : ∀ (s : St α) (h : Lobpcg.St α), At gpu s.F h.F → s.H.on = gpu → (true = true → s.H.get = h.H) →
          At gpu s.H h.H := fun _ _ _ h h' => ⟨h, h' rfl⟩
      unfold pass Lobpcg.pass
      split
      · exact passWith_sim (fun h => h) L Cu cfg _ iter _ _ _ (fam := fun h => h.H) (fun _ => rfl) hs
          (fun k S prev i s h hc => gcolumn_sim hc rfl rfl (hpc pc rfl) _ k iter i) hi
      · exact passWith_sim (fun h => h) L Cu cfg _ iter _ _ _ (fam := fun h => h.H) (fun _ => rfl) hs
          (fun k S prev i s h hc => gcolumn_sim hc rfl rfl (hpc pc rfl) _ k iter i) hi
    · exact hf
    · exact hf
    · exact hf

end Verif.Lobpcg.Dev
