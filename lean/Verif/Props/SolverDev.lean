import Verif.Model.SolverDev
import Verif.Props.SolverOp

/-!
C107: the solvers in a GPU build.
-/

set_option linter.constructorNameAsVariable false

namespace Verif.Solver.Dev

open Verif.Solver

variable {α : Type} {N : Num α} {gpu : Bool}

/-- what the user sees of a call: the result (with the contents of `x`), or the error -/
def view (r : Res (Ret α)) : Res (Out α) := do
  let r ← r
  .ok (out r)

/-! ### States -/

/-- `s'` is `s` with new contents of `y`; nothing else that can be seen has changed, and neither have the host copies of
the other objects. -/
structure Upd (s s' : St α) (y : V) (l : List α) : Prop where
  on : s'.on = s.on
  get : ∀ o, s'.get o = if o = y then l else s.get o
  host : ∀ o, o ≠ y → s'.host o = s.host o
  hy : s'.host y = s.host y ∨ s'.host y = l

theorem put_upd (s : St α) (y : V) (l : List α) : Upd s (s.put y l) y l := by
  unfold St.put
  split
  · next h =>
    refine ⟨rfl, fun o => ?_, fun _ _ => rfl, Or.inl rfl⟩
    unfold St.get
    dsimp only
    by_cases ho : o = y
    · subst ho
      simp [h]
    · simp [ho]
  · next h =>
    refine ⟨rfl, fun o => ?_, fun o ho => by simp [ho], Or.inr (by simp)⟩
    unfold St.get
    dsimp only
    by_cases ho : o = y
    · subst ho
      simp [h]
    · simp [ho]

/-- a computation of the new contents of `y`, as an operation on the objects -/
def Step (s : St α) (r : Res (St α)) (y : V) (o : Res (List α)) : Prop :=
  (∀ l, o = .ok l → ∃ s', r = .ok s' ∧ Upd s s' y l) ∧ (∀ e, o = .throw e → r = .throw e) ∧
    (∀ e, o = .abort e → r = .abort e) ∧ (∀ e, o = .ub e → r = .ub e)

theorem same_ok {s : St α} {side : Bool} {os : List V} (h : ∀ o ∈ os, s.on o = side) : same s os = .ok () := by
  cases os with
  | nil => rfl
  | cons o os =>
    unfold same
    have : (os.all fun o' => s.on o' == s.on o) = true := by
      rw [List.all_eq_true]
      intro o' ho
      rw [h o' (List.mem_cons_of_mem _ ho), h o List.mem_cons_self]
      simp
    show cassert (os.all fun o' => s.on o' == s.on o) = _
    rw [this]
    rfl

theorem call_step {s : St α} {side : Bool} {os : List V} (h : ∀ o ∈ os, s.on o = side) (y : V) (f : Res (List α)) :
    Step s (call s os y f) y f := by
  unfold call
  rw [same_ok h, Res.ok_bind]
  refine ⟨?_, ?_, ?_, ?_⟩
  · rintro l rfl
    exact ⟨_, rfl, put_upd s y l⟩
  · rintro e rfl
    rfl
  · rintro e rfl
    rfl
  · rintro e rfl
    rfl

theorem view_bind {β : Type} (r : Res β) (f : β → Res (Ret α)) : view (r >>= f) = (r >>= fun a => view (f a)) := by
  cases r <;> rfl

/-- an operation on the objects followed by the rest of the solver -/
theorem view_step {s : St α} {r : Res (St α)} {y : V} {o : Res (List α)} (h : Step s r y o)
    {f : St α → Res (Ret α)} {g : List α → Res (Out α)}
    (hfg : ∀ l s', o = .ok l → Upd s s' y l → view (f s') = g l) : view (r >>= f) = (o >>= g) := by
  cases o with
  | ok l =>
    obtain ⟨s', h1, h2⟩ := h.1 l rfl
    rw [h1]
    exact hfg l s' rfl h2
  | throw e => rw [h.2.1 e rfl]; rfl
  | abort e => rw [h.2.2.1 e rfl]; rfl
  | ub e => rw [h.2.2.2 e rfl]; rfl

theorem view_reduce {s : St α} {side : Bool} {os : List V} (h : ∀ o ∈ os, s.on o = side) (f : Res α)
    {k : α → Res (Ret α)} {g : α → Res (Out α)} (hfg : ∀ v, f = .ok v → view (k v) = g v) :
    view (reduce s os f >>= k) = (f >>= g) := by
  unfold reduce
  rw [same_ok h, Res.ok_bind]
  cases f with
  | ok v => exact hfg v rfl
  | _ => rfl

/-- a computation that involves no objects -/
theorem view_pure {β : Type} (f : Res β) {k : β → Res (Ret α)} {g : β → Res (Out α)}
    (hfg : ∀ v, f = .ok v → view (k v) = g v) : view (f >>= k) = (f >>= g) := by
  cases f with
  | ok v => exact hfg v rfl
  | _ => rfl

theorem view_finish {cfg : Cfg α} {iter : Nat} {resid : α} {s : St α} {x r : List α} (hx : s.get .x = x)
    (hr : s.get .r = r) {k : Res (Ret α)} {g : Res (Out α)} (hk : view k = g) :
    view (finish N cfg iter resid s >>= fun o => match o with
      | some o => Res.ok o
      | none => k) =
    (stopCheck N cfg iter resid x r >>= fun o => match o with
      | some out => Res.ok out
      | none => g) := by
  unfold finish
  rw [hx, hr]
  unfold stopCheck
  split
  · cases getResidual N cfg r with
    | ok fr =>
      show Res.ok _ = Res.ok _
      simp [out, hx]
    | _ => rfl
  · split
    · cases getResidual N cfg r with
      | ok fr =>
        show Res.ok _ = Res.ok _
        simp [out, hx]
      | _ => rfl
    · exact hk

theorem view_atMax {cfg : Cfg α} {s : St α} {x r : List α} (hx : s.get .x = x) (hr : s.get .r = r) :
    view (atMax N cfg s) = atMaxiter N cfg x r := by
  unfold atMax atMaxiter
  rw [hr]
  cases getResidual N cfg r with
  | ok fr =>
    show Res.ok _ = Res.ok _
    simp [out, hx]
  | _ => rfl

/-! ### The functions the solvers call -/

variable {side : Bool} {s : St α} {x y z : V} {a lx ly : List α}

theorem matvec_step {A : MatD α} (h : ∀ o ∈ [.A, x, y], s.on o = side) (ha : s.get .A = a) (hx : s.get x = lx) :
    Step s (matvec A x y s) y ((A.at_ a).mv lx) := by
  subst ha hx
  exact call_step h _ _

theorem diag_step {A : MatD α} (h : ∀ o ∈ [.A, y], s.on o = side) (ha : s.get .A = a) :
    Step s (diag A y s) y (A.at_ a).diag := by
  subst ha
  exact call_step h _ _

theorem axpy_step {c : α} (h : ∀ o ∈ [x, y], s.on o = side) (hx : s.get x = lx) (hy : s.get y = ly) :
    Step s (axpy N c x y s) y (N.axpy c lx ly) := by
  subst hx hy
  exact call_step h _ _

theorem xpay_step {c : α} (h : ∀ o ∈ [x, y], s.on o = side) (hx : s.get x = lx) (hy : s.get y = ly) :
    Step s (xpay N c x y s) y (N.xpay c lx ly) := by
  subst hx hy
  exact call_step h _ _

theorem axpyz_step {c : α} {n : Nat} (h : ∀ o ∈ [x, y, z], s.on o = side) (hx : s.get x = lx) (hy : s.get y = ly)
    (hz : (s.get z).length = n) : Step s (axpyz N c x y z s) z (N.axpyz c lx ly n) := by
  subst hx hy hz
  exact call_step h _ _

theorem sub_step {n : Nat} (h : ∀ o ∈ [x, y, z], s.on o = side) (hx : s.get x = lx) (hy : s.get y = ly)
    (hz : (s.get z).length = n) : Step s (sub N x y z s) z (N.vsub lx ly n) := by
  subst hx hy hz
  exact call_step h _ _

theorem add_step {n : Nat} (h : ∀ o ∈ [x, y, z], s.on o = side) (hx : s.get x = lx) (hy : s.get y = ly)
    (hz : (s.get z).length = n) : Step s (add N x y z s) z (N.vadd lx ly n) := by
  subst hx hy hz
  exact call_step h _ _

theorem mul_step {n : Nat} (h : ∀ o ∈ [x, y, z], s.on o = side) (hx : s.get x = lx) (hy : s.get y = ly)
    (hz : (s.get z).length = n) : Step s (mul N x y z s) z (N.vmul lx ly n) := by
  subst hx hy hz
  exact call_step h _ _

theorem copy_step {n : Nat} (h : ∀ o ∈ [x, y], s.on o = side) (hx : s.get x = lx) (hy : (s.get y).length = n) :
    Step s (copy x y s) y (Num.copyV lx n) := by
  subst hx hy
  exact call_step h _ _

theorem dot_view (h : ∀ o ∈ [x, y], s.on o = side) (hx : s.get x = lx) (hy : s.get y = ly)
    {k : α → Res (Ret α)} {g : α → Res (Out α)} (hfg : ∀ v, N.dot lx ly = .ok v → view (k v) = g v) :
    view (dot N x y s >>= k) = (N.dot lx ly >>= g) := by
  subst hx hy
  exact view_reduce h _ hfg

/-- what is left of a fact about the objects after an update -/
theorem Upd.get_ne {s s' : St α} {y : V} {l : List α} (h : Upd s s' y l) {o : V} (ho : o ≠ y) : s'.get o = s.get o := by
  rw [h.get, if_neg ho]

theorem Upd.get_eq {s s' : St α} {y : V} {l : List α} (h : Upd s s' y l) : s'.get y = l := by
  rw [h.get, if_pos rfl]

theorem res_bind_assoc {β γ δ : Type} (m : Res β) (f : β → Res γ) (g : γ → Res δ) :
    ((m >>= f) >>= g) = (m >>= fun b => f b >>= g) := by
  cases m <;> rfl

/-! ### Preconditioners -/

/-- The preconditioner does to the objects what `f` does to lists, as long as the condition `Inv` holds, which does not
depend on the vectors of the solvers. -/
structure Applies (pc : PC α) (side : Bool) (n : Nat) (Inv : St α → Prop) (f : List α → Res (List α)) : Prop where
  apply : ∀ r z s, Inv s → s.on r = side → s.on z = side → z ≠ .M → z ≠ .A →
    (s.get r).length = n → (s.get z).length = n → (s.host z).length = n → Step s (pc.apply r z s) z (f (s.get r))
  stable : ∀ s s' y l, Inv s → Upd s s' y l → y ≠ .M → y ≠ .A → Inv s'

/-- the results have the right length -/
def Keeps (n : Nat) (f : List α → Res (List α)) : Prop := ∀ u w, u.length = n → f u = .ok w → w.length = n

/-! ### CG -/

/-- where the objects of CG are and what they contain during the loop -/
structure CgInv (side : Bool) (n : Nat) (a : List α) (s : St α) (st : CG.St α) : Prop where
  on : ∀ o ∈ [V.A, V.x, V.r, V.p, V.q, V.z], s.on o = side
  a : s.get .A = a
  x : s.get .x = st.x
  r : s.get .r = st.r
  p : s.get .p = st.p
  z : s.get .z = st.z
  lr : st.r.length = n
  lz : st.z.length = n
  hz : (s.host .z).length = n

theorem cgLoop_view {cfg : Cfg α} {A : MatD α} {pc : PC α} {Inv : St α → Prop}
    {f : List α → Res (List α)} (hf : Keeps A.row f) (hpc : Applies pc side A.row Inv f) :
    ∀ (k iter : Nat) (s : St α) (st : CG.St α), CgInv side A.row a s st → Inv s →
      view (cgLoop N cfg A pc k iter s) = CG.loop N cfg (A.at_ a) f k iter st
  | 0, _, s, st, h, _ => view_atMax h.x h.r
  | k + 1, iter, s, st, h, hi => by
    unfold cgLoop CG.loop CG.step
    have ho := h.on
    simp only [List.forall_mem_cons, List.not_mem_nil, false_implies, implies_true, and_true] at ho
    obtain ⟨oA, ox, or_, op, oq, oz⟩ := ho
    simp only [res_bind_assoc, Res.ok_bind]
    refine view_step (matvec_step (side := side) (by simp [oA, op, oq]) h.a h.p) (fun q s1 hq u1 => ?_)
    have g1 : s1.get .z = st.z := by rw [u1.get_ne (by decide), h.z]
    have g2 : s1.get .r = st.r := by rw [u1.get_ne (by decide), h.r]
    have g3 : s1.get .p = st.p := by rw [u1.get_ne (by decide), h.p]
    have g4 : s1.get .x = st.x := by rw [u1.get_ne (by decide), h.x]
    have o1 := u1.on
    refine dot_view (side := side) (by simp [o1, oz, or_]) g1 g2 (fun tmp _ => ?_)
    refine dot_view (side := side) (by simp [o1, op, oq]) g3 u1.get_eq (fun pq _ => ?_)
    refine view_step (axpy_step (side := side) (by simp [o1, op, ox]) g3 g4) (fun x s2 hx u2 => ?_)
    have o2 : s2.on = s.on := by rw [u2.on, o1]
    refine view_step (axpy_step (side := side) (by simp [o2, oq, or_])
      (by rw [u2.get_ne (by decide)]; exact u1.get_eq) (by rw [u2.get_ne (by decide)]; exact g2))
      (fun r s3 hr u3 => ?_)
    have o3 : s3.on = s.on := by rw [u3.on, o2]
    have lr : r.length = A.row := by rw [axpy_len hr, h.lr]
    have z3 : s3.get .z = st.z := by rw [u3.get_ne (by decide), u2.get_ne (by decide), g1]
    have i1 := hpc.stable _ _ _ _ hi u1 (by decide) (by decide)
    have i2 := hpc.stable _ _ _ _ i1 u2 (by decide) (by decide)
    have i3 := hpc.stable _ _ _ _ i2 u3 (by decide) (by decide)
    have hstep := hpc.apply .r .z s3 i3 (by rw [o3, or_]) (by rw [o3, oz]) (by decide) (by decide)
      (by rw [u3.get_eq, lr]) (by rw [z3, h.lz])
      (by rw [u3.host _ (by decide), u2.host _ (by decide), u1.host _ (by decide), h.hz])
    rw [u3.get_eq] at hstep
    refine view_step hstep (fun z s4 hz u4 => ?_)
    have o4 : s4.on = s.on := by rw [u4.on, o3]
    have i4 := hpc.stable _ _ _ _ i3 u4 (by decide) (by decide)
    refine dot_view (side := side) (by simp [o4, oz, or_]) u4.get_eq
      (by rw [u4.get_ne (by decide)]; exact u3.get_eq) (fun zr _ => ?_)
    refine view_step (xpay_step (side := side) (by simp [o4, oz, op]) u4.get_eq
      (by rw [u4.get_ne (by decide), u3.get_ne (by decide), u2.get_ne (by decide)]; exact g3)) (fun p s5 hp u5 => ?_)
    have o5 : s5.on = s.on := by rw [u5.on, o4]
    have i5 := hpc.stable _ _ _ _ i4 u5 (by decide) (by decide)
    have r5 : s5.get .r = r := by rw [u5.get_ne (by decide), u4.get_ne (by decide)]; exact u3.get_eq
    have x5 : s5.get .x = x := by
      rw [u5.get_ne (by decide), u4.get_ne (by decide), u3.get_ne (by decide)]
      exact u2.get_eq
    rw [r5]
    refine view_pure _ (fun resid _ => ?_)
    refine view_finish x5 r5 (cgLoop_view hf hpc k (iter + 1) s5 _ ?_ i5)
    refine ⟨?_, ?_, x5, r5, u5.get_eq, ?_, lr, ?_, ?_⟩
    · simp [o5, oA, ox, or_, op, oq, oz]
    · rw [u5.get_ne (by decide), u4.get_ne (by decide), u3.get_ne (by decide), u2.get_ne (by decide),
        u1.get_ne (by decide), h.a]
    · rw [u5.get_ne (by decide)]
      exact u4.get_eq
    · exact hf _ _ lr hz
    · rw [u5.host _ (by decide)]
      rcases u4.hy with h4 | h4
      · rw [h4, u3.host _ (by decide), u2.host _ (by decide), u1.host _ (by decide), h.hz]
      · rw [h4, hf _ _ lr hz]

/-! ### Beginning and preconditioners -/

/-- `s'` is `s` apart from the objects in `os` -/
structure Frame (os : List V) (s s' : St α) : Prop where
  on : ∀ o, o ∉ os → s'.on o = s.on o
  get : ∀ o, o ∉ os → s'.get o = s.get o
  host : ∀ o, o ∉ os → s'.host o = s.host o

theorem newAll_spec (l : List α) (os : List V) : ∀ s : St α,
    (∀ o ∈ os, (newAll l os s).on o = false ∧ (newAll l os s).host o = l) ∧ Frame os s (newAll l os s) := by
  induction os with
  | nil => exact fun s => ⟨by simp, fun _ _ => rfl, fun _ _ => rfl, fun _ _ => rfl⟩
  | cons o os ih =>
    intro s
    obtain ⟨h1, h2⟩ := ih (s.new o l)
    have e : newAll l (o :: os) s = newAll l os (s.new o l) := rfl
    rw [e]
    refine ⟨?_, ?_⟩
    · intro o' ho
      by_cases hm : o' ∈ os
      · exact h1 o' hm
      · have : o' = o := by
          rcases List.mem_cons.mp ho with h | h
          · exact h
          · exact absurd h hm
        subst this
        rw [h2.on _ hm, h2.host _ hm]
        simp [St.new]
    · refine ⟨?_, ?_, ?_⟩
      · intro o' ho
        rw [List.mem_cons, not_or] at ho
        rw [h2.on _ ho.2]
        simp [St.new, ho.1]
      · intro o' ho
        rw [List.mem_cons, not_or] at ho
        rw [h2.get _ ho.2]
        simp [St.new, St.get, ho.1]
      · intro o' ho
        rw [List.mem_cons, not_or] at ho
        rw [h2.host _ ho.2]
        simp [St.new, ho.1]

theorem sendAll_spec (os : List V) : ∀ s : St α,
    (∀ o ∈ os, (sendAll true os s).on o = true ∧ (sendAll true os s).get o = s.host o) ∧
      (∀ o, (sendAll true os s).host o = s.host o) ∧ Frame os s (sendAll true os s) := by
  induction os with
  | nil => exact fun s => ⟨by simp, fun _ => rfl, fun _ _ => rfl, fun _ _ => rfl, fun _ _ => rfl⟩
  | cons o os ih =>
    intro s
    obtain ⟨h1, h0, h2⟩ := ih (s.send true o)
    have e : sendAll true (o :: os) s = sendAll true os (s.send true o) := rfl
    rw [e]
    refine ⟨?_, ?_, ?_⟩
    · intro o' ho
      by_cases hm : o' ∈ os
      · exact h1 o' hm
      · have : o' = o := by
          rcases List.mem_cons.mp ho with h | h
          · exact h
          · exact absurd h hm
        subst this
        rw [h2.on _ hm, h2.get _ hm]
        simp [St.send, St.get]
    · intro o'
      rw [h0]
      simp [St.send]
    · refine ⟨?_, ?_, ?_⟩
      · intro o' ho
        rw [List.mem_cons, not_or] at ho
        rw [h2.on _ ho.2]
        simp [St.send, ho.1]
      · intro o' ho
        rw [List.mem_cons, not_or] at ho
        rw [h2.get _ ho.2]
        simp [St.send, St.get, ho.1]
      · intro o' ho
        rw [h0]
        simp [St.send]

theorem sendAll_cpu (os : List V) : ∀ s : St α, sendAll false os s = s := by
  induction os with
  | nil => exact fun _ => rfl
  | cons o os ih => exact fun s => ih s

/-- new working vectors, sent if the data are on the device -/
theorem work_spec (l : List α) (os : List V) (s : St α) {go : Bool} (hgo : side = (gpu && go)) :
    let s' := if go then sendAll gpu os (newAll l os s) else newAll l os s
    (∀ o ∈ os, s'.on o = side ∧ s'.get o = l ∧ s'.host o = l) ∧ Frame os s s' := by
  obtain ⟨h1, h2⟩ := newAll_spec l os s
  intro s'
  have hoff : s' = newAll l os s → side = false → (∀ o ∈ os, s'.on o = side ∧ s'.get o = l ∧ s'.host o = l) ∧
      Frame os s s' := by
    intro e hs
    rw [e, hs]
    exact ⟨fun o ho => ⟨(h1 o ho).1, by simp [St.get, (h1 o ho).1, (h1 o ho).2], (h1 o ho).2⟩, h2⟩
  cases go with
  | false => exact hoff rfl (by simpa using hgo)
  | true =>
    cases gpu with
    | false => exact hoff (sendAll_cpu os _) (by simpa using hgo)
    | true =>
      obtain ⟨k1, k0, k2⟩ := sendAll_spec os (newAll l os s)
      have e : s' = sendAll true os (newAll l os s) := rfl
      rw [e, show side = true by simpa using hgo]
      refine ⟨fun o ho => ⟨(k1 o ho).1, by rw [(k1 o ho).2, (h1 o ho).2], by rw [k0, (h1 o ho).2]⟩, ?_, ?_, ?_⟩
      · intro o ho
        rw [k2.on o ho, h2.on o ho]
      · intro o ho
        rw [k2.get o ho, h2.get o ho]
      · intro o ho
        rw [k2.host o ho, h2.host o ho]

/-- The preconditioner `pc` of a matrix with the values `a` does on the objects what `create` does on lists; `P` is what
it needs of the host copy of the matrix and of the flag of its vector. -/
structure Models (pc : PC α) (side : Bool) (n : Nat) (a : List α) (P : List α → Bool → Prop)
    (create : Res (List α → Res (List α))) : Prop where
  ok : ∀ f, create = .ok f → Keeps n f ∧ ∃ Inv, Applies pc side n Inv f ∧
    ∀ s, s.on .A = side → s.get .A = a → P (s.host .A) (s.on .M) → ∃ s', pc.create s = .ok s' ∧ Frame [.M] s s' ∧ Inv s'
  err : (∃ f, create = .ok f) ∨ ∀ s, s.on .A = side → s.get .A = a → P (s.host .A) (s.on .M) →
    (∀ e, create = .throw e → pc.create s = .throw e) ∧ (∀ e, create = .abort e → pc.create s = .abort e) ∧
      (∀ e, create = .ub e → pc.create s = .ub e)

theorem view_create {pc : PC α} {n : Nat} {P : List α → Bool → Prop} {create : Res (List α → Res (List α))}
    (h : Models pc side n a P create) (hA : s.on .A = side) (ha : s.get .A = a) (hp : P (s.host .A) (s.on .M))
    {k : St α → Res (Ret α)} {g : (List α → Res (List α)) → Res (Out α)}
    (hfg : ∀ f Inv s', create = .ok f → Keeps n f → Applies pc side n Inv f → Frame [.M] s s' → Inv s' →
      view (k s') = g f) : view (pc.create s >>= k) = (create >>= g) := by
  rcases h.err with ⟨f, hf⟩ | he
  · obtain ⟨hk, Inv, h1, h2⟩ := h.ok f hf
    obtain ⟨s', e, h3, h4⟩ := h2 s hA ha hp
    rw [e, hf]
    exact hfg f Inv s' hf hk h1 h3 h4
  · obtain ⟨h1, h2, h3⟩ := he s hA ha hp
    cases hc : create with
    | ok f =>
      obtain ⟨hk, Inv, k1, k2⟩ := h.ok f hc
      obtain ⟨s', e, h3, h4⟩ := k2 s hA ha hp
      rw [e]
      exact hfg f Inv s' hc hk k1 h3 h4
    | throw e => rw [h1 e hc]; rfl
    | abort e => rw [h2 e hc]; rfl
    | ub e => rw [h3 e hc]; rfl

/-- no preconditioner -/
theorem none_models (n : Nat) (a : List α) : Models nonePC side n a (fun _ _ => True) noPrecond where
  ok := by
    intro f hf
    cases hf
    refine ⟨fun u w hu h => by cases h; exact hu, fun _ => True, ⟨?_, fun _ _ _ _ _ _ _ _ => trivial⟩, ?_⟩
    · intro r z s _ hr hz _ _ lr lz _
      have := copy_step (s := s) (x := r) (y := z) (side := side) (n := n) (by simp [hr, hz]) rfl lz
      have e : Num.copyV (s.get r) n = .ok (s.get r) := by
        unfold Num.copyV
        rw [cassert_decide lr]
        rfl
      rw [e] at this
      exact this
    · intro s _ _ _
      exact ⟨s, rfl, ⟨fun _ _ => rfl, fun _ _ => rfl, fun _ _ => rfl⟩, trivial⟩
  err := Or.inl ⟨_, rfl⟩

theorem Upd.frame {s s' : St α} {y : V} {l : List α} (h : Upd s s' y l) : Frame [y] s s' := by
  refine ⟨fun o _ => by rw [h.on], fun o ho => h.get_ne (by simpa using ho), fun o ho => h.host o (by simpa using ho)⟩

theorem Frame.trans {os : List V} {s s' s'' : St α} (h : Frame os s s') (h' : Frame os s' s'') : Frame os s s'' :=
  ⟨fun o ho => by rw [h'.on o ho, h.on o ho], fun o ho => by rw [h'.get o ho, h.get o ho],
    fun o ho => by rw [h'.host o ho, h.host o ho]⟩

/-- the vector of a preconditioner before its diagonal is computed -/
def freshM (gpu : Bool) (l : List α) (s : St α) : St α :=
  let s := s.deviceFree gpu .M
  let s := { s with host := Function.update s.host .M l }
  if s.on .A then s.send gpu .M else s

theorem freshM_spec (l : List α) (s : St α) (hA : s.on .A = side) (hg : side = true → gpu = true)
    (hM : gpu = false → s.on .M = false) :
    (freshM gpu l s).on .M = side ∧ Frame [.M] s (freshM gpu l s) := by
  cases gpu with
  | false =>
    have hs : side = false := by
      cases side with
      | false => rfl
      | true => exact absurd (hg rfl) (by decide)
    subst hs
    have e : freshM false l s = { s with host := Function.update s.host .M l } := by
      unfold freshM St.deviceFree St.send
      simp
    rw [e]
    refine ⟨hM rfl, fun _ _ => rfl, fun o ho => ?_, fun o ho => ?_⟩
    · have : o ≠ .M := by simpa using ho
      simp [St.get, this]
    · have : o ≠ .M := by simpa using ho
      simp [this]
  | true =>
    cases hm : s.on .M <;> cases side <;>
    · unfold freshM St.deviceFree St.send
      simp only [hm, hA, Bool.true_and, if_true, Bool.false_eq_true, if_false, ne_eq, reduceCtorEq,
        not_false_eq_true, Function.update_of_ne, Function.update_self, true_and]
      refine ⟨fun o ho => ?_, fun o ho => ?_, fun o ho => ?_⟩ <;>
      · have : o ≠ .M := by simpa using ho
        simp [St.get, this]

/-- Jacobi as preconditioner -/
theorem jacobi_models (A : MatD α) (hg : side = true → gpu = true) :
    Models (jacobiPC N gpu A) side A.row a (fun _ m => gpu = false → m = false) (jacobiPrecond N (A.at_ a)) := by
  have hcreate : A.row = A.col → ∀ s, (jacobiPC N gpu A).create s =
      (diag A .M (freshM gpu (List.replicate A.row N.zero) s) >>= reciprocal N .M) := by
    intro h s
    show (if A.row ≠ A.col then _ else _) = _
    rw [if_neg (by simp [h])]
    rfl
  by_cases hrc : A.row = A.col
  · have hl : jacobiPrecond N (A.at_ a) = ((A.at_ a).diag >>= fun d => .ok fun r => N.vmul (N.reciprocal d) r r.length) := by
      unfold jacobiPrecond
      rw [if_neg (by simp [MatD.at_, hrc])]
    constructor
    · intro f hf
      refine ⟨fun u w hu h => by rw [jacobiPrecond_keeps hf u w h, hu], ?_⟩
      rw [hl] at hf
      obtain ⟨d, hd, hf⟩ := Res.bind_eq_ok.mp hf
      cases hf
      refine ⟨fun s => s.on .M = side ∧ s.get .M = N.reciprocal d, ⟨?_, ?_⟩, ?_⟩
      · rintro r z s ⟨h1, h2⟩ hr hz hzM _ lr lz _
        have := mul_step (N := N) (s := s) (x := .M) (y := r) (z := z) (side := side) (n := (s.get r).length)
          (by simp [h1, hr, hz]) h2 rfl (by rw [lr, lz])
        exact this
      · rintro s s' y l ⟨h1, h2⟩ u hy _
        exact ⟨by rw [u.on, h1], by rw [u.get_ne (Ne.symm hy), h2]⟩
      · intro s hA ha hM
        obtain ⟨k1, k2⟩ := freshM_spec (List.replicate A.row N.zero) s hA hg hM
        obtain ⟨s1, e1, u1⟩ := (diag_step (A := A) (y := .M) (s := freshM gpu (List.replicate A.row N.zero) s)
          (side := side) (a := a) (by simp [k1, k2.on, hA]) (by rw [k2.get _ (by decide), ha])).1 d hd
        obtain ⟨s2, e2, u2⟩ := (call_step (s := s1) (side := side) (os := [.M]) (by simp [u1.on, k1]) .M
          (.ok (N.reciprocal (s1.get .M)))).1 _ rfl
        refine ⟨s2, ?_, (k2.trans u1.frame).trans u2.frame, by rw [u2.on, u1.on, k1], ?_⟩
        · rw [hcreate hrc, e1]
          exact e2
        · rw [u2.get_eq, u1.get_eq]
    · rw [hl]
      cases hd : (A.at_ a).diag with
      | ok d => exact Or.inl ⟨_, rfl⟩
      | _ =>
        refine Or.inr (fun s hA ha hM => ?_)
        obtain ⟨k1, k2⟩ := freshM_spec (List.replicate A.row N.zero) s hA hg hM
        have st := (diag_step (A := A) (y := .M) (s := freshM gpu (List.replicate A.row N.zero) s)
          (side := side) (a := a) (by simp [k1, k2.on, hA]) (by rw [k2.get _ (by decide), ha]))
        rw [hd] at st
        rw [hcreate hrc]
        obtain ⟨_, t1, t2, t3⟩ := st
        refine ⟨fun e h => ?_, fun e h => ?_, fun e h => ?_⟩ <;> cases h
        first
          | rw [t1 _ rfl]; rfl
          | rw [t2 _ rfl]; rfl
          | rw [t3 _ rfl]; rfl
  · have hl : jacobiPrecond N (A.at_ a) = .throw "error A.row != A.col" := by
      unfold jacobiPrecond
      rw [if_pos (by simpa [MatD.at_] using hrc)]
    constructor
    · intro f hf
      rw [hl] at hf
      cases hf
    · refine Or.inr (fun s _ _ _ => ?_)
      rw [hl]
      have : (jacobiPC N gpu A).create s = .throw "error A.row != A.col" := if_pos hrc
      rw [this]
      exact ⟨fun e h => (by cases h; rfl), fun e h => (by cases h), fun e h => (by cases h)⟩

/-- what the SOR kernels do with the old contents of the vector they overwrite: nothing -/
structure Kernels (A : MatD α) : Prop where
  lower : ∀ a d t t' r, t.length = A.row → t'.length = A.row → A.lower a d t r = A.lower a d t' r
  lower_len : ∀ a d t r l, A.lower a d t r = .ok l → l.length = t.length
  precond : ∀ a M z z' r, z.length = A.row → z'.length = A.row → A.precond a M z r = A.precond a M z' r
  precond_len : ∀ a M z r l, A.precond a M z r = .ok l → l.length = z.length

/-- SOR as preconditioner: data on the device of a GPU build, or a CPU build; the host copy of the matrix has to be up to
date -/
theorem sor_models {omega : α} (A : MatD α) (hk : Kernels A) (hg : side = gpu) :
    Models (sorPC N gpu omega A) side A.row a (fun h m => h = a ∧ (gpu = false → m = false))
      (sorPrecond N omega (A.at_ a) (A.precond a)) := by
  subst hg
  have hcreate : A.row = A.col → ∀ s, (sorPC N side omega A).create s =
      (diag A .M (freshM side (List.replicate A.row N.zero) s) >>= fun s => scal N omega .M s >>= fun s =>
        reciprocal N .M s >>= fun s => .ok (s.recv side .M)) := by
    intro h s
    show (if A.row ≠ A.col then _ else _) = _
    rw [if_neg (by simp [h])]
    rfl
  by_cases hrc : A.row = A.col
  · have hl : sorPrecond N omega (A.at_ a) (A.precond a) = ((A.at_ a).diag >>= fun d => .ok fun r =>
        A.precond a (N.reciprocal (d.map (N.mul omega))) (List.replicate A.row N.zero) r) := by
      unfold sorPrecond
      rw [if_neg (by simp [MatD.at_, hrc])]
      rfl
    constructor
    · intro f hf
      rw [hl] at hf
      obtain ⟨d, hd, hf⟩ := Res.bind_eq_ok.mp hf
      cases hf
      refine ⟨fun u w hu h => by rw [hk.precond_len _ _ _ _ _ h]; simp,
        fun s => s.host .A = a ∧ s.host .M = N.reciprocal (d.map (N.mul omega)), ⟨?_, ?_⟩, ?_⟩
      · rintro r z s ⟨h1, h2⟩ hr hz hzM hzA lr lz lhz
        show Step s (A.precond (s.host .A) (s.host .M) (s.host z) (if side && s.on r then s.dev r else s.host r) >>= _) z _
        have e1 : (if side && s.on r then s.dev r else s.host r) = s.get r := by
          unfold St.get
          rw [hr]
          cases side <;> rfl
        have e2 := hk.precond a (N.reciprocal (d.map (N.mul omega))) (s.host z) (List.replicate A.row N.zero) (s.get r) lhz
          (by simp)
        rw [e1, h1, h2, e2]
        cases A.precond a (N.reciprocal (d.map (N.mul omega))) (List.replicate A.row N.zero) (s.get r) with
        | ok l =>
          refine ⟨?_, fun e h => (by cases h), fun e h => (by cases h), fun e h => (by cases h)⟩
          intro l' hl'
          cases hl'
          refine ⟨_, rfl, ?_⟩
          cases side with
          | true =>
            refine ⟨?_, fun o => ?_, fun o ho => ?_, Or.inr ?_⟩
            · funext o
              by_cases ho : o = z
              · subst ho
                simp [St.send, hz]
              · simp [St.send, ho]
            · by_cases ho : o = z
              · subst ho
                simp [St.send, St.get]
              · simp [St.send, St.get, ho]
            · simp [St.send, ho]
            · simp [St.send]
          | false =>
            refine ⟨rfl, fun o => ?_, fun o ho => ?_, Or.inr ?_⟩
            · by_cases ho : o = z
              · subst ho
                simp [St.send, St.get, hz]
              · simp [St.send, St.get, ho]
            · simp [St.send, ho]
            · simp [St.send]
        | throw e =>
          exact ⟨fun l h => (by cases h), fun e h => (by cases h; rfl), fun e h => (by cases h), fun e h => (by cases h)⟩
        | abort e =>
          exact ⟨fun l h => (by cases h), fun e h => (by cases h), fun e h => (by cases h; rfl), fun e h => (by cases h)⟩
        | ub e =>
          exact ⟨fun l h => (by cases h), fun e h => (by cases h), fun e h => (by cases h), fun e h => (by cases h; rfl)⟩
      · rintro s s' y l ⟨h1, h2⟩ u hy hyA
        exact ⟨by rw [u.host _ (Ne.symm hyA), h1], by rw [u.host _ (Ne.symm hy), h2]⟩
      · rintro s hA ha ⟨hc, hM⟩
        obtain ⟨k1, k2⟩ := freshM_spec (gpu := side) (List.replicate A.row N.zero) s hA id hM
        obtain ⟨s1, e1, u1⟩ := (diag_step (A := A) (y := .M) (s := freshM side (List.replicate A.row N.zero) s)
          (side := side) (a := a) (by simp [k1, k2.on, hA]) (by rw [k2.get _ (by decide), ha])).1 d hd
        obtain ⟨s2, e2, u2⟩ := (call_step (s := s1) (side := side) (os := [.M]) (by simp [u1.on, k1]) .M
          (.ok ((s1.get .M).map (N.mul omega)))).1 _ rfl
        obtain ⟨s3, e3, u3⟩ := (call_step (s := s2) (side := side) (os := [.M]) (by simp [u2.on, u1.on, k1]) .M
          (.ok (N.reciprocal (s2.get .M)))).1 _ rfl
        have fr := ((k2.trans u1.frame).trans u2.frame).trans u3.frame
        have hon : s3.on .M = side := by rw [u3.on, u2.on, u1.on, k1]
        have hget : s3.get .M = N.reciprocal (d.map (N.mul omega)) := by rw [u3.get_eq, u2.get_eq, u1.get_eq]
        have hfr : Frame [.M] s3 (s3.recv side .M) := by
          cases side with
          | false => exact ⟨fun _ _ => rfl, fun _ _ => rfl, fun _ _ => rfl⟩
          | true =>
            refine ⟨fun o ho => ?_, fun o ho => ?_, fun o ho => ?_⟩ <;>
            · have : o ≠ .M := by simpa using ho
              simp [St.recv, St.get, hon, this]
        refine ⟨s3.recv side .M, ?_, fr.trans hfr, ?_, ?_⟩
        · rw [hcreate hrc, e1, Res.ok_bind]
          show call s1 [.M] .M (.ok ((s1.get .M).map (N.mul omega))) >>= _ = _
          rw [e2, Res.ok_bind]
          show call s2 [.M] .M (.ok (N.reciprocal (s2.get .M))) >>= _ = _
          rw [e3]
          rfl
        · rw [(fr.trans hfr).host _ (by decide), hc]
        · rw [← hget]
          cases side with
          | false => simp [St.recv, St.get, hon]
          | true => simp [St.recv, St.get, hon]
    · rw [hl]
      cases hd : (A.at_ a).diag with
      | ok d => exact Or.inl ⟨_, rfl⟩
      | _ =>
        refine Or.inr (fun s hA ha hM => ?_)
        obtain ⟨k1, k2⟩ := freshM_spec (gpu := side) (List.replicate A.row N.zero) s hA id hM.2
        have st := (diag_step (A := A) (y := .M) (s := freshM side (List.replicate A.row N.zero) s)
          (side := side) (a := a) (by simp [k1, k2.on, hA]) (by rw [k2.get _ (by decide), ha]))
        rw [hd] at st
        rw [hcreate hrc]
        obtain ⟨_, t1, t2, t3⟩ := st
        refine ⟨fun e h => ?_, fun e h => ?_, fun e h => ?_⟩ <;> cases h
        first
          | rw [t1 _ rfl]; rfl
          | rw [t2 _ rfl]; rfl
          | rw [t3 _ rfl]; rfl
  · have hl : sorPrecond N omega (A.at_ a) (A.precond a) = .throw "error A.row != A.col" := by
      unfold sorPrecond
      rw [if_pos (by simpa [MatD.at_] using hrc)]
    constructor
    · intro f hf
      rw [hl] at hf
      cases hf
    · refine Or.inr (fun s _ _ _ => ?_)
      rw [hl]
      have : (sorPC N side omega A).create s = .throw "error A.row != A.col" := if_pos hrc
      rw [this]
      exact ⟨fun e h => (by cases h; rfl), fun e h => (by cases h), fun e h => (by cases h)⟩

/-! ### Whole solves -/

theorem Frame.mono {os os' : List V} {s s' : St α} (h : Frame os s s') (hs : os ⊆ os') : Frame os' s s' :=
  ⟨fun o ho => h.on o (fun hm => ho (hs hm)), fun o ho => h.get o (fun hm => ho (hs hm)),
    fun o ho => h.host o (fun hm => ho (hs hm))⟩

theorem side_eq (hg : side = true → gpu = true) : side = (gpu && side) := by
  cases side with
  | false => simp
  | true => simp [hg rfl]

theorem vsub_len {N : Num α} {x y z : List α} {nz : Nat} (h : N.vsub x y nz = .ok z) : z.length = nz := by
  unfold Num.vsub at h
  obtain ⟨_, hc, h⟩ := Res.bind_eq_ok.mp h
  have := of_cassert hc
  cases h
  simp only [List.length_zipWith]
  omega

theorem vmul_len {N : Num α} {x y z : List α} {nz : Nat} (h : N.vmul x y nz = .ok z) : z.length = nz := by
  unfold Num.vmul at h
  obtain ⟨_, hc, h⟩ := Res.bind_eq_ok.mp h
  have := of_cassert hc
  cases h
  simp only [List.length_zipWith]
  omega

theorem checkStat_ok (hA : s.on .A = side) (hx : s.on .x = side) : checkStat s = .ok () := by
  unfold checkStat
  rw [if_neg]
  rw [hA, hx]
  simp

theorem cg_view {cfg : Cfg α} {A : MatD α} {pc : PC α} {P : List α → Bool → Prop}
    {create : Res (List α → Res (List α))} (hm : Models pc side A.row a P create) (hg : side = true → gpu = true)
    (hA : s.on .A = side) (hx : s.on .x = side) (hb : s.on .b = side) (ha : s.get .A = a)
    (hp : P (s.host .A) (s.on .M)) :
    view (cg N gpu cfg A pc s) = CG.solve N cfg (A.at_ a) create (s.get .x) (s.get .b) := by
  unfold cg CG.solve CG.monolish CG.init
  split
  swap
  · rfl
  by_cases hrc : A.row = A.col
  swap
  · rw [if_pos hrc, if_pos (by simpa [MatD.at_] using hrc)]
    rfl
  rw [if_neg (by simp [hrc]), if_neg (by simp [MatD.at_, hrc]), checkStat_ok hA hx, Res.ok_bind]
  have eA : (newAll (List.replicate A.row N.zero) [.r, .p, .q, .z] s).on .A = side := by
    rw [(newAll_spec _ _ s).2.on _ (by decide), hA]
  obtain ⟨w1, w2⟩ := work_spec (List.replicate A.row N.zero) [.r, .p, .q, .z] s (side_eq hg)
  dsimp only at w1 w2 ⊢
  rw [eA]
  generalize (if side then sendAll gpu [.r, .p, .q, .z] (newAll (List.replicate A.row N.zero) [.r, .p, .q, .z] s)
    else newAll (List.replicate A.row N.zero) [.r, .p, .q, .z] s) = s0 at w1 w2 ⊢
  simp only [res_bind_assoc, Res.ok_bind]
  refine view_create hm (by rw [w2.on _ (by decide), hA]) (by rw [w2.get _ (by decide), ha])
    (by rw [w2.host _ (by decide), w2.on _ (by decide)]; exact hp) (fun f Inv s1 _ hk hap fr hi => ?_)
  have on1 : ∀ o ∈ [V.A, V.x, V.b, V.r, V.p, V.q, V.z], s1.on o = side := by
    simp only [List.forall_mem_cons, List.not_mem_nil, false_implies, implies_true, and_true]
    refine ⟨?_, ?_, ?_, ?_, ?_, ?_, ?_⟩ <;> rw [fr.on _ (by decide)]
    · rw [w2.on _ (by decide), hA]
    · rw [w2.on _ (by decide), hx]
    · rw [w2.on _ (by decide), hb]
    all_goals exact (w1 _ (by decide)).1
  have hz1 : ∀ o ∈ [V.r, V.p, V.q, V.z], s1.get o = List.replicate A.row N.zero ∧
      s1.host o = List.replicate A.row N.zero := by
    intro o ho
    have hoM : o ∉ [V.M] := by
      intro h
      have : o = V.M := by simpa using h
      subst this
      exact absurd ho (by decide)
    exact ⟨by rw [fr.get o hoM]; exact (w1 o ho).2.1, by rw [fr.host o hoM]; exact (w1 o ho).2.2⟩
  have gA : s1.get .A = a := by rw [fr.get _ (by decide), w2.get _ (by decide), ha]
  have gx : s1.get .x = s.get .x := by rw [fr.get _ (by decide), w2.get _ (by decide)]
  have gb : s1.get .b = s.get .b := by rw [fr.get _ (by decide), w2.get _ (by decide)]
  simp only [List.forall_mem_cons, List.not_mem_nil, false_implies, implies_true, and_true] at on1
  obtain ⟨oA, ox, ob, or_, op, oq, oz⟩ := on1
  refine view_step (matvec_step (side := side) (by simp [oA, ox, oq]) gA gx) (fun q s2 hq u2 => ?_)
  have o2 := u2.on
  refine view_step (sub_step (side := side) (n := A.row) (by simp [o2, ob, oq, or_])
    (by rw [u2.get_ne (by decide)]; exact gb) u2.get_eq
    (by rw [u2.get_ne (by decide), (hz1 _ (by decide)).1]; simp)) (fun r s3 hr u3 => ?_)
  have o3 : s3.on = s1.on := by rw [u3.on, o2]
  have lr : r.length = A.row := vsub_len hr
  have i2 := hap.stable _ _ _ _ hi u2 (by decide) (by decide)
  have i3 := hap.stable _ _ _ _ i2 u3 (by decide) (by decide)
  have hz3 : s3.get .z = List.replicate A.row N.zero := by
    rw [u3.get_ne (by decide), u2.get_ne (by decide), (hz1 _ (by decide)).1]
  have hhz3 : s3.host .z = List.replicate A.row N.zero := by
    rw [u3.host _ (by decide), u2.host _ (by decide), (hz1 _ (by decide)).2]
  have st := hap.apply .r .z s3 i3 (by rw [o3, or_]) (by rw [o3, oz]) (by decide) (by decide)
    (by rw [u3.get_eq, lr]) (by rw [hz3]; simp) (by rw [hhz3]; simp)
  rw [u3.get_eq] at st
  refine view_step st (fun z s4 hz u4 => ?_)
  have o4 : s4.on = s1.on := by rw [u4.on, o3]
  have lz : z.length = A.row := hk _ _ lr hz
  refine view_step (copy_step (side := side) (n := A.row) (by simp [o4, oz, op]) u4.get_eq
    (by rw [u4.get_ne (by decide), u3.get_ne (by decide), u2.get_ne (by decide), (hz1 _ (by decide)).1]; simp))
    (fun p s5 hp' u5 => ?_)
  have o5 : s5.on = s1.on := by rw [u5.on, o4]
  have i4 := hap.stable _ _ _ _ i3 u4 (by decide) (by decide)
  have i5 := hap.stable _ _ _ _ i4 u5 (by decide) (by decide)
  refine cgLoop_view hk hap _ _ _ _ ⟨?_, ?_, ?_, ?_, u5.get_eq, ?_, lr, lz, ?_⟩ i5
  · simp [o5, oA, ox, or_, op, oq, oz]
  · rw [u5.get_ne (by decide), u4.get_ne (by decide), u3.get_ne (by decide), u2.get_ne (by decide), gA]
  · rw [u5.get_ne (by decide), u4.get_ne (by decide), u3.get_ne (by decide), u2.get_ne (by decide), gx]
  · rw [u5.get_ne (by decide), u4.get_ne (by decide)]
    exact u3.get_eq
  · rw [u5.get_ne (by decide)]
    exact u4.get_eq
  · rw [u5.host _ (by decide)]
    rcases u4.hy with h4 | h4
    · rw [h4, hhz3]
      simp
    · rw [h4, lz]

/-! ### BiCGSTAB -/

/-- where the objects of BiCGSTAB are and what they contain during the loop -/
structure BiInv (side : Bool) (n : Nat) (a r0 : List α) (s : St α) (st : BiCG.St α) : Prop where
  on : ∀ o ∈ [V.A, V.x, V.r, V.r0, V.p, V.phat, V.s, V.shat, V.v, V.t], s.on o = side
  a : s.get .A = a
  x : s.get .x = st.x
  r : s.get .r = st.r
  r0 : s.get .r0 = r0
  p : s.get .p = st.p
  v : s.get .v = st.v
  lr : st.r.length = n
  lp : st.p.length = n
  ls : (s.get .s).length = n
  lphat : (s.get .phat).length = n
  lshat : (s.get .shat).length = n
  hphat : (s.host .phat).length = n
  hshat : (s.host .shat).length = n

theorem view_direction {A : MatD α} {iter : Nat} {rho : α} {st : BiCG.St α} {pc : PC α} {Inv : St α → Prop}
    {f : List α → Res (List α)} {r0 : List α} (hap : Applies pc side A.row Inv f)
    (h : BiInv side A.row a r0 s st) (hi : Inv s) {k : St α → Res (Ret α)} {g : List α → Res (Out α)}
    (hfg : ∀ p s', p.length = A.row → s'.on = s.on → Frame [.p] s s' → s'.get .p = p → Inv s' → view (k s') = g p) :
    view (bicgDirection N iter rho st.rhoOld st.alpha st.omega s >>= k) =
      (BiCG.direction N (A.at_ a).row iter st rho >>= g) := by
  have ho := h.on
  simp only [List.forall_mem_cons, List.not_mem_nil, false_implies, implies_true, and_true] at ho
  obtain ⟨_, _, or_, _, op, _, _, _, ov, _⟩ := ho
  unfold bicgDirection BiCG.direction
  split
  · refine view_step (copy_step (side := side) (n := A.row) (by simp [or_, op]) h.r (by rw [h.p, h.lp]))
      (fun p s1 hp u1 => ?_)
    exact hfg p s1 (copyV_len hp) u1.on u1.frame u1.get_eq (hap.stable _ _ _ _ hi u1 (by decide) (by decide))
  · simp only [res_bind_assoc]
    refine view_step (axpy_step (side := side) (by simp [ov, op]) h.v h.p) (fun p1 s1 hp1 u1 => ?_)
    refine view_step (xpay_step (side := side) (by simp [u1.on, or_, op]) (by rw [u1.get_ne (by decide)]; exact h.r)
      u1.get_eq) (fun p2 s2 hp2 u2 => ?_)
    have i1 := hap.stable _ _ _ _ hi u1 (by decide) (by decide)
    exact hfg p2 s2 (by rw [xpay_len hp2, axpy_len hp1, h.lp]) (by rw [u2.on, u1.on]) (u1.frame.trans u2.frame) u2.get_eq
      (hap.stable _ _ _ _ i1 u2 (by decide) (by decide))

theorem bicgLoop_view {cfg : Cfg α} {A : MatD α} {pc : PC α} {Inv : St α → Prop}
    {f : List α → Res (List α)} (hf : Keeps A.row f) (hpc : Applies pc side A.row Inv f) {r0 : List α} :
    ∀ (k iter : Nat) (s : St α) (st : BiCG.St α), BiInv side A.row a r0 s st → Inv s →
      view (bicgLoop N cfg A pc k iter st.rhoOld st.alpha st.omega s) = BiCG.loop N cfg (A.at_ a) f r0 k iter st
  | 0, _, s, st, h, _ => view_atMax h.x h.r
  | k + 1, iter, s, st, h, hi => by
    unfold bicgLoop BiCG.loop
    have ho := h.on
    simp only [List.forall_mem_cons, List.not_mem_nil, false_implies, implies_true, and_true] at ho
    obtain ⟨oA, ox, or_, or0, op, oph, os, osh, ov, ot⟩ := ho
    refine dot_view (side := side) (by simp [or_, or0]) h.r h.r0 (fun rho _ => ?_)
    split
    · rw [h.r]
      refine view_pure _ (fun fr _ => ?_)
      show Res.ok _ = Res.ok _
      simp [out, h.x]
    · refine view_direction hpc h hi (fun p s1 lp o1 f1 gp i1 => ?_)
      have st2 := hpc.apply .p .phat s1 i1 (by rw [o1, op]) (by rw [o1, oph]) (by decide) (by decide) (by rw [gp, lp])
        (by rw [f1.get _ (by decide), h.lphat]) (by rw [f1.host _ (by decide), h.hphat])
      rw [gp] at st2
      refine view_step st2 (fun phat s2 hphat u2 => ?_)
      have o2 : s2.on = s.on := by rw [u2.on, o1]
      have i2 := hpc.stable _ _ _ _ i1 u2 (by decide) (by decide)
      have lph : phat.length = A.row := hf _ _ lp hphat
      refine view_step (matvec_step (side := side) (by simp [o2, oA, oph, ov])
        (by rw [u2.get_ne (by decide), f1.get _ (by decide), h.a]) u2.get_eq) (fun v s3 hv u3 => ?_)
      have o3 : s3.on = s.on := by rw [u3.on, o2]
      have i3 := hpc.stable _ _ _ _ i2 u3 (by decide) (by decide)
      have keep3 : ∀ o, o ∉ [V.p] → o ≠ .phat → o ≠ .v → s3.get o = s.get o := by
        intro o h1 h2 h3
        rw [u3.get_ne h3, u2.get_ne h2, f1.get o h1]
      have khost3 : ∀ o, o ∉ [V.p] → o ≠ .phat → o ≠ .v → s3.host o = s.host o := by
        intro o h1 h2 h3
        rw [u3.host _ h3, u2.host _ h2, f1.host o h1]
      refine dot_view (side := side) (by simp [o3, ov, or0]) u3.get_eq
        (by rw [keep3 _ (by decide) (by decide) (by decide), h.r0]) (fun vr0 _ => ?_)
      refine view_step (axpyz_step (side := side) (n := A.row) (by simp [o3, ov, or_, os]) u3.get_eq
        (by rw [keep3 _ (by decide) (by decide) (by decide), h.r])
        (by rw [keep3 _ (by decide) (by decide) (by decide), h.ls])) (fun sv s4 hsv u4 => ?_)
      have o4 : s4.on = s.on := by rw [u4.on, o3]
      have i4 := hpc.stable _ _ _ _ i3 u4 (by decide) (by decide)
      have lsv : sv.length = A.row := axpyz_len hsv
      have st5 := hpc.apply .s .shat s4 i4 (by rw [o4, os]) (by rw [o4, osh]) (by decide) (by decide)
        (by rw [u4.get_eq, lsv])
        (by rw [u4.get_ne (by decide), keep3 _ (by decide) (by decide) (by decide), h.lshat])
        (by rw [u4.host _ (by decide), khost3 _ (by decide) (by decide) (by decide), h.hshat])
      rw [u4.get_eq] at st5
      refine view_step st5 (fun shat s5 hshat u5 => ?_)
      have o5 : s5.on = s.on := by rw [u5.on, o4]
      have i5 := hpc.stable _ _ _ _ i4 u5 (by decide) (by decide)
      have lsh : shat.length = A.row := hf _ _ lsv hshat
      refine view_step (matvec_step (side := side) (by simp [o5, oA, osh, ot])
        (by rw [u5.get_ne (by decide), u4.get_ne (by decide), keep3 _ (by decide) (by decide) (by decide), h.a])
        u5.get_eq) (fun t s6 ht u6 => ?_)
      have o6 : s6.on = s.on := by rw [u6.on, o5]
      have i6 := hpc.stable _ _ _ _ i5 u6 (by decide) (by decide)
      have gs6 : s6.get .s = sv := by
        rw [u6.get_ne (by decide), u5.get_ne (by decide)]
        exact u4.get_eq
      have keep6 : ∀ o, o ∉ [V.p] → o ≠ .phat → o ≠ .v → o ≠ .s → o ≠ .shat → o ≠ .t → s6.get o = s.get o := by
        intro o h1 h2 h3 h4 h5 h6
        rw [u6.get_ne h6, u5.get_ne h5, u4.get_ne h4, keep3 o h1 h2 h3]
      have gx6 : s6.get .x = st.x := by
        rw [keep6 _ (by decide) (by decide) (by decide) (by decide) (by decide) (by decide), h.x]
      have gr6 : s6.get .r = st.r := by
        rw [keep6 _ (by decide) (by decide) (by decide) (by decide) (by decide) (by decide), h.r]
      have gph6 : s6.get .phat = phat := by
        rw [u6.get_ne (by decide), u5.get_ne (by decide), u4.get_ne (by decide), u3.get_ne (by decide)]
        exact u2.get_eq
      have gsh6 : s6.get .shat = shat := by
        rw [u6.get_ne (by decide)]
        exact u5.get_eq
      refine dot_view (side := side) (by simp [o6, os, ot]) u6.get_eq gs6 (fun ts _ => ?_)
      refine dot_view (side := side) (by simp [o6, ot]) u6.get_eq u6.get_eq (fun tt _ => ?_)
      dsimp only
      split
      · rw [gr6]
        refine view_pure _ (fun fr _ => ?_)
        show Res.ok _ = Res.ok _
        simp [out, gx6]
      · refine view_step (axpy_step (side := side) (by simp [o6, oph, ox]) gph6 gx6) (fun x1 s7 hx1 u7 => ?_)
        have o7 : s7.on = s.on := by rw [u7.on, o6]
        have i7 := hpc.stable _ _ _ _ i6 u7 (by decide) (by decide)
        refine view_step (axpy_step (side := side) (by simp [o7, osh, ox])
          (by rw [u7.get_ne (by decide)]; exact gsh6) u7.get_eq) (fun x2 s8 hx2 u8 => ?_)
        have o8 : s8.on = s.on := by rw [u8.on, o7]
        have i8 := hpc.stable _ _ _ _ i7 u8 (by decide) (by decide)
        refine view_step (axpyz_step (side := side) (n := A.row) (by simp [o8, ot, os, or_])
          (by rw [u8.get_ne (by decide), u7.get_ne (by decide)]; exact u6.get_eq)
          (by rw [u8.get_ne (by decide), u7.get_ne (by decide)]; exact gs6)
          (by rw [u8.get_ne (by decide), u7.get_ne (by decide), gr6, h.lr])) (fun r s9 hr u9 => ?_)
        have o9 : s9.on = s.on := by rw [u9.on, o8]
        have i9 := hpc.stable _ _ _ _ i8 u9 (by decide) (by decide)
        have gx9 : s9.get .x = x2 := by
          rw [u9.get_ne (by decide)]
          exact u8.get_eq
        rw [u9.get_eq]
        refine view_pure _ (fun resid _ => ?_)
        have keep9 : ∀ o, o ≠ .x → o ≠ .r → s9.get o = s6.get o := by
          intro o h1 h2
          rw [u9.get_ne h2, u8.get_ne h1, u7.get_ne h1]
        have kh9 : ∀ o, o ≠ .x → o ≠ .r → s9.host o = s6.host o := by
          intro o h1 h2
          rw [u9.host _ h2, u8.host _ h1, u7.host _ h1]
        refine view_finish gx9 u9.get_eq (bicgLoop_view hf hpc k (iter + 1) s9
          { x := x2, r := r, p := p, v := v, rhoOld := rho, alpha := N.div rho vr0, omega := N.div ts tt } ?_ i9)
        refine ⟨?_, ?_, gx9, u9.get_eq, ?_, ?_, ?_, axpyz_len hr, lp, ?_, ?_, ?_, ?_, ?_⟩
        · simp [o9, oA, ox, or_, or0, op, oph, os, osh, ov, ot]
        · rw [keep9 _ (by decide) (by decide),
            keep6 _ (by decide) (by decide) (by decide) (by decide) (by decide) (by decide), h.a]
        · rw [keep9 _ (by decide) (by decide),
            keep6 _ (by decide) (by decide) (by decide) (by decide) (by decide) (by decide), h.r0]
        · rw [keep9 _ (by decide) (by decide), u6.get_ne (by decide), u5.get_ne (by decide), u4.get_ne (by decide),
            u3.get_ne (by decide), u2.get_ne (by decide)]
          exact gp
        · rw [keep9 _ (by decide) (by decide), u6.get_ne (by decide), u5.get_ne (by decide), u4.get_ne (by decide)]
          exact u3.get_eq
        · rw [keep9 _ (by decide) (by decide), gs6, lsv]
        · rw [keep9 _ (by decide) (by decide), gph6, lph]
        · rw [keep9 _ (by decide) (by decide), gsh6, lsh]
        · rw [kh9 _ (by decide) (by decide), u6.host _ (by decide), u5.host _ (by decide), u4.host _ (by decide),
            u3.host _ (by decide)]
          rcases u2.hy with e | e
          · rw [e, f1.host _ (by decide), h.hphat]
          · rw [e, lph]
        · rw [kh9 _ (by decide) (by decide), u6.host _ (by decide)]
          rcases u5.hy with e | e
          · rw [e, u4.host _ (by decide), khost3 _ (by decide) (by decide) (by decide), h.hshat]
          · rw [e, lsh]

theorem bicg_view {cfg : Cfg α} {A : MatD α} {pc : PC α} {P : List α → Bool → Prop}
    {create : Res (List α → Res (List α))} (hm : Models pc side A.row a P create) (hg : side = true → gpu = true)
    (hmv : ∀ a x y, A.mv a x = .ok y → y.length = A.row)
    (hA : s.on .A = side) (hx : s.on .x = side) (hb : s.on .b = side) (ha : s.get .A = a)
    (hp : P (s.host .A) (s.on .M)) :
    view (bicg N gpu cfg A pc s) = BiCG.solve N cfg (A.at_ a) create (s.get .x) (s.get .b) := by
  unfold bicg BiCG.solve BiCG.monolish
  split
  swap
  · rfl
  by_cases hrc : A.row = A.col
  swap
  · rw [if_pos hrc, if_pos (by simpa [MatD.at_] using hrc)]
    rfl
  rw [if_neg (by simp [hrc]), if_neg (by simp [MatD.at_, hrc]), checkStat_ok hA hx, Res.ok_bind]
  have eA : (newAll (List.replicate A.row N.zero) [.r, .r0, .p, .phat, .s, .shat, .v, .t] s).on .A = side := by
    rw [(newAll_spec _ _ s).2.on _ (by decide), hA]
  obtain ⟨w1, w2⟩ := work_spec (List.replicate A.row N.zero) [.r, .r0, .p, .phat, .s, .shat, .v, .t] s (side_eq hg)
  dsimp only at w1 w2 ⊢
  rw [eA]
  generalize (if side then sendAll gpu [.r, .r0, .p, .phat, .s, .shat, .v, .t]
      (newAll (List.replicate A.row N.zero) [.r, .r0, .p, .phat, .s, .shat, .v, .t] s)
    else newAll (List.replicate A.row N.zero) [.r, .r0, .p, .phat, .s, .shat, .v, .t] s) = s0 at w1 w2 ⊢
  refine view_create hm (by rw [w2.on _ (by decide), hA]) (by rw [w2.get _ (by decide), ha])
    (by rw [w2.host _ (by decide), w2.on _ (by decide)]; exact hp) (fun f Inv s1 _ hk hap fr hi => ?_)
  have on1 : ∀ o ∈ [V.A, V.x, V.b, V.r, V.r0, V.p, V.phat, V.s, V.shat, V.v, V.t], s1.on o = side := by
    simp only [List.forall_mem_cons, List.not_mem_nil, false_implies, implies_true, and_true]
    refine ⟨?_, ?_, ?_, ?_, ?_, ?_, ?_, ?_, ?_, ?_, ?_⟩ <;> rw [fr.on _ (by decide)]
    · rw [w2.on _ (by decide), hA]
    · rw [w2.on _ (by decide), hx]
    · rw [w2.on _ (by decide), hb]
    all_goals exact (w1 _ (by decide)).1
  have hz1 : ∀ o ∈ [V.r, V.r0, V.p, V.phat, V.s, V.shat, V.v, V.t], s1.get o = List.replicate A.row N.zero ∧
      s1.host o = List.replicate A.row N.zero := by
    intro o ho
    have hoM : o ∉ [V.M] := by
      intro h
      have : o = V.M := by simpa using h
      subst this
      exact absurd ho (by decide)
    exact ⟨by rw [fr.get o hoM]; exact (w1 o ho).2.1, by rw [fr.host o hoM]; exact (w1 o ho).2.2⟩
  have gA : s1.get .A = a := by rw [fr.get _ (by decide), w2.get _ (by decide), ha]
  have gx : s1.get .x = s.get .x := by rw [fr.get _ (by decide), w2.get _ (by decide)]
  have gb : s1.get .b = s.get .b := by rw [fr.get _ (by decide), w2.get _ (by decide)]
  simp only [List.forall_mem_cons, List.not_mem_nil, false_implies, implies_true, and_true] at on1
  obtain ⟨oA, ox, ob, or_, or0, op, oph, os, osh, ov, ot⟩ := on1
  refine view_step (matvec_step (side := side) (by simp [oA, ox, or_]) gA gx) (fun q s2 hq u2 => ?_)
  have o2 := u2.on
  refine view_step (sub_step (side := side) (n := A.row) (by simp [o2, ob, or_])
    (by rw [u2.get_ne (by decide)]; exact gb) u2.get_eq (by rw [u2.get_eq, hmv _ _ _ hq])) (fun r s3 hr u3 => ?_)
  have o3 : s3.on = s1.on := by rw [u3.on, o2]
  have lr : r.length = A.row := vsub_len hr
  obtain ⟨s4, e4, u4⟩ := (copy_step (s := s3) (x := .r) (y := .r0) (side := side) (n := A.row) (by simp [o3, or_, or0])
    u3.get_eq (by rw [u3.get_ne (by decide), u2.get_ne (by decide), (hz1 _ (by decide)).1]; simp)).1 r
      (by unfold Num.copyV; rw [cassert_decide lr]; rfl)
  rw [e4, Res.ok_bind]
  have o4 : s4.on = s1.on := by rw [u4.on, o3]
  have i2 := hap.stable _ _ _ _ hi u2 (by decide) (by decide)
  have i3 := hap.stable _ _ _ _ i2 u3 (by decide) (by decide)
  have i4 := hap.stable _ _ _ _ i3 u4 (by decide) (by decide)
  have keep : ∀ o, o ≠ .r → o ≠ .r0 → s4.get o = s1.get o := by
    intro o h1 h2
    rw [u4.get_ne h2, u3.get_ne h1, u2.get_ne h1]
  have kh : ∀ o, o ≠ .r → o ≠ .r0 → s4.host o = s1.host o := by
    intro o h1 h2
    rw [u4.host _ h2, u3.host _ h1, u2.host _ h1]
  refine bicgLoop_view hk hap _ _ _
    { x := s.get .x, r := r, p := List.replicate A.row N.zero, v := List.replicate A.row N.zero, rhoOld := N.one,
      alpha := N.one, omega := N.one } ⟨?_, ?_, ?_, ?_, u4.get_eq, ?_, ?_, lr, by simp, ?_, ?_, ?_, ?_, ?_⟩ i4
  · simp [o4, oA, ox, or_, or0, op, oph, os, osh, ov, ot]
  · rw [keep _ (by decide) (by decide), gA]
  · rw [keep _ (by decide) (by decide), gx]
  · rw [u4.get_ne (by decide)]
    exact u3.get_eq
  · rw [keep _ (by decide) (by decide), (hz1 _ (by decide)).1]
  · rw [keep _ (by decide) (by decide), (hz1 _ (by decide)).1]
  · rw [keep _ (by decide) (by decide), (hz1 _ (by decide)).1]; simp
  · rw [keep _ (by decide) (by decide), (hz1 _ (by decide)).1]; simp
  · rw [keep _ (by decide) (by decide), (hz1 _ (by decide)).1]; simp
  · rw [kh _ (by decide) (by decide), (hz1 _ (by decide)).2]; simp
  · rw [kh _ (by decide) (by decide), (hz1 _ (by decide)).2]; simp

/-! ### Jacobi and SOR -/

/-- where the objects of the Jacobi and SOR solvers are and what they contain during the loop -/
structure JInv (side : Bool) (n : Nat) (a b d : List α) (s : St α) (x r : List α) : Prop where
  lx : x.length = n
  lr : r.length = n
  on : ∀ o ∈ [V.A, V.x, V.b, V.r, V.t, V.s, V.d], s.on o = side
  a : s.get .A = a
  x : s.get .x = x
  b : s.get .b = b
  d : s.get .d = d
  r : s.get .r = r
  ls : (s.get .s).length = n
  hs : (s.host .s).length = n

theorem jacobiLoop_view {cfg : Cfg α} {A : MatD α} {pc : PC α} {Inv : St α → Prop}
    {f : List α → Res (List α)} (hf : Keeps A.row f) (hpc : Applies pc side A.row Inv f) {b d : List α} {binv : α} :
    ∀ (k iter : Nat) (s : St α) (x r : List α), JInv side A.row a b d s x r → Inv s →
      view (jacobiLoop N cfg A pc binv k iter s) = Jacobi.loop N cfg (A.at_ a) f b d binv k iter x r
  | 0, _, s, x, r, h, _ => view_atMax h.x h.r
  | k + 1, iter, s, x, r, h, hi => by
    unfold jacobiLoop Jacobi.loop
    have ho := h.on
    simp only [List.forall_mem_cons, List.not_mem_nil, false_implies, implies_true, and_true] at ho
    obtain ⟨oA, ox, ob, or_, ot, os, od⟩ := ho
    have st1 := hpc.apply .x .s s hi ox os (by decide) (by decide) (by rw [h.x, h.lx]) h.ls h.hs
    rw [h.x] at st1
    refine view_step st1 (fun w s1 hw u1 => ?_)
    have lw : w.length = A.row := hf _ _ h.lx hw
    have i1 := hpc.stable _ _ _ _ hi u1 (by decide) (by decide)
    refine view_step (copy_step (side := side) (n := A.row) (by simp [u1.on, ox, os])
      (by rw [u1.get_ne (by decide), h.x]) (by rw [u1.get_eq, lw])) (fun sv s2 hsv u2 => ?_)
    have o2 : s2.on = s.on := by rw [u2.on, u1.on]
    have i2 := hpc.stable _ _ _ _ i1 u2 (by decide) (by decide)
    have lsv : sv.length = A.row := copyV_len hsv
    have k2 : ∀ o, o ≠ .s → s2.get o = s.get o := fun o h1 => by rw [u2.get_ne h1, u1.get_ne h1]
    refine view_step (matvec_step (side := side) (by simp [o2, oA, os, ot]) (by rw [k2 _ (by decide), h.a]) u2.get_eq)
      (fun t s3 ht u3 => ?_)
    have o3 : s3.on = s.on := by rw [u3.on, o2]
    have i3 := hpc.stable _ _ _ _ i2 u3 (by decide) (by decide)
    have k3 : ∀ o, o ≠ .s → o ≠ .t → s3.get o = s.get o := fun o h1 h2 => by rw [u3.get_ne h2, k2 o h1]
    refine view_step (axpyz_step (side := side) (n := A.row) (by simp [o3, ot, ob, or_]) u3.get_eq
      (by rw [k3 _ (by decide) (by decide), h.b]) (by rw [k3 _ (by decide) (by decide), h.r, h.lr]))
      (fun r1 s4 hr1 u4 => ?_)
    have o4 : s4.on = s.on := by rw [u4.on, o3]
    have i4 := hpc.stable _ _ _ _ i3 u4 (by decide) (by decide)
    have k4 : ∀ o, o ≠ .s → o ≠ .t → o ≠ .r → s4.get o = s.get o := fun o h1 h2 h3 => by rw [u4.get_ne h3, k3 o h1 h2]
    have lr1 : r1.length = A.row := axpyz_len hr1
    dsimp only
    rw [u4.get_eq]
    refine view_step (mul_step (side := side) (n := A.row) (by simp [o4, or_, od]) u4.get_eq
      (by rw [k4 _ (by decide) (by decide) (by decide), h.d]) (by rw [u4.get_eq, lr1])) (fun r2 s5 hr2 u5 => ?_)
    have o5 : s5.on = s.on := by rw [u5.on, o4]
    have i5 := hpc.stable _ _ _ _ i4 u5 (by decide) (by decide)
    have k5 : ∀ o, o ≠ .s → o ≠ .t → o ≠ .r → s5.get o = s.get o := fun o h1 h2 h3 => by rw [u5.get_ne h3, k4 o h1 h2 h3]
    have gx5 : s5.get .x = x := by rw [k5 _ (by decide) (by decide) (by decide), h.x]
    refine view_step (add_step (side := side) (n := x.length) (by simp [o5, or_, ox]) gx5 u5.get_eq (by rw [gx5]))
      (fun x1 s6 hx1 u6 => ?_)
    have o6 : s6.on = s.on := by rw [u6.on, o5]
    have i6 := hpc.stable _ _ _ _ i5 u6 (by decide) (by decide)
    have gr6 : s6.get .r = r2 := by
      rw [u6.get_ne (by decide)]
      exact u5.get_eq
    have k6 : ∀ o, o ≠ .s → o ≠ .t → o ≠ .r → o ≠ .x → s6.get o = s.get o :=
      fun o h1 h2 h3 h4 => by rw [u6.get_ne h4, k5 o h1 h2 h3]
    refine view_finish u6.get_eq gr6 (jacobiLoop_view hf hpc k (iter + 1) s6 x1 r2 ?_ i6)
    refine ⟨by rw [vadd_len hx1, h.lx], vmul_len hr2, ?_, ?_, u6.get_eq, ?_, ?_, gr6, ?_, ?_⟩
    · simp [o6, oA, ox, ob, or_, ot, os, od]
    · rw [k6 _ (by decide) (by decide) (by decide) (by decide), h.a]
    · rw [k6 _ (by decide) (by decide) (by decide) (by decide), h.b]
    · rw [k6 _ (by decide) (by decide) (by decide) (by decide), h.d]
    · rw [u6.get_ne (by decide), u5.get_ne (by decide), u4.get_ne (by decide), u3.get_ne (by decide), u2.get_eq, lsv]
    · rw [u6.host _ (by decide), u5.host _ (by decide), u4.host _ (by decide), u3.host _ (by decide)]
      rcases u2.hy with e | e
      · rw [e]
        rcases u1.hy with e | e
        · rw [e, h.hs]
        · rw [e, lw]
      · rw [e, lsv]

/-- the beginning of the Jacobi and SOR solvers: the working vectors are sent in any case -/
theorem jwork_spec (l : List α) (s : St α) (hg : side = gpu) :
    (∀ o ∈ [V.r, V.t, V.s, V.d], (sendAll gpu [.r, .t, .s, .d] (newAll l [.r, .t, .s, .d] s)).on o = side ∧
      (sendAll gpu [.r, .t, .s, .d] (newAll l [.r, .t, .s, .d] s)).get o = l ∧
      (sendAll gpu [.r, .t, .s, .d] (newAll l [.r, .t, .s, .d] s)).host o = l) ∧
    Frame [.r, .t, .s, .d] s (sendAll gpu [.r, .t, .s, .d] (newAll l [.r, .t, .s, .d] s)) :=
  work_spec (gpu := gpu) (side := side) l [.r, .t, .s, .d] s (go := true) (by simp [hg])

theorem jacobi_view {cfg : Cfg α} {A : MatD α} {pc : PC α} {P : List α → Bool → Prop}
    {create : Res (List α → Res (List α))} (hm : Models pc side A.row a P create) (hg : side = gpu)
    (hA : s.on .A = side) (hx : s.on .x = side) (hb : s.on .b = side) (ha : s.get .A = a)
    (hp : P (s.host .A) (s.on .M)) (hlx : (s.get .x).length = A.row) :
    view (jacobi N gpu cfg A pc s) = Jacobi.solve N cfg (A.at_ a) create (s.get .x) (s.get .b) := by
  unfold jacobi Jacobi.solve Jacobi.monolish
  split
  swap
  · rfl
  by_cases hrc : A.row = A.col
  swap
  · rw [if_pos hrc, if_pos (by simpa [MatD.at_] using hrc)]
    rfl
  rw [if_neg (by simp [hrc]), if_neg (by simp [MatD.at_, hrc]), checkStat_ok hA hx, Res.ok_bind]
  obtain ⟨w1, w2⟩ := jwork_spec (List.replicate A.row N.zero) s hg
  dsimp only at w1 w2 ⊢
  generalize sendAll gpu [.r, .t, .s, .d] (newAll (List.replicate A.row N.zero) [.r, .t, .s, .d] s) = s0 at w1 w2 ⊢
  have gb : s0.get .b = s.get .b := w2.get _ (by decide)
  rw [gb]
  have on0 : ∀ o ∈ [V.A, V.x, V.b, V.r, V.t, V.s, V.d], s0.on o = side := by
    simp only [List.forall_mem_cons, List.not_mem_nil, false_implies, implies_true, and_true]
    refine ⟨?_, ?_, ?_, ?_, ?_, ?_, ?_⟩
    · rw [w2.on _ (by decide), hA]
    · rw [w2.on _ (by decide), hx]
    · rw [w2.on _ (by decide), hb]
    all_goals exact (w1 _ (by decide)).1
  simp only [List.forall_mem_cons, List.not_mem_nil, false_implies, implies_true, and_true] at on0
  obtain ⟨oA, ox, ob, or_, ot, os, od⟩ := on0
  refine view_step (diag_step (side := side) (by simp [oA, od]) (by rw [w2.get _ (by decide), ha])) (fun d0 s1 hd0 u1 => ?_)
  obtain ⟨s2, e2, u2⟩ := (call_step (s := s1) (side := side) (os := [.d]) (by simp [u1.on, od]) .d
    (.ok (N.reciprocal (s1.get .d)))).1 _ rfl
  have e2' : reciprocal N .d s1 = .ok s2 := e2
  rw [e2', Res.ok_bind]
  have o2 : s2.on = s0.on := by rw [u2.on, u1.on]
  have k2 : ∀ o, o ≠ .d → s2.get o = s0.get o := fun o h1 => by rw [u2.get_ne h1, u1.get_ne h1]
  have h2 : ∀ o, o ≠ .d → s2.host o = s0.host o := fun o h1 => by rw [u2.host _ h1, u1.host _ h1]
  refine view_create hm (by rw [o2, oA]) (by rw [k2 _ (by decide), w2.get _ (by decide), ha])
    (by rw [h2 _ (by decide), o2, w2.host _ (by decide), w2.on _ (by decide)]; exact hp)
    (fun f Inv s3 _ hk hap fr hi => ?_)
  refine jacobiLoop_view hk hap _ _ _ _ _ ⟨hlx, by simp [MatD.at_], ?_, ?_, ?_, ?_, ?_, ?_, ?_, ?_⟩ hi
  · simp only [List.forall_mem_cons, List.not_mem_nil, false_implies, implies_true, and_true]
    refine ⟨?_, ?_, ?_, ?_, ?_, ?_, ?_⟩ <;> rw [fr.on _ (by decide), o2] <;> assumption
  · rw [fr.get _ (by decide), k2 _ (by decide), w2.get _ (by decide), ha]
  · rw [fr.get _ (by decide), k2 _ (by decide), w2.get _ (by decide)]
  · rw [fr.get _ (by decide), k2 _ (by decide), gb]
  · rw [fr.get _ (by decide), u2.get_eq, u1.get_eq]
  · rw [fr.get _ (by decide), k2 _ (by decide), (w1 _ (by decide)).2.1]
    rfl
  · rw [fr.get _ (by decide), k2 _ (by decide), (w1 _ (by decide)).2.1]
    simp
  · rw [fr.host _ (by decide), h2 _ (by decide), (w1 _ (by decide)).2.2]
    simp

/-- `nonfree_recv` changes nothing but the host copy of its object, which is up to date afterwards -/
theorem nonfreeRecv_spec (s : St α) (o : V) (hg : side = gpu) (ho : s.on o = side) :
    (s.nonfreeRecv gpu o).on = s.on ∧ (∀ o', (s.nonfreeRecv gpu o).get o' = s.get o') ∧
      (s.nonfreeRecv gpu o).host o = s.get o ∧ (∀ o', o' ≠ o → (s.nonfreeRecv gpu o).host o' = s.host o') := by
  subst hg
  cases side with
  | false => exact ⟨rfl, fun _ => rfl, by simp [St.nonfreeRecv, St.get, ho], fun _ _ => rfl⟩
  | true =>
    refine ⟨by simp [St.nonfreeRecv, ho], fun o' => ?_, by simp [St.nonfreeRecv, St.get, ho],
      fun o' h => by simp [St.nonfreeRecv, ho, h]⟩
    by_cases h : o' = o
    · subst h
      simp [St.nonfreeRecv, St.get, ho]
    · simp [St.nonfreeRecv, St.get, ho, h]

/-- the host copy of an object replaced, and sent -/
theorem hostSend_upd (s : St α) (o : V) (l : List α) (hg : side = gpu) (ho : s.on o = side) :
    Upd s (St.send gpu { s with host := Function.update s.host o l } o) o l := by
  subst hg
  cases side with
  | true =>
    refine ⟨?_, fun o' => ?_, fun o' h => by simp [St.send, h], Or.inr (by simp [St.send])⟩
    · funext o'
      by_cases h : o' = o
      · subst h
        simp [St.send, ho]
      · simp [St.send, h]
    · by_cases h : o' = o
      · subst h
        simp [St.send, St.get]
      · simp [St.send, St.get, h]
  | false =>
    refine ⟨rfl, fun o' => ?_, fun o' h => by simp [St.send, h], Or.inr (by simp [St.send])⟩
    by_cases h : o' = o
    · subst h
      simp [St.send, St.get, ho]
    · simp [St.send, St.get, h]

/-- `Inv` holds after `nonfree_recv` of a vector of the solver -/
theorem Applies.recv {pc : PC α} {n : Nat} {Inv : St α → Prop} {f : List α → Res (List α)}
    (h : Applies pc side n Inv f) (hg : side = gpu) {o : V} (ho : s.on o = side) (h1 : o ≠ .M) (h2 : o ≠ .A)
    (hi : Inv s) : Inv (s.nonfreeRecv gpu o) := by
  obtain ⟨k1, k2, k3, k4⟩ := nonfreeRecv_spec s o hg ho
  refine h.stable s _ o (s.get o) hi ⟨k1, fun o' => ?_, k4, Or.inr k3⟩ h1 h2
  rw [k2]
  split
  · next e => rw [e]
  · rfl

theorem sorLoop_view {cfg : Cfg α} {A : MatD α} {pc : PC α} {Inv : St α → Prop}
    {f : List α → Res (List α)} (hf : Keeps A.row f) (hpc : Applies pc side A.row Inv f) (hg : side = gpu)
    (hk : Kernels A) (hmv : ∀ a x y, A.mv a x = .ok y → y.length = A.row) {b d : List α} {binv : α} :
    ∀ (k iter : Nat) (s : St α) (x r : List α), JInv side A.row a b d s x r → Inv s → s.host .A = a → s.host .d = d →
      (s.host .t).length = A.row →
      view (sorLoop N gpu cfg A pc binv k iter s) = SOR.loop N cfg (A.at_ a) (A.lower a) f b d binv k iter x r
  | 0, _, s, x, r, h, _, _, _, _ => view_atMax h.x h.r
  | k + 1, iter, s, x, r, h, hi, hA, hd, hlt => by
    unfold sorLoop SOR.loop
    have ho := h.on
    simp only [List.forall_mem_cons, List.not_mem_nil, false_implies, implies_true, and_true] at ho
    obtain ⟨oA, ox, ob, or_, ot, os, od⟩ := ho
    have st1 := hpc.apply .x .s s hi ox os (by decide) (by decide) (by rw [h.x, h.lx]) h.ls h.hs
    rw [h.x] at st1
    refine view_step st1 (fun w s1 hw u1 => ?_)
    have lw : w.length = A.row := hf _ _ h.lx hw
    have i1 := hpc.stable _ _ _ _ hi u1 (by decide) (by decide)
    refine view_step (matvec_step (side := side) (by simp [u1.on, oA, os, ot]) (by rw [u1.get_ne (by decide), h.a])
      u1.get_eq) (fun t s3 ht u3 => ?_)
    have o3 : s3.on = s.on := by rw [u3.on, u1.on]
    have i3 := hpc.stable _ _ _ _ i1 u3 (by decide) (by decide)
    have lt : t.length = A.row := hmv _ _ _ ht
    have k3 : ∀ o, o ≠ .s → o ≠ .t → s3.get o = s.get o := fun o h1 h2 => by rw [u3.get_ne h2, u1.get_ne h1]
    refine view_step (axpyz_step (side := side) (n := A.row) (by simp [o3, ot, ob, or_]) u3.get_eq
      (by rw [k3 _ (by decide) (by decide), h.b]) (by rw [k3 _ (by decide) (by decide), h.r, h.lr]))
      (fun r1 s4 hr1 u4 => ?_)
    have o4 : s4.on = s.on := by rw [u4.on, o3]
    have i4 := hpc.stable _ _ _ _ i3 u4 (by decide) (by decide)
    have k4 : ∀ o, o ≠ .s → o ≠ .t → o ≠ .r → s4.get o = s.get o := fun o h1 h2 h3 => by rw [u4.get_ne h3, k3 o h1 h2]
    have h4 : ∀ o, o ≠ .s → o ≠ .t → o ≠ .r → s4.host o = s.host o :=
      fun o h1 h2 h3 => by rw [u4.host _ h3, u3.host _ h2, u1.host _ h1]
    dsimp only
    rw [u4.get_eq]
    obtain ⟨n1, n2, n3, n4⟩ := nonfreeRecv_spec s4 .r hg (by rw [o4, or_])
    have i5 := hpc.recv (o := .r) hg (by rw [o4, or_]) (by decide) (by decide) i4
    generalize s4.nonfreeRecv gpu .r = s5 at n1 n2 n3 n4 i5 ⊢
    have o5 : s5.on = s.on := by rw [n1, o4]
    have ht5 : (s5.host .t).length = A.row := by
      rw [n4 _ (by decide), u4.host _ (by decide)]
      rcases u3.hy with e | e
      · rw [e, u1.host _ (by decide), hlt]
      · rw [e, lt]
    rw [n3, u4.get_eq, n4 .A (by decide), h4 .A (by decide) (by decide) (by decide), hA, n4 .d (by decide),
      h4 .d (by decide) (by decide) (by decide), hd, hk.lower a d (s5.host .t) t r1 ht5 lt]
    refine view_pure _ (fun l hl => ?_)
    have ll : l.length = A.row := by rw [hk.lower_len _ _ _ _ _ hl, lt]
    have u6 := hostSend_upd s5 .t l hg (by rw [o5, ot])
    have i6 := hpc.stable _ _ _ _ i5 u6 (by decide) (by decide)
    have e6 : (St.send gpu { s5 with host := Function.update s5.host .t l } .t).host .t = l := by
      unfold St.send
      split <;> simp
    generalize St.send gpu { s5 with host := Function.update s5.host .t l } .t = s6 at u6 i6 e6 ⊢
    have o6 : s6.on = s.on := by rw [u6.on, o5]
    have k6 : ∀ o, o ≠ .s → o ≠ .t → o ≠ .r → s6.get o = s.get o :=
      fun o h1 h2 h3 => by rw [u6.get_ne h2, n2, k4 o h1 h2 h3]
    have h6 : ∀ o, o ≠ .s → o ≠ .t → o ≠ .r → s6.host o = s.host o :=
      fun o h1 h2 h3 => by rw [u6.host _ h2, n4 _ h3, h4 o h1 h2 h3]
    refine view_step (axpy_step (side := side) (by simp [o6, ox, ot]) u6.get_eq
      (by rw [k6 _ (by decide) (by decide) (by decide), h.x])) (fun x1 s7 hx1 u7 => ?_)
    have o7 : s7.on = s.on := by rw [u7.on, o6]
    have i7 := hpc.stable _ _ _ _ i6 u7 (by decide) (by decide)
    have gr7 : s7.get .r = r1 := by
      rw [u7.get_ne (by decide), u6.get_ne (by decide), n2]
      exact u4.get_eq
    have k7 : ∀ o, o ≠ .s → o ≠ .t → o ≠ .r → o ≠ .x → s7.get o = s.get o :=
      fun o h1 h2 h3 h4 => by rw [u7.get_ne h4, k6 o h1 h2 h3]
    have h7 : ∀ o, o ≠ .s → o ≠ .t → o ≠ .r → o ≠ .x → s7.host o = s.host o :=
      fun o h1 h2 h3 h4 => by rw [u7.host _ h4, h6 o h1 h2 h3]
    refine view_finish u7.get_eq gr7 (sorLoop_view hf hpc hg hk hmv k (iter + 1) s7 x1 r1 ?_ i7 ?_ ?_ ?_)
    · refine ⟨by rw [axpy_len hx1, h.lx], axpyz_len hr1, ?_, ?_, u7.get_eq, ?_, ?_, gr7, ?_, ?_⟩
      · simp [o7, oA, ox, ob, or_, ot, os, od]
      · rw [k7 _ (by decide) (by decide) (by decide) (by decide), h.a]
      · rw [k7 _ (by decide) (by decide) (by decide) (by decide), h.b]
      · rw [k7 _ (by decide) (by decide) (by decide) (by decide), h.d]
      · rw [u7.get_ne (by decide), u6.get_ne (by decide), n2, u4.get_ne (by decide), u3.get_ne (by decide), u1.get_eq, lw]
      · rw [u7.host _ (by decide), u6.host _ (by decide), n4 _ (by decide), u4.host _ (by decide), u3.host _ (by decide)]
        rcases u1.hy with e | e
        · rw [e, h.hs]
        · rw [e, lw]
    · rw [h7 _ (by decide) (by decide) (by decide) (by decide), hA]
    · rw [h7 _ (by decide) (by decide) (by decide) (by decide), hd]
    · rw [u7.host _ (by decide), e6, ll]

theorem sor_view {cfg : Cfg α} {A : MatD α} {pc : PC α} {P : List α → Bool → Prop}
    {create : Res (List α → Res (List α))} (hm : Models pc side A.row a P create) (hg : side = gpu) (hk : Kernels A)
    (hmv : ∀ a x y, A.mv a x = .ok y → y.length = A.row)
    (hA : s.on .A = side) (hx : s.on .x = side) (hb : s.on .b = side) (ha : s.get .A = a) (hc : s.host .A = a)
    (hp : P (s.host .A) (s.on .M)) (hlx : (s.get .x).length = A.row) :
    view (sor N gpu cfg A pc s) = SOR.solve N cfg (A.at_ a) (A.lower a) create (s.get .x) (s.get .b) := by
  unfold sor SOR.solve SOR.monolish
  split
  swap
  · rfl
  by_cases hrc : A.row = A.col
  swap
  · rw [if_pos hrc, if_pos (by simpa [MatD.at_] using hrc)]
    rfl
  rw [if_neg (by simp [hrc]), if_neg (by simp [MatD.at_, hrc]), checkStat_ok hA hx, Res.ok_bind]
  obtain ⟨w1, w2⟩ := jwork_spec (List.replicate A.row N.zero) s hg
  dsimp only at w1 w2 ⊢
  generalize sendAll gpu [.r, .t, .s, .d] (newAll (List.replicate A.row N.zero) [.r, .t, .s, .d] s) = s0 at w1 w2 ⊢
  have gb : s0.get .b = s.get .b := w2.get _ (by decide)
  have on0 : ∀ o ∈ [V.A, V.x, V.b, V.r, V.t, V.s, V.d], s0.on o = side := by
    simp only [List.forall_mem_cons, List.not_mem_nil, false_implies, implies_true, and_true]
    refine ⟨?_, ?_, ?_, ?_, ?_, ?_, ?_⟩
    · rw [w2.on _ (by decide), hA]
    · rw [w2.on _ (by decide), hx]
    · rw [w2.on _ (by decide), hb]
    all_goals exact (w1 _ (by decide)).1
  simp only [List.forall_mem_cons, List.not_mem_nil, false_implies, implies_true, and_true] at on0
  obtain ⟨oA, ox, ob, or_, ot, os, od⟩ := on0
  refine view_step (diag_step (side := side) (by simp [oA, od]) (by rw [w2.get _ (by decide), ha])) (fun d0 s1 hd0 u1 => ?_)
  obtain ⟨s2, e2, u2⟩ := (call_step (s := s1) (side := side) (os := [.d]) (by simp [u1.on, od]) .d
    (.ok ((s1.get .d).map (N.mul (N.div N.one cfg.omega))))).1 _ rfl
  have e2' : scal N (N.div N.one cfg.omega) .d s1 = .ok s2 := e2
  rw [e2', Res.ok_bind]
  obtain ⟨s3, e3, u3⟩ := (call_step (s := s2) (side := side) (os := [.d]) (by simp [u2.on, u1.on, od]) .d
    (.ok (N.reciprocal (s2.get .d)))).1 _ rfl
  have e3' : reciprocal N .d s2 = .ok s3 := e3
  rw [e3', Res.ok_bind]
  have o3 : s3.on = s0.on := by rw [u3.on, u2.on, u1.on]
  have k3 : ∀ o, o ≠ .d → s3.get o = s0.get o := fun o h1 => by rw [u3.get_ne h1, u2.get_ne h1, u1.get_ne h1]
  have h3 : ∀ o, o ≠ .d → s3.host o = s0.host o := fun o h1 => by rw [u3.host _ h1, u2.host _ h1, u1.host _ h1]
  have d3 : s3.get .d = N.reciprocal (d0.map (N.mul (N.div N.one cfg.omega))) := by
    rw [u3.get_eq, u2.get_eq, u1.get_eq]
  obtain ⟨n1, n2, n3, n4⟩ := nonfreeRecv_spec s3 .d hg (by rw [o3, od])
  generalize s3.nonfreeRecv gpu .d = s4 at n1 n2 n3 n4 ⊢
  have o4 : s4.on = s0.on := by rw [n1, o3]
  have k4 : ∀ o, o ≠ .d → s4.get o = s0.get o := fun o h1 => by rw [n2, k3 o h1]
  have h4 : ∀ o, o ≠ .d → s4.host o = s0.host o := fun o h1 => by rw [n4 o h1, h3 o h1]
  rw [k4 .b (by decide), gb]
  refine view_create hm (by rw [o4, oA]) (by rw [k4 _ (by decide), w2.get _ (by decide), ha])
    (by rw [h4 _ (by decide), o4, w2.host _ (by decide), w2.on _ (by decide)]; exact hp)
    (fun f Inv s5 _ hkp hap fr hi => ?_)
  refine sorLoop_view hkp hap hg hk hmv _ _ _ _ _ ⟨hlx, by simp [MatD.at_], ?_, ?_, ?_, ?_, ?_, ?_, ?_, ?_⟩ hi ?_ ?_ ?_
  · simp only [List.forall_mem_cons, List.not_mem_nil, false_implies, implies_true, and_true]
    refine ⟨?_, ?_, ?_, ?_, ?_, ?_, ?_⟩ <;> rw [fr.on _ (by decide), o4] <;> assumption
  · rw [fr.get _ (by decide), k4 _ (by decide), w2.get _ (by decide), ha]
  · rw [fr.get _ (by decide), k4 _ (by decide), w2.get _ (by decide)]
  · rw [fr.get _ (by decide), k4 _ (by decide), gb]
  · rw [fr.get _ (by decide), n2, d3]
  · rw [fr.get _ (by decide), k4 _ (by decide), (w1 _ (by decide)).2.1]
    rfl
  · rw [fr.get _ (by decide), k4 _ (by decide), (w1 _ (by decide)).2.1]
    simp
  · rw [fr.host _ (by decide), h4 _ (by decide), (w1 _ (by decide)).2.2]
    simp
  · rw [fr.host _ (by decide), h4 _ (by decide), w2.host _ (by decide), hc]
  · rw [fr.host _ (by decide), n3, d3]
  · rw [fr.host _ (by decide), h4 _ (by decide), (w1 _ (by decide)).2.2]
    simp

end Verif.Solver.Dev
