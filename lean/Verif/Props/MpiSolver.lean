import Verif.Spec.MpiSolverSpec
import Verif.Props.SolverDev

/-!
C108: the solvers in an MPI build.
-/

namespace Verif.MpiSolver

open Verif.Solver

variable {α β γ : Type} {P : Nat} {N : Num α} {comb : (Fin P → α) → α} {ns : Fin P → Nat}

/-! ### Processes -/

/-- what the processes end with is determined -/
theorem Completes.unique {ι : Type} {comb : (ι → α) → α} {ps : ι → Proc α β} {r r' : ι → Res β}
    (h : Completes comb ps r) (h' : Completes comb ps r') : r = r' := by
  induction h with
  | done r =>
    generalize hp : (fun i => Proc.ret (α := α) (r i)) = ps at h'
    cases h' with
    | done r' =>
      funext i
      have := congrFun hp i
      injection this
    | step v k _ _ =>
      funext i
      have := congrFun hp i
      cases this
  | step v k r hc ih =>
    generalize hp : (fun i => Proc.red (v i) (k i)) = ps at h'
    cases h' with
    | done r' =>
      funext i
      have := congrFun hp i
      cases this
    | step v' k' _ hc' =>
      have hv : v = v' := by
        funext i
        have := congrFun hp i
        injection this
      have hk : k = k' := by
        funext i
        have := congrFun hp i
        injection this
      subst hv hk
      exact ih hc'

theorem bind_ok (b : β) (f : β → Proc α γ) : (loc (.ok b) >>= f) = f b := rfl

/-! ### Whole vectors -/

theorem cat_succ (x : Fin (P + 1) → List α) : cat x = x 0 ++ cat (fun i => x i.succ) := by
  unfold cat
  rw [List.ofFn_succ, List.flatten_cons]

theorem cat_length : ∀ {P : Nat} {ns : Fin P → Nat} {x : Fin P → List α}, Shape ns x → (cat x).length = total ns
  | 0, _, x, _ => by simp [cat, total]
  | P + 1, ns, x, h => by
    have ih := cat_length (ns := fun i => ns i.succ) (x := fun i => x i.succ) (fun i => h i.succ)
    rw [cat_succ, List.length_append, ih, h 0]
    unfold total
    rw [List.ofFn_succ, List.sum_cons]

theorem cat_zipWith {δ : Type} (f : α → β → δ) : ∀ {P : Nat} {ns : Fin P → Nat} {x : Fin P → List α} {y : Fin P → List β},
    Shape ns x → Shape ns y → List.zipWith f (cat x) (cat y) = cat (fun i => List.zipWith f (x i) (y i))
  | 0, _, x, y, _, _ => by simp [cat]
  | P + 1, ns, x, y, hx, hy => by
    have ih := cat_zipWith f (ns := fun i => ns i.succ) (x := fun i => x i.succ) (y := fun i => y i.succ)
      (fun i => hx i.succ) (fun i => hy i.succ)
    rw [cat_succ, cat_succ, cat_succ, List.zipWith_append (by rw [hx 0, hy 0]), ih]

theorem cat_map (f : α → β) : ∀ {P : Nat} (x : Fin P → List α), (cat x).map f = cat (fun i => (x i).map f)
  | 0, x => by simp [cat]
  | P + 1, x => by rw [cat_succ, cat_succ, List.map_append, cat_map f (fun i => x i.succ)]

theorem cat_replicate (v : α) : ∀ {P : Nat} (ns : Fin P → Nat),
    cat (fun i => List.replicate (ns i) v) = List.replicate (total ns) v
  | 0, ns => by simp [cat, total]
  | P + 1, ns => by
    rw [cat_succ, cat_replicate v (fun i => ns i.succ)]
    unfold total
    rw [List.ofFn_succ, List.sum_cons, List.replicate_add]

theorem shape_zipWith {δ : Type} {f : α → β → δ} {x : Fin P → List α} {y : Fin P → List β}
    (hx : Shape ns x) (hy : Shape ns y) : Shape ns (fun i => List.zipWith f (x i) (y i)) := by
  intro i
  simp [hx i, hy i]

theorem shape_map {f : α → β} {x : Fin P → List α} (hx : Shape ns x) : Shape ns (fun i => (x i).map f) := by
  intro i
  simp [hx i]

/-! ### Steps -/

variable {S : List α → α}

/-- the numbers for the whole -/
abbrev glob (N : Num α) (S : List α → α) : Num α := { N with sum := S }

theorem agrees_loc {rs : Fin P → Res (List α)} {r : Res (List α)} {ls : Fin P → List α}
    {k : Fin P → List α → Proc α (Out α)} {g : List α → Res (Out α)} (h1 : ∀ i, rs i = .ok (ls i)) (h2 : r = .ok (cat ls))
    (h : Agrees comb ns (fun i => k i (ls i)) (g (cat ls))) :
    Agrees comb ns (fun i => loc (rs i) >>= k i) (r >>= g) := by
  have : (fun i => loc (rs i) >>= k i) = (fun i => k i (ls i)) := by
    funext i
    rw [h1 i]
    rfl
  rw [this, h2]
  exact h

theorem agrees_red {v : Fin P → α} {k : Fin P → α → Proc α (Out α)} {g : Res (Out α)}
    (h : Agrees comb ns (fun i => k i (comb v)) g) : Agrees comb ns (fun i => allreduce (v i) >>= k i) g := by
  obtain ⟨x, st, it, fr, h1, h2, h3⟩ := h
  exact ⟨x, st, it, fr, h1, h2, Completes.step v k _ h3⟩

theorem agrees_axpy {c : α} {x y : Fin P → List α} (hx : Shape ns x) (hy : Shape ns y)
    {k : Fin P → List α → Proc α (Out α)} {g : List α → Res (Out α)}
    (h : ∀ l, Shape ns l → Agrees comb ns (fun i => k i (l i)) (g (cat l))) :
    Agrees comb ns (fun i => loc (N.axpy c (x i) (y i)) >>= k i) ((glob N S).axpy c (cat x) (cat y) >>= g) := by
  refine agrees_loc (ls := fun i => List.zipWith (fun u v => N.add (N.mul c u) v) (x i) (y i)) (fun i => ?_) ?_
    (h _ (shape_zipWith hx hy))
  · unfold Num.axpy
    rw [cassert_decide (by rw [hx i, hy i])]
    rfl
  · unfold Num.axpy
    rw [cassert_decide (by rw [cat_length hx, cat_length hy]), ← cat_zipWith _ hx hy]
    rfl

theorem agrees_xpay {c : α} {x y : Fin P → List α} (hx : Shape ns x) (hy : Shape ns y)
    {k : Fin P → List α → Proc α (Out α)} {g : List α → Res (Out α)}
    (h : ∀ l, Shape ns l → Agrees comb ns (fun i => k i (l i)) (g (cat l))) :
    Agrees comb ns (fun i => loc (N.xpay c (x i) (y i)) >>= k i) ((glob N S).xpay c (cat x) (cat y) >>= g) := by
  refine agrees_loc (ls := fun i => List.zipWith (fun u v => N.add u (N.mul c v)) (x i) (y i)) (fun i => ?_) ?_
    (h _ (shape_zipWith hx hy))
  · unfold Num.xpay
    rw [cassert_decide (by rw [hx i, hy i])]
    rfl
  · unfold Num.xpay
    rw [cassert_decide (by rw [cat_length hx, cat_length hy]), ← cat_zipWith _ hx hy]
    rfl

theorem agrees_axpyz {c : α} {x y : Fin P → List α} {n : Fin P → Nat} {m : Nat} (hx : Shape ns x) (hy : Shape ns y)
    (hn : ∀ i, n i = ns i) (hm : m = total ns)
    {k : Fin P → List α → Proc α (Out α)} {g : List α → Res (Out α)}
    (h : ∀ l, Shape ns l → Agrees comb ns (fun i => k i (l i)) (g (cat l))) :
    Agrees comb ns (fun i => loc (N.axpyz c (x i) (y i) (n i)) >>= k i)
      ((glob N S).axpyz c (cat x) (cat y) m >>= g) := by
  refine agrees_loc (ls := fun i => List.zipWith (fun u v => N.add (N.mul c u) v) (x i) (y i)) (fun i => ?_) ?_
    (h _ (shape_zipWith hx hy))
  · unfold Num.axpyz
    rw [cassert_decide (by rw [hx i, hy i, hn i]; exact ⟨rfl, rfl⟩)]
    rfl
  · unfold Num.axpyz
    rw [cassert_decide (by rw [cat_length hx, cat_length hy, hm]; exact ⟨rfl, rfl⟩), ← cat_zipWith _ hx hy]
    rfl

theorem agrees_vsub {x y : Fin P → List α} {n : Fin P → Nat} {m : Nat} (hx : Shape ns x) (hy : Shape ns y)
    (hn : ∀ i, n i = ns i) (hm : m = total ns)
    {k : Fin P → List α → Proc α (Out α)} {g : List α → Res (Out α)}
    (h : ∀ l, Shape ns l → Agrees comb ns (fun i => k i (l i)) (g (cat l))) :
    Agrees comb ns (fun i => loc (N.vsub (x i) (y i) (n i)) >>= k i) ((glob N S).vsub (cat x) (cat y) m >>= g) := by
  refine agrees_loc (ls := fun i => List.zipWith N.sub (x i) (y i)) (fun i => ?_) ?_ (h _ (shape_zipWith hx hy))
  · unfold Num.vsub
    rw [cassert_decide (by rw [hx i, hy i, hn i]; exact ⟨rfl, rfl⟩)]
    rfl
  · unfold Num.vsub
    rw [cassert_decide (by rw [cat_length hx, cat_length hy, hm]; exact ⟨rfl, rfl⟩), ← cat_zipWith _ hx hy]
    rfl

theorem agrees_vadd {x y : Fin P → List α} {n : Fin P → Nat} {m : Nat} (hx : Shape ns x) (hy : Shape ns y)
    (hn : ∀ i, n i = ns i) (hm : m = total ns)
    {k : Fin P → List α → Proc α (Out α)} {g : List α → Res (Out α)}
    (h : ∀ l, Shape ns l → Agrees comb ns (fun i => k i (l i)) (g (cat l))) :
    Agrees comb ns (fun i => loc (N.vadd (x i) (y i) (n i)) >>= k i) ((glob N S).vadd (cat x) (cat y) m >>= g) := by
  refine agrees_loc (ls := fun i => List.zipWith N.add (x i) (y i)) (fun i => ?_) ?_ (h _ (shape_zipWith hx hy))
  · unfold Num.vadd
    rw [cassert_decide (by rw [hx i, hy i, hn i]; exact ⟨rfl, rfl⟩)]
    rfl
  · unfold Num.vadd
    rw [cassert_decide (by rw [cat_length hx, cat_length hy, hm]; exact ⟨rfl, rfl⟩), ← cat_zipWith _ hx hy]
    rfl

theorem agrees_vmul {x y : Fin P → List α} {n : Fin P → Nat} {m : Nat} (hx : Shape ns x) (hy : Shape ns y)
    (hn : ∀ i, n i = ns i) (hm : m = total ns)
    {k : Fin P → List α → Proc α (Out α)} {g : List α → Res (Out α)}
    (h : ∀ l, Shape ns l → Agrees comb ns (fun i => k i (l i)) (g (cat l))) :
    Agrees comb ns (fun i => loc (N.vmul (x i) (y i) (n i)) >>= k i) ((glob N S).vmul (cat x) (cat y) m >>= g) := by
  refine agrees_loc (ls := fun i => List.zipWith N.mul (x i) (y i)) (fun i => ?_) ?_ (h _ (shape_zipWith hx hy))
  · unfold Num.vmul
    rw [cassert_decide (by rw [hx i, hy i, hn i]; exact ⟨rfl, rfl⟩)]
    rfl
  · unfold Num.vmul
    rw [cassert_decide (by rw [cat_length hx, cat_length hy, hm]; exact ⟨rfl, rfl⟩), ← cat_zipWith _ hx hy]
    rfl

theorem agrees_copy {x : Fin P → List α} {n : Fin P → Nat} {m : Nat} (hx : Shape ns x) (hn : ∀ i, n i = ns i)
    (hm : m = total ns) {k : Fin P → List α → Proc α (Out α)} {g : List α → Res (Out α)}
    (h : Agrees comb ns (fun i => k i (x i)) (g (cat x))) :
    Agrees comb ns (fun i => loc (Num.copyV (x i) (n i)) >>= k i) (Num.copyV (cat x) m >>= g) := by
  refine agrees_loc (ls := x) (fun i => ?_) ?_ h
  · unfold Num.copyV
    rw [cassert_decide (by rw [hx i, hn i])]
    rfl
  · unfold Num.copyV
    rw [cassert_decide (by rw [cat_length hx, hm])]
    rfl

theorem agrees_block {fs : Fin P → List α → Res (List α)} {f : List α → Res (List α)} (hf : Block ns fs f)
    {x : Fin P → List α} (hx : Shape ns x) {k : Fin P → List α → Proc α (Out α)} {g : List α → Res (Out α)}
    (h : ∀ l, Shape ns l → Agrees comb ns (fun i => k i (l i)) (g (cat l))) :
    Agrees comb ns (fun i => loc (fs i (x i)) >>= k i) (f (cat x) >>= g) := by
  obtain ⟨y, h1, h2, h3⟩ := hf x hx
  exact agrees_loc h2 h3 (h y h1)

theorem agrees_dot (hS : Sums N comb ns S) {x y : Fin P → List α} (hx : Shape ns x) (hy : Shape ns y)
    {k : Fin P → α → Proc α (Out α)} {g : α → Res (Out α)} (h : ∀ c, Agrees comb ns (fun i => k i c) (g c)) :
    Agrees comb ns (fun i => dot N (x i) (y i) >>= k i) ((glob N S).dot (cat x) (cat y) >>= g) := by
  have e1 : (fun i => dot N (x i) (y i) >>= k i) = (fun i => allreduce (N.sum (List.zipWith N.mul (x i) (y i))) >>= k i) := by
    funext i
    unfold dot
    rw [cassert_decide (by rw [hx i, hy i])]
    rfl
  have e2 : (glob N S).dot (cat x) (cat y) = .ok (comb (fun i => N.sum (List.zipWith N.mul (x i) (y i)))) := by
    unfold Num.dot
    rw [cassert_decide (by rw [cat_length hx, cat_length hy]), Res.ok_bind]
    show Res.ok (S (List.zipWith N.mul (cat x) (cat y))) = _
    rw [cat_zipWith _ hx hy, hS.sum _ (shape_zipWith hx hy)]
  rw [e1, e2]
  exact agrees_red (h _)

theorem agrees_nrm2 (hS : Sums N comb ns S) {x : Fin P → List α} (hx : Shape ns x)
    {k : Fin P → α → Proc α (Out α)} {g : Res (Out α)} (h : Agrees comb ns (fun i => k i ((glob N S).nrm2 (cat x))) g) :
    Agrees comb ns (fun i => nrm2 N (x i) >>= k i) g := by
  have e2 : (glob N S).nrm2 (cat x) = N.sqrt (comb (fun i => N.sum (List.zipWith N.mul (x i) (x i)))) := by
    show N.sqrt (S (List.zipWith N.mul (cat x) (cat x))) = _
    rw [cat_zipWith _ hx hx, hS.sum _ (shape_zipWith hx hx)]
  rw [e2] at h
  exact agrees_red (v := fun i => N.sum (List.zipWith N.mul (x i) (x i))) (k := fun i c => k i (N.sqrt c)) h

theorem agrees_residual {cfg : Cfg α} (hm : cfg.residMethod = 0) (hS : Sums N comb ns S) {x : Fin P → List α}
    (hx : Shape ns x) {k : Fin P → α → Proc α (Out α)} {g : α → Res (Out α)}
    (h : ∀ c, Agrees comb ns (fun i => k i c) (g c)) :
    Agrees comb ns (fun i => getResidual N cfg (x i) >>= k i) (Solver.getResidual (glob N S) cfg (cat x) >>= g) := by
  unfold getResidual Solver.getResidual
  rw [hm]
  exact agrees_nrm2 hS hx (h _)

theorem agrees_ret {st : Int} {it : Nat} {fr : α} {x : Fin P → List α} (hx : Shape ns x) :
    Agrees comb ns (fun i => pure { status := st, x := x i, finalIter := it, finalResid := fr })
      (.ok { status := st, x := cat x, finalIter := it, finalResid := fr }) :=
  ⟨x, st, it, fr, hx, rfl, Completes.done _⟩

theorem agrees_max {cfg : Cfg α} (hm : cfg.residMethod = 0) (hS : Sums N comb ns S) {x r : Fin P → List α}
    (hx : Shape ns x) (hr : Shape ns r) :
    Agrees comb ns (fun i => atMaxiter N cfg (x i) (r i)) (Solver.atMaxiter (glob N S) cfg (cat x) (cat r)) := by
  unfold atMaxiter Solver.atMaxiter
  exact agrees_residual hm hS hr (fun c => agrees_ret hx)

/-- process-wise sequencing is associative -/
theorem proc_bind_assoc {β γ δ : Type} (m : Proc α β) (f : β → Proc α γ) (g : γ → Proc α δ) :
    ((m >>= f) >>= g) = (m >>= fun b => f b >>= g) := by
  induction m with
  | ret r => cases r <;> rfl
  | red v k ih =>
    show Proc.red v _ = Proc.red v _
    congr 1
    funext c
    exact ih c

theorem agrees_stop {cfg : Cfg α} (hm : cfg.residMethod = 0) (hS : Sums N comb ns S) {iter : Nat} {resid : α}
    {x r : Fin P → List α} (hx : Shape ns x) (hr : Shape ns r) {k : Fin P → Proc α (Out α)} {g : Res (Out α)}
    (h : Agrees comb ns k g) :
    Agrees comb ns (fun i => stopCheck N cfg iter resid (x i) (r i) >>= fun o => match o with
        | some out => pure out
        | none => k i)
      (Solver.stopCheck (glob N S) cfg iter resid (cat x) (cat r) >>= fun o => match o with
        | some out => .ok out
        | none => g) := by
  unfold stopCheck Solver.stopCheck
  by_cases h1 : (N.lt resid cfg.tol && decide (cfg.miniter ≤ iter + 1)) = true
  · have e : (fun i => (if (N.lt resid cfg.tol && decide (cfg.miniter ≤ iter + 1)) = true then do
        let fr ← getResidual N cfg (r i)
        pure (some { status := SUCCESS, x := x i, finalIter := iter + 1, finalResid := fr })
      else if N.isNaN resid = true then do
        let fr ← getResidual N cfg (r i)
        pure (some { status := RESIDUAL_NAN, x := x i, finalIter := iter + 1, finalResid := fr })
      else pure none : Proc α (Option (Out α))) >>= fun o => match o with
        | some out => pure out
        | none => k i) = fun i => getResidual N cfg (r i) >>= fun fr =>
          pure { status := SUCCESS, x := x i, finalIter := iter + 1, finalResid := fr } := by
      funext i
      rw [if_pos h1, proc_bind_assoc]
      rfl
    rw [e]
    have e2 : (glob N S).lt = N.lt := rfl
    rw [if_pos h1, Dev.res_bind_assoc]
    exact agrees_residual hm hS hr (fun c => agrees_ret hx)
  · by_cases h2 : N.isNaN resid = true
    · have e : (fun i => (if (N.lt resid cfg.tol && decide (cfg.miniter ≤ iter + 1)) = true then do
          let fr ← getResidual N cfg (r i)
          pure (some { status := SUCCESS, x := x i, finalIter := iter + 1, finalResid := fr })
        else if N.isNaN resid = true then do
          let fr ← getResidual N cfg (r i)
          pure (some { status := RESIDUAL_NAN, x := x i, finalIter := iter + 1, finalResid := fr })
        else pure none : Proc α (Option (Out α))) >>= fun o => match o with
          | some out => pure out
          | none => k i) = fun i => getResidual N cfg (r i) >>= fun fr =>
            pure { status := RESIDUAL_NAN, x := x i, finalIter := iter + 1, finalResid := fr } := by
        funext i
        rw [if_neg h1, if_pos h2, proc_bind_assoc]
        rfl
      rw [e, if_neg h1, if_pos h2, Dev.res_bind_assoc]
      exact agrees_residual hm hS hr (fun c => agrees_ret hx)
    · simp only [if_neg h1, if_neg h2]
      exact h

end Verif.MpiSolver
