import Verif.Props.MpiSolverMain

/-!
C108: the whole system exists for any processes' systems, so all processes end together.
-/

namespace Verif.MpiSolver

open Verif.Solver

variable {α β γ : Type} {P : Nat} {N : Num α} {comb : (Fin P → α) → α} {ns : Fin P → Nat} {S : List α → α}

/-! ### Taking a whole vector apart -/

/-- the parts of a whole vector -/
def parts : {P : Nat} → (Fin P → Nat) → List α → Fin P → List α
  | 0, _, _ => fun i => i.elim0
  | _ + 1, ns, l => fun i =>
    Fin.cases (motive := fun _ => List α) (l.take (ns 0)) (fun j => parts (fun j => ns j.succ) (l.drop (ns 0)) j) i

theorem parts_cat : ∀ {P : Nat} {ns : Fin P → Nat} {x : Fin P → List α}, Shape ns x → parts ns (cat x) = x
  | 0, _, _, _ => by
    funext i
    exact i.elim0
  | P + 1, ns, x, h => by
    have ih := parts_cat (ns := fun i => ns i.succ) (x := fun i => x i.succ) (fun i => h i.succ)
    funext i
    rw [cat_succ]
    unfold parts
    refine Fin.cases ?_ (fun j => ?_) i
    · simp [← h 0]
    · simp only [Fin.cases_succ]
      rw [← h 0, List.drop_left, ih]

theorem cat_parts : ∀ {P : Nat} {ns : Fin P → Nat} {l : List α}, l.length = total ns →
    Shape ns (parts ns l) ∧ cat (parts ns l) = l
  | 0, _, l, h => by
    refine ⟨fun i => i.elim0, ?_⟩
    have : l.length = 0 := by simpa [total] using h
    rw [List.length_eq_zero_iff.mp this]
    simp [cat]
  | P + 1, ns, l, h => by
    have h' : l.length = ns 0 + total (fun i => ns i.succ) := by
      rw [h]
      unfold total
      rw [List.ofFn_succ, List.sum_cons]
    obtain ⟨i1, i2⟩ := cat_parts (ns := fun i => ns i.succ) (l := l.drop (ns 0)) (by rw [List.length_drop]; omega)
    constructor
    · intro i
      refine Fin.cases ?_ (fun j => ?_) i
      · show (l.take (ns 0)).length = ns 0
        rw [List.length_take]
        omega
      · exact i1 j
    · rw [cat_succ]
      show l.take (ns 0) ++ cat (parts (fun i => ns i.succ) (l.drop (ns 0))) = l
      rw [i2, List.take_append_drop]

/-- the sum of the whole exists, whatever `Allreduce` computes -/
def sumOf (N : Num α) (comb : (Fin P → α) → α) (ns : Fin P → Nat) (l : List α) : α :=
  if l.length = total ns then comb (fun i => N.sum (parts ns l i)) else N.sum l

theorem sumOf_sums : Sums N comb ns (sumOf N comb ns) := by
  constructor
  intro x hx
  unfold sumOf
  rw [if_pos (cat_length hx), parts_cat hx]

open Classical in
theorem exists_block {fs : Fin P → List α → Res (List α)} (h : ∀ i, Works (ns i) (fs i)) : ∃ f, Block ns fs f := by
  refine ⟨fun l => if hx : ∃ y, Shape ns y ∧ ∀ i, fs i (parts ns l i) = .ok (y i) then .ok (cat hx.choose) else .ub "",
    fun x hx => ?_⟩
  have h' : ∀ i, ∃ y, y.length = ns i ∧ fs i (x i) = .ok y := fun i => h i (x i) (hx i)
  have hy : ∃ y, Shape ns y ∧ ∀ i, fs i (parts ns (cat x) i) = .ok (y i) := by
    rw [parts_cat hx]
    exact ⟨fun i => (h' i).choose, fun i => (h' i).choose_spec.1, fun i => (h' i).choose_spec.2⟩
  refine ⟨hy.choose, hy.choose_spec.1, fun i => ?_, dif_pos hy⟩
  exact (congrArg (fs i) (congrFun (parts_cat hx) i)).symm.trans (hy.choose_spec.2 i)

theorem exists_blockMat {As : Fin P → Mat α} (h : ∀ i, Good (ns i) (As i)) : ∃ A, BlockMat ns As A := by
  obtain ⟨f, hf⟩ := exists_block (fun i => (h i).mv)
  refine ⟨{ row := total ns, col := total ns, mv := f, diag := .ok (cat fun i => (h i).diag.choose) },
    fun i => (h i).row, fun i => (h i).col, rfl, rfl, hf,
    ⟨fun i => (h i).diag.choose, fun i => (h i).diag.choose_spec.1, fun i => (h i).diag.choose_spec.2, rfl⟩⟩

theorem exists_blockPc {creates : Fin P → Res (List α → Res (List α))}
    (h : ∀ i, ∃ pc, creates i = .ok pc ∧ Works (ns i) pc) : ∃ create, BlockPc ns creates create := by
  obtain ⟨f, hf⟩ := exists_block (fun i => (h i).choose_spec.2)
  exact ⟨.ok f, fun i => (h i).choose, f, fun i => (h i).choose_spec.1, rfl, hf⟩

theorem Agrees.together {ps : Fin P → Proc α (Out α)} {g : Res (Out α)} (h : Agrees comb ns ps g) :
    Together comb ns ps := by
  obtain ⟨x, st, it, fr, h1, _, h3⟩ := h
  exact ⟨x, st, it, fr, h1, h3⟩

/-- For any arithmetic, any reduction order and any sizes of the parts (also zero): no deadlock, and all processes return
the same code. -/
theorem C108_together {cfg : Cfg α} (hm : cfg.residMethod = 0) {As : Fin P → Mat α} (hA : ∀ i, Good (ns i) (As i))
    {creates : Fin P → Res (List α → Res (List α))} (hc : ∀ i, ∃ pc, creates i = .ok pc ∧ Works (ns i) pc)
    {x b : Fin P → List α} (hx : Shape ns x) (hb : Shape ns b) :
    Together comb ns (fun i => cg N cfg (As i) (creates i) (x i) (b i)) ∧
    Together comb ns (fun i => bicg N cfg (As i) (creates i) (x i) (b i)) ∧
    Together comb ns (fun i => jacobi N cfg (As i) (creates i) (x i) (b i)) := by
  obtain ⟨A, hA⟩ := exists_blockMat hA
  obtain ⟨create, hc⟩ := exists_blockPc hc
  have hS : Sums N comb ns (sumOf N comb ns) := sumOf_sums
  exact ⟨(C108_cg hm hS hA hc hx hb).together, (C108_bicg hm hS hA hc hx hb).together,
    (C108_jacobi hm hS hA hc hx hb).together⟩

/-- SOR likewise, when the forward kernel works for all vectors of the right length -/
theorem C108_together_sor {cfg : Cfg α} (hm : cfg.residMethod = 0) {As : Fin P → Mat α} (hA : ∀ i, Good (ns i) (As i))
    {creates : Fin P → Res (List α → Res (List α))} (hc : ∀ i, ∃ pc, creates i = .ok pc ∧ Works (ns i) pc)
    {lowers : Fin P → List α → List α → List α → Res (List α)}
    (hl : ∀ i d t, d.length = ns i → t.length = ns i → Works (ns i) (lowers i d t))
    {x b : Fin P → List α} (hx : Shape ns x) (hb : Shape ns b) :
    Together comb ns (fun i => sor N cfg (As i) (lowers i) (creates i) (x i) (b i)) := by
  obtain ⟨A, hA⟩ := exists_blockMat hA
  obtain ⟨create, hc⟩ := exists_blockPc hc
  have hS : Sums N comb ns (sumOf N comb ns) := sumOf_sums
  classical
  have hL : ∃ lower, Block3 ns lowers lower := by
    have key : ∀ d t : List α, ∃ f, d.length = total ns → t.length = total ns →
        Block ns (fun i => lowers i (parts ns d i) (parts ns t i)) f := by
      intro d t
      by_cases h : d.length = total ns ∧ t.length = total ns
      · obtain ⟨f, hf⟩ := exists_block (fun i => hl i (parts ns d i) (parts ns t i) ((cat_parts h.1).1 i)
          ((cat_parts h.2).1 i))
        exact ⟨f, fun _ _ => hf⟩
      · exact ⟨fun _ => .ub "", fun h1 h2 => absurd ⟨h1, h2⟩ h⟩
    choose F hF using key
    refine ⟨F, fun d t r hd ht hr => ?_⟩
    have := hF (cat d) (cat t) (cat_length hd) (cat_length ht)
    rw [parts_cat hd, parts_cat ht] at this
    exact this r hr
  obtain ⟨lower, hL⟩ := hL
  exact (C108_sor hm hS hA hL hc hx hb).together

/-! ### Deadlocks -/

theorem completes_ret_red {ι : Type} {comb : (ι → α) → α} {ps : ι → Proc α β} {i j : ι} {a : Res β} {v : α}
    {k : α → Proc α β} (hi : ps i = .ret a) (hj : ps j = .red v k) : ¬ ∃ r, Completes comb ps r := by
  rintro ⟨r, h⟩
  cases h with
  | done r => cases hj
  | step v k r h => cases hi

theorem completes_step {ι : Type} {comb : (ι → α) → α} {v : ι → α} {k : ι → α → Proc α β}
    (h : ¬ ∃ r, Completes comb (fun i => k i (comb v)) r) : ¬ ∃ r, Completes comb (fun i => .red (v i) (k i)) r := by
  rintro ⟨r, hr⟩
  generalize hp : (fun i => Proc.red (v i) (k i)) = ps at hr
  cases hr with
  | done r =>
    by_cases hι : Nonempty ι
    · obtain ⟨i⟩ := hι
      have := congrFun hp i
      cases this
    · apply h
      refine ⟨r, ?_⟩
      have : (fun i => k i (comb v)) = fun i => Proc.ret (r i) := by
        funext i
        exact absurd ⟨i⟩ hι
      rw [this]
      exact Completes.done r
  | step v' k' r hc =>
    have hv : v = v' := by
      funext i
      have := congrFun hp i
      injection this
    have hk : k = k' := by
      funext i
      have := congrFun hp i
      injection this
    subst hv hk
    exact h ⟨r, hc⟩

/-- If one process has a matrix that is not square, its `solve` throws and the others wait for ever. -/
theorem C108_square_violated {cfg : Cfg α} (hl : cfg.lib = 0) {As : Fin P → Mat α}
    {creates : Fin P → Res (List α → Res (List α))} {x b : Fin P → List α} {i j : Fin P} (hi : (As i).row ≠ (As i).col)
    (hj : (As j).row = (As j).col) : ¬ ∃ r, Completes comb (fun i => jacobi N cfg (As i) (creates i) (x i) (b i)) r := by
  refine completes_ret_red (i := i) (j := j) (a := .throw "error, A.row != A.col")
    (v := N.sum (List.zipWith N.mul (b j) (b j)))
    (k := fun s => loc (As j).diag >>= fun d => loc (creates j) >>= fun pc =>
      jacobiLoop N cfg (As j) pc (b j) (N.reciprocal d) (N.div N.one (N.sqrt s)) cfg.maxiter 0 (x j)
        (List.replicate (As j).row N.zero)) ?_ ?_
  · show jacobi N cfg _ _ _ _ = _
    unfold jacobi
    rw [if_pos hl, if_pos hi]
    rfl
  · show jacobi N cfg _ _ _ _ = _
    unfold jacobi
    rw [if_pos hl, if_neg (fun h => h hj)]
    rfl

/-- If the limits of iterations differ, one process leaves the solver while another waits in `Allreduce`: here the limits
are 0 and not 0. -/
theorem C108_maxiter_violated {cfgs : Fin P → Cfg α} (hl : ∀ i, (cfgs i).lib = 0) (hm : ∀ i, (cfgs i).residMethod = 0)
    {As : Fin P → Mat α} (hA : ∀ i, Good (ns i) (As i)) {x b : Fin P → List α} (hx : Shape ns x) (hb : Shape ns b)
    {i j : Fin P} (hi : (cfgs i).maxiter = 0) (hj : (cfgs j).maxiter ≠ 0) :
    ¬ ∃ r, Completes comb (fun i => cg N (cfgs i) (As i) noPrecond (x i) (b i)) r := by
  -- the first reduction of each process
  have key : ∀ i, ∃ v k, cg N (cfgs i) (As i) noPrecond (x i) (b i) = .red v k ∧
      ((cfgs i).maxiter = 0 → ∀ c, ∃ a, k c = .ret a) ∧ ((cfgs i).maxiter ≠ 0 → ∀ c, ∃ v k', k c = .red v k') := by
    intro i
    obtain ⟨q, hq1, hq2⟩ := (hA i).mv (x i) (hx i)
    obtain ⟨q', hq1', hq2'⟩ := (hA i).mv (List.zipWith N.sub (b i) q) (by simp [hb i, hq1])
    have e : cg N (cfgs i) (As i) noPrecond (x i) (b i) = cgLoop N (cfgs i) (As i) (fun r => .ok r) (cfgs i).maxiter 0
        { x := x i, r := List.zipWith N.sub (b i) q, z := List.zipWith N.sub (b i) q,
          p := List.zipWith N.sub (b i) q } := by
      unfold cg noPrecond
      rw [if_pos (hl i), if_neg (by rw [(hA i).row, (hA i).col]; simp), bind_ok, hq2, bind_ok]
      unfold Num.vsub
      rw [cassert_decide (by rw [hb i, hq1, (hA i).row]; exact ⟨rfl, rfl⟩), Res.ok_bind, bind_ok, bind_ok]
      unfold Num.copyV
      rw [cassert_decide (by simp [hb i, hq1, (hA i).row])]
      rfl
    rw [e]
    cases hmx : (cfgs i).maxiter with
    | zero =>
      unfold cgLoop atMaxiter getResidual nrm2
      rw [hm i]
      exact ⟨_, _, rfl, fun _ c => ⟨_, rfl⟩, fun h => absurd rfl h⟩
    | succ n =>
      unfold cgLoop
      rw [hq2', bind_ok]
      unfold dot
      rw [cassert_decide rfl, cassert_decide (by simp [hb i, hq1, hq1'])]
      exact ⟨_, _, rfl, fun h => by simp at h, fun _ c => ⟨_, _, rfl⟩⟩
  choose v k h1 h2 h3 using key
  have e : (fun i => cg N (cfgs i) (As i) noPrecond (x i) (b i)) = fun i => .red (v i) (k i) := funext h1
  rw [e]
  apply completes_step
  obtain ⟨a, ha⟩ := h2 i hi (comb v)
  obtain ⟨w, k', hk⟩ := h3 j hj (comb v)
  exact completes_ret_red ha hk

end Verif.MpiSolver
