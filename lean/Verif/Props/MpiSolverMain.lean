import Verif.Props.MpiSolver

/-!
C108: in an MPI build, CG, BiCGSTAB, Jacobi and SOR called by all processes with the same settings solve the block-diagonal
system whose blocks are the processes' matrices: all arrive at the same reductions, and end together with the same return
code.
-/

namespace Verif.MpiSolver

open Verif.Solver

variable {α β γ : Type} {P : Nat} {N : Num α} {comb : (Fin P → α) → α} {ns : Fin P → Nat} {S : List α → α}

/-! ### CG -/

theorem agrees_cgLoop {cfg : Cfg α} (hm : cfg.residMethod = 0) (hS : Sums N comb ns S) {As : Fin P → Mat α} {A : Mat α}
    (hA : BlockMat ns As A) {fs : Fin P → List α → Res (List α)} {f : List α → Res (List α)} (hf : Block ns fs f) :
    ∀ (n iter : Nat) (x r z p : Fin P → List α), Shape ns x → Shape ns r → Shape ns z → Shape ns p →
      Agrees comb ns (fun i => cgLoop N cfg (As i) (fs i) n iter { x := x i, r := r i, z := z i, p := p i })
        (CG.loop (glob N S) cfg A f n iter { x := cat x, r := cat r, z := cat z, p := cat p })
  | 0, iter, x, r, z, p, hx, hr, hz, hp => agrees_max hm hS hx hr
  | n + 1, iter, x, r, z, p, hx, hr, hz, hp => by
    unfold cgLoop CG.loop CG.step
    simp only [Dev.res_bind_assoc, Res.ok_bind]
    refine agrees_block hA.mv hp fun q hq => ?_
    refine agrees_dot hS hz hr fun tmp => ?_
    refine agrees_dot hS hp hq fun pq => ?_
    refine agrees_axpy hp hx fun x' hx' => ?_
    refine agrees_axpy hq hr fun r' hr' => ?_
    refine agrees_block hf hr' fun z' hz' => ?_
    refine agrees_dot hS hz' hr' fun zr => ?_
    refine agrees_xpay hz' hp fun p' hp' => ?_
    refine agrees_residual hm hS hr' fun resid => ?_
    exact agrees_stop hm hS hx' hr' (agrees_cgLoop hm hS hA hf n (iter + 1) x' r' z' p' hx' hr' hz' hp')

theorem agrees_lib {cfg : Cfg α} {x : Fin P → List α} (hx : Shape ns x) :
    Agrees comb ns (fun i => loc (.ok { status := 0, x := x i, finalIter := cfg.prevIter, finalResid := cfg.prevResid }))
      (.ok { status := 0, x := cat x, finalIter := cfg.prevIter, finalResid := cfg.prevResid }) :=
  agrees_ret hx

theorem agrees_square {As : Fin P → Mat α} {A : Mat α} (hA : BlockMat ns As A) {e e' : String}
    {k : Fin P → Proc α (Out α)} {g : Res (Out α)} (h : Agrees comb ns k g) :
    Agrees comb ns (fun i => if (As i).row ≠ (As i).col then loc (.throw e) else k i)
      (if A.row ≠ A.col then .throw e' else g) := by
  have e1 : (fun i => if (As i).row ≠ (As i).col then loc (.throw e) else k i) = k := by
    funext i
    rw [if_neg (by rw [hA.rows i, hA.cols i]; simp)]
  rw [e1, if_neg (by rw [hA.row, hA.col]; simp)]
  exact h

theorem agrees_create {creates : Fin P → Res (List α → Res (List α))} {create : Res (List α → Res (List α))}
    (hc : BlockPc ns creates create) {k : Fin P → (List α → Res (List α)) → Proc α (Out α)}
    {g : (List α → Res (List α)) → Res (Out α)}
    (h : ∀ fs f, Block ns fs f → Agrees comb ns (fun i => k i (fs i)) (g f)) :
    Agrees comb ns (fun i => loc (creates i) >>= k i) (create >>= g) := by
  obtain ⟨fs, f, hfs, hcr, hf⟩ := hc
  have e : (fun i => loc (creates i) >>= k i) = (fun i => k i (fs i)) := by
    funext i
    rw [hfs i]
    rfl
  rw [e, hcr]
  exact h fs f hf

theorem agrees_diag {As : Fin P → Mat α} {A : Mat α} (hA : BlockMat ns As A) {k : Fin P → List α → Proc α (Out α)}
    {g : List α → Res (Out α)} (h : ∀ l, Shape ns l → Agrees comb ns (fun i => k i (l i)) (g (cat l))) :
    Agrees comb ns (fun i => loc (As i).diag >>= k i) (A.diag >>= g) := by
  obtain ⟨d, h1, h2, h3⟩ := hA.diag
  exact agrees_loc h2 h3 (h d h1)

theorem C108_cg {cfg : Cfg α} (hm : cfg.residMethod = 0) (hS : Sums N comb ns S) {As : Fin P → Mat α} {A : Mat α}
    (hA : BlockMat ns As A) {creates : Fin P → Res (List α → Res (List α))} {create : Res (List α → Res (List α))}
    (hc : BlockPc ns creates create) {x b : Fin P → List α} (hx : Shape ns x) (hb : Shape ns b) :
    Agrees comb ns (fun i => cg N cfg (As i) (creates i) (x i) (b i)) (CG.solve (glob N S) cfg A create (cat x) (cat b)) := by
  unfold cg CG.solve CG.monolish CG.init
  by_cases hl : cfg.lib = 0
  · simp only [if_pos hl]
    refine agrees_square hA ?_
    refine agrees_create hc fun fs f hf => ?_
    simp only [Dev.res_bind_assoc, Res.ok_bind]
    refine agrees_block hA.mv hx fun q hq => ?_
    refine agrees_vsub hb hq hA.rows hA.row fun r hr => ?_
    refine agrees_block hf hr fun z hz => ?_
    refine agrees_copy hz hA.rows hA.row ?_
    exact agrees_cgLoop hm hS hA hf _ _ _ _ _ _ hx hr hz hz
  · simp only [if_neg hl]
    exact agrees_lib hx

/-! ### BiCGSTAB -/

theorem loc_bind (m : Res β) (f : β → Res γ) : (loc (m >>= f) : Proc α γ) = (loc m >>= fun b => loc (f b)) := by
  cases m <;> rfl

theorem agrees_direction {As : Fin P → Mat α} {A : Mat α} (hA : BlockMat ns As A) {iter : Nat} {ro al om rho : α}
    {x r p v : Fin P → List α} (hr : Shape ns r) (hp : Shape ns p) (hv : Shape ns v)
    {k : Fin P → List α → Proc α (Out α)} {g : List α → Res (Out α)}
    (h : ∀ l, Shape ns l → Agrees comb ns (fun i => k i (l i)) (g (cat l))) :
    Agrees comb ns
      (fun i => loc (BiCG.direction N (As i).row iter
        { x := x i, r := r i, p := p i, v := v i, rhoOld := ro, alpha := al, omega := om } rho) >>= k i)
      (BiCG.direction (glob N S) A.row iter
        { x := cat x, r := cat r, p := cat p, v := cat v, rhoOld := ro, alpha := al, omega := om } rho >>= g) := by
  unfold BiCG.direction
  by_cases h0 : iter = 0
  · simp only [if_pos h0]
    exact agrees_copy hr hA.rows hA.row (h r hr)
  · simp only [if_neg h0, Dev.res_bind_assoc, loc_bind, proc_bind_assoc]
    refine agrees_axpy hv hp fun l hl => ?_
    exact agrees_xpay hr hl h

theorem agrees_ite {c : Prop} [Decidable c] {k k' : Fin P → Proc α (Out α)} {g g' : Res (Out α)}
    (h : Agrees comb ns k g) (h' : Agrees comb ns k' g') :
    Agrees comb ns (fun i => if c then k i else k' i) (if c then g else g') := by
  by_cases hc : c
  · simp only [if_pos hc]
    exact h
  · simp only [if_neg hc]
    exact h'

theorem agrees_bicgLoop {cfg : Cfg α} (hm : cfg.residMethod = 0) (hS : Sums N comb ns S) {As : Fin P → Mat α} {A : Mat α}
    (hA : BlockMat ns As A) {fs : Fin P → List α → Res (List α)} {f : List α → Res (List α)} (hf : Block ns fs f)
    {r0 : Fin P → List α} (h0 : Shape ns r0) :
    ∀ (n iter : Nat) (x r p v : Fin P → List α) (ro al om : α), Shape ns x → Shape ns r → Shape ns p → Shape ns v →
      Agrees comb ns
        (fun i => bicgLoop N cfg (As i) (fs i) (r0 i) n iter
          { x := x i, r := r i, p := p i, v := v i, rhoOld := ro, alpha := al, omega := om })
        (BiCG.loop (glob N S) cfg A f (cat r0) n iter
          { x := cat x, r := cat r, p := cat p, v := cat v, rhoOld := ro, alpha := al, omega := om })
  | 0, iter, x, r, p, v, ro, al, om, hx, hr, hp, hv => agrees_max hm hS hx hr
  | n + 1, iter, x, r, p, v, ro, al, om, hx, hr, hp, hv => by
    unfold bicgLoop BiCG.loop
    refine agrees_dot hS hr h0 fun rho => ?_
    refine agrees_ite ?_ ?_
    · exact agrees_residual hm hS hr fun c => agrees_ret hx
    refine agrees_direction hA hr hp hv fun p' hp' => ?_
    refine agrees_block hf hp' fun ph hph => ?_
    refine agrees_block hA.mv hph fun v' hv' => ?_
    refine agrees_dot hS hv' h0 fun vr0 => ?_
    refine agrees_axpyz hv' hr hA.rows hA.row fun sv hsv => ?_
    refine agrees_block hf hsv fun sh hsh => ?_
    refine agrees_block hA.mv hsh fun t ht => ?_
    refine agrees_dot hS ht hsv fun ts => ?_
    refine agrees_dot hS ht ht fun tt => ?_
    refine agrees_ite ?_ ?_
    · exact agrees_residual hm hS hr fun c => agrees_ret hx
    refine agrees_axpy hph hx fun x1 hx1 => ?_
    refine agrees_axpy hsh hx1 fun x2 hx2 => ?_
    refine agrees_axpyz ht hsv hA.rows hA.row fun r' hr' => ?_
    refine agrees_residual hm hS hr' fun resid => ?_
    exact agrees_stop hm hS hx2 hr' (agrees_bicgLoop hm hS hA hf h0 n (iter + 1) x2 r' p' v' _ _ _ hx2 hr' hp' hv')

theorem C108_bicg {cfg : Cfg α} (hm : cfg.residMethod = 0) (hS : Sums N comb ns S) {As : Fin P → Mat α} {A : Mat α}
    (hA : BlockMat ns As A) {creates : Fin P → Res (List α → Res (List α))} {create : Res (List α → Res (List α))}
    (hc : BlockPc ns creates create) {x b : Fin P → List α} (hx : Shape ns x) (hb : Shape ns b) :
    Agrees comb ns (fun i => bicg N cfg (As i) (creates i) (x i) (b i))
      (BiCG.solve (glob N S) cfg A create (cat x) (cat b)) := by
  unfold bicg BiCG.solve BiCG.monolish
  by_cases hl : cfg.lib = 0
  · simp only [if_pos hl]
    refine agrees_square hA ?_
    refine agrees_create hc fun fs f hf => ?_
    refine agrees_block hA.mv hx fun q hq => ?_
    refine agrees_vsub hb hq hA.rows hA.row fun r hr => ?_
    have hz : Shape ns (fun i => List.replicate (ns i) N.zero) := fun i => by simp
    have h := agrees_bicgLoop hm hS hA hf hr cfg.maxiter 0 x r _ _ N.one N.one N.one hx hr hz hz
    rw [cat_replicate, ← hA.row] at h
    simp only [← hA.rows] at h
    exact h
  · simp only [if_neg hl]
    exact agrees_lib hx

/-! ### Jacobi and SOR -/

theorem agrees_jacobiLoop {cfg : Cfg α} (hm : cfg.residMethod = 0) (hS : Sums N comb ns S) {As : Fin P → Mat α}
    {A : Mat α} (hA : BlockMat ns As A) {fs : Fin P → List α → Res (List α)} {f : List α → Res (List α)}
    (hf : Block ns fs f) {b d : Fin P → List α} (hb : Shape ns b) (hd : Shape ns d) {binv : α} :
    ∀ (n iter : Nat) (x r : Fin P → List α), Shape ns x → Shape ns r →
      Agrees comb ns (fun i => jacobiLoop N cfg (As i) (fs i) (b i) (d i) binv n iter (x i) (r i))
        (Jacobi.loop (glob N S) cfg A f (cat b) (cat d) binv n iter (cat x) (cat r))
  | 0, iter, x, r, hx, hr => agrees_max hm hS hx hr
  | n + 1, iter, x, r, hx, hr => by
    unfold jacobiLoop Jacobi.loop
    refine agrees_block hf hx fun _ _ => ?_
    refine agrees_copy hx hA.rows hA.row ?_
    refine agrees_block hA.mv hx fun t ht => ?_
    refine agrees_axpyz ht hb hA.rows hA.row fun r1 hr1 => ?_
    refine agrees_nrm2 hS hr1 ?_
    refine agrees_vmul hr1 hd hA.rows hA.row fun r2 hr2 => ?_
    refine agrees_vadd hx hr2 hx (cat_length hx) fun x' hx' => ?_
    exact agrees_stop hm hS hx' hr2 (agrees_jacobiLoop hm hS hA hf hb hd n (iter + 1) x' r2 hx' hr2)

theorem reciprocal_cat (d : Fin P → List α) : (glob N S).reciprocal (cat d) = cat (fun i => N.reciprocal (d i)) :=
  cat_map _ d

theorem C108_jacobi {cfg : Cfg α} (hm : cfg.residMethod = 0) (hS : Sums N comb ns S) {As : Fin P → Mat α} {A : Mat α}
    (hA : BlockMat ns As A) {creates : Fin P → Res (List α → Res (List α))} {create : Res (List α → Res (List α))}
    (hc : BlockPc ns creates create) {x b : Fin P → List α} (hx : Shape ns x) (hb : Shape ns b) :
    Agrees comb ns (fun i => jacobi N cfg (As i) (creates i) (x i) (b i))
      (Jacobi.solve (glob N S) cfg A create (cat x) (cat b)) := by
  unfold jacobi Jacobi.solve Jacobi.monolish
  by_cases hl : cfg.lib = 0
  · simp only [if_pos hl]
    refine agrees_square hA ?_
    refine agrees_nrm2 hS hb ?_
    refine agrees_diag hA fun d hd => ?_
    refine agrees_create hc fun fs f hf => ?_
    have hz : Shape ns (fun i => List.replicate (ns i) N.zero) := fun i => by simp
    have h := agrees_jacobiLoop (binv := N.div N.one ((glob N S).nrm2 (cat b))) hm hS hA hf hb
      (d := fun i => N.reciprocal (d i)) (shape_map hd) cfg.maxiter 0 x _ hx hz
    rw [cat_replicate, ← hA.row, ← reciprocal_cat (S := S)] at h
    simp only [← hA.rows] at h
    exact h
  · simp only [if_neg hl]
    exact agrees_lib hx

theorem agrees_block3 {fs : Fin P → List α → List α → List α → Res (List α)}
    {f : List α → List α → List α → Res (List α)} (hf : Block3 ns fs f) {d t x : Fin P → List α} (hd : Shape ns d)
    (ht : Shape ns t) (hx : Shape ns x) {k : Fin P → List α → Proc α (Out α)} {g : List α → Res (Out α)}
    (h : ∀ l, Shape ns l → Agrees comb ns (fun i => k i (l i)) (g (cat l))) :
    Agrees comb ns (fun i => loc (fs i (d i) (t i) (x i)) >>= k i) (f (cat d) (cat t) (cat x) >>= g) := by
  obtain ⟨y, h1, h2, h3⟩ := hf d t x hd ht hx
  exact agrees_loc h2 h3 (h y h1)

theorem agrees_sorLoop {cfg : Cfg α} (hm : cfg.residMethod = 0) (hS : Sums N comb ns S) {As : Fin P → Mat α}
    {A : Mat α} (hA : BlockMat ns As A) {lowers : Fin P → List α → List α → List α → Res (List α)}
    {lower : List α → List α → List α → Res (List α)} (hl : Block3 ns lowers lower)
    {fs : Fin P → List α → Res (List α)} {f : List α → Res (List α)}
    (hf : Block ns fs f) {b d : Fin P → List α} (hb : Shape ns b) (hd : Shape ns d) {binv : α} :
    ∀ (n iter : Nat) (x r : Fin P → List α), Shape ns x → Shape ns r →
      Agrees comb ns (fun i => sorLoop N cfg (As i) (lowers i) (fs i) (b i) (d i) binv n iter (x i) (r i))
        (SOR.loop (glob N S) cfg A lower f (cat b) (cat d) binv n iter (cat x) (cat r))
  | 0, iter, x, r, hx, hr => agrees_max hm hS hx hr
  | n + 1, iter, x, r, hx, hr => by
    unfold sorLoop SOR.loop
    refine agrees_block hf hx fun s hs => ?_
    refine agrees_block hA.mv hs fun t ht => ?_
    refine agrees_axpyz ht hb hA.rows hA.row fun r1 hr1 => ?_
    refine agrees_nrm2 hS hr1 ?_
    refine agrees_block3 hl hd ht hr1 fun t' ht' => ?_
    refine agrees_axpy ht' hx fun x' hx' => ?_
    exact agrees_stop hm hS hx' hr1 (agrees_sorLoop hm hS hA hl hf hb hd n (iter + 1) x' r1 hx' hr1)

theorem C108_sor {cfg : Cfg α} (hm : cfg.residMethod = 0) (hS : Sums N comb ns S) {As : Fin P → Mat α} {A : Mat α}
    (hA : BlockMat ns As A) {lowers : Fin P → List α → List α → List α → Res (List α)}
    {lower : List α → List α → List α → Res (List α)} (hl : Block3 ns lowers lower)
    {creates : Fin P → Res (List α → Res (List α))} {create : Res (List α → Res (List α))}
    (hc : BlockPc ns creates create) {x b : Fin P → List α} (hx : Shape ns x) (hb : Shape ns b) :
    Agrees comb ns (fun i => sor N cfg (As i) (lowers i) (creates i) (x i) (b i))
      (SOR.solve (glob N S) cfg A lower create (cat x) (cat b)) := by
  unfold sor SOR.solve SOR.monolish
  by_cases h0 : cfg.lib = 0
  · simp only [if_pos h0]
    refine agrees_square hA ?_
    refine agrees_diag hA fun d hd => ?_
    refine agrees_nrm2 hS hb ?_
    refine agrees_create hc fun fs f hf => ?_
    have hz : Shape ns (fun i => List.replicate (ns i) N.zero) := fun i => by simp
    have h := agrees_sorLoop (binv := N.div N.one ((glob N S).nrm2 (cat b))) hm hS hA hl hf hb
      (d := fun i => N.reciprocal ((d i).map (N.mul (N.div N.one cfg.omega)))) (shape_map (shape_map hd)) cfg.maxiter 0 x _
      hx hz
    rw [cat_replicate, ← hA.row, ← reciprocal_cat (S := S), ← cat_map] at h
    simp only [← hA.rows] at h
    exact h
  · simp only [if_neg h0]
    exact agrees_lib hx

/-! ### Preconditioners -/

/-- no preconditioner -/
theorem blockPc_none : BlockPc (α := α) ns (fun _ => noPrecond) noPrecond :=
  ⟨fun _ r => .ok r, fun r => .ok r, fun _ => rfl, rfl, fun x hx => ⟨x, hx, fun _ => rfl, rfl⟩⟩

/-- the Jacobi preconditioner -/
theorem blockPc_jacobi {As : Fin P → Mat α} {A : Mat α} (hA : BlockMat ns As A) :
    BlockPc ns (fun i => jacobiPrecond N (As i)) (jacobiPrecond (glob N S) A) := by
  obtain ⟨d, h1, h2, h3⟩ := hA.diag
  refine ⟨fun i r => N.vmul (N.reciprocal (d i)) r r.length, fun r => N.vmul (N.reciprocal (cat d)) r r.length, ?_, ?_, ?_⟩
  · intro i
    unfold jacobiPrecond
    dsimp only
    rw [if_neg (by rw [hA.rows i, hA.cols i]; simp), h2 i]
    rfl
  · unfold jacobiPrecond
    rw [if_neg (by rw [hA.row, hA.col]; simp), h3]
    rfl
  · intro x hx
    have hr : Shape ns (fun i => N.reciprocal (d i)) := shape_map h1
    have e : N.reciprocal (cat d) = cat (fun i => N.reciprocal (d i)) := cat_map _ d
    refine ⟨fun i => List.zipWith N.mul (N.reciprocal (d i)) (x i), shape_zipWith hr hx, fun i => ?_, ?_⟩
    · unfold Num.vmul
      dsimp only
      have hri : (N.reciprocal (d i)).length = ns i := hr i
      rw [cassert_decide (by rw [hri, hx i]; exact ⟨rfl, rfl⟩)]
      rfl
    · unfold Num.vmul
      dsimp only
      rw [cassert_decide (by rw [e, cat_length hr, cat_length hx]; exact ⟨rfl, rfl⟩), e, cat_zipWith _ hr hx]
      rfl

end Verif.MpiSolver
