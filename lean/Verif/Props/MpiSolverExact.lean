import Verif.Props.MpiSolverWhole
import Verif.Props.CGTerm
import Verif.Props.SolverMat
import Verif.Lemmas.Sor
import Mathlib.Algebra.BigOperators.Fin
import Mathlib.Data.Matrix.Block

/-!
C108: CRS matrices on the processes; CG on symmetric positive definite blocks in exact arithmetic.
-/

namespace Verif.MpiSolver

open Verif.Solver Verif.Spec

section Crs

variable {α : Type} [Zero α] [One α] [Add α] [Mul α]

/-- every square CRS matrix, every arithmetic, every schedule -/
theorem good_crs {n : Nat} (A : Crs α) (hA : A.Safe) (hr : A.rowN = n) (hc : A.colN = n) (order zo : List Nat)
    (ho : Order order n) (hz : Order zo n) : Good n (ofCrs order zo A) where
  row := hr
  col := hc
  mv l hl := by
    have hy : (⟨List.replicate A.rowN (0 : α), 0, A.rowN⟩ : Win α).Ok := by simp [Win.Ok]
    obtain ⟨y, h1, h2, _⟩ := C16_matvec_exact A hA ⟨l, 0, l.length⟩ ⟨List.replicate A.rowN 0, 0, A.rowN⟩
      (by simp [hl, hc]) rfl hy (fun j => l.getD j 0) (fun j hj => by
        simp only at hj
        simp [Win.get, rd_eq_ok, List.getD, hj]) order (by rw [hr]; exact ho)
    refine ⟨y.buf, by rw [h2.len]; simp [hr], ?_⟩
    simp only [ofCrs, h1, Res.ok_bind]
  diag := by
    have hy : (⟨List.replicate A.rowN (0 : α), 0, A.rowN⟩ : Win α).Ok := by simp [Win.Ok]
    have hm : min A.rowN A.colN = n := by omega
    obtain ⟨d, h1, h2, _⟩ := C19_crs_diag_partial hA (zo := zo) (order := order)
      (by rw [hm]; exact hz) (by rw [hm]; exact ho) hy rfl (by show A.rowN = _; omega)
    refine ⟨d.buf, by rw [h2.len]; simp [hr], ?_⟩
    simp only [ofCrs, h1, Res.ok_bind]

omit [Zero α] [One α] [Add α] [Mul α] in
theorem works_crsLower (N : Num α) {A : Crs α} (hA : A.Safe) {D t : List α} (hD : D.length = A.rowN)
    (ht : t.length = A.rowN) : Works A.rowN (crsLower N A D t) := by
  intro l hl
  have key : (crsLower N A D t l).Sat (fun x => x.length = A.rowN) := by
    unfold crsLower
    refine forN_sat (fun _ (x : List α) => x.length = A.rowN) ht ?_
    intro i x hi hx
    have hne : 0 < l.length := by omega
    have e1 : rd l i = .ok (l[i]'(by omega)) := rd_of_getElem? (List.getElem?_eq_getElem (by omega))
    have e2 : rd D i = .ok (D[i]'(by omega)) := rd_of_getElem? (List.getElem?_eq_getElem (by omega))
    rw [e1, Res.ok_bind, rd_ptr hA.lenP (by omega), Res.ok_bind, rd_ptr hA.lenP (by omega), Res.ok_bind]
    have hlen : A.ptr (i + 1) - A.ptr i = (A.rowEntries i).length := by rw [hA.length_rowEntries hi]
    rw [hlen]
    have := crsLowerRow_eq N hA hi (x := x) (xf := fun c => x.getD c l[i])
      (fun c hc => by simp [List.getD, List.getElem?_eq_getElem (show c < x.length by omega)]) _ 0 (Nat.zero_add _) (l[i]'(by omega))
    rw [Nat.add_zero, List.drop_zero] at this
    rw [this, Res.ok_bind, e2, Res.ok_bind, wr_ok (by omega)]
    exact Res.sat_ok.mpr (by simp [hx])
  obtain ⟨y, h1, h2⟩ := key
  exact ⟨y, h2, h1⟩

/-- Any CRS matrices on the processes, any arithmetic, order of the reductions and schedules: with no preconditioner or
the Jacobi one, no deadlock and one return code. -/
theorem C108_crs {P : Nat} {N : Num α} {comb : (Fin P → α) → α} {ns : Fin P → Nat} {cfg : Cfg α} (hm : cfg.residMethod = 0)
    (A : Fin P → Crs α) (hA : ∀ i, (A i).Safe) (hr : ∀ i, (A i).rowN = ns i) (hc : ∀ i, (A i).colN = ns i)
    (order zo : Fin P → List Nat) (ho : ∀ i, Order (order i) (ns i)) (hz : ∀ i, Order (zo i) (ns i))
    {x b : Fin P → List α} (hx : Shape ns x) (hb : Shape ns b) (jac : Bool) :
    let M i := ofCrs (order i) (zo i) (A i)
    let pc i := if jac then jacobiPrecond N (M i) else noPrecond
    Together comb ns (fun i => cg N cfg (M i) (pc i) (x i) (b i)) ∧
    Together comb ns (fun i => bicg N cfg (M i) (pc i) (x i) (b i)) ∧
    Together comb ns (fun i => jacobi N cfg (M i) (pc i) (x i) (b i)) ∧
    Together comb ns (fun i => sor N cfg (M i) (crsLower N (A i)) (pc i) (x i) (b i)) := by
  intro M pc
  have hG : ∀ i, Good (ns i) (M i) := fun i => good_crs (A i) (hA i) (hr i) (hc i) _ _ (ho i) (hz i)
  have hP : ∀ i, ∃ f, pc i = .ok f ∧ Works (ns i) f := by
    intro i
    cases jac with
    | false => exact ⟨fun r => .ok r, rfl, fun l hl => ⟨l, hl, rfl⟩⟩
    | true =>
      obtain ⟨d, hd, he⟩ := (hG i).diag
      refine ⟨fun r => N.vmul (N.reciprocal d) r r.length, ?_, fun l hl => ?_⟩
      · show jacobiPrecond N (M i) = _
        unfold jacobiPrecond
        rw [if_neg (by rw [(hG i).row, (hG i).col]; simp), he]
        rfl
      · have hd' : (N.reciprocal d).length = ns i := by simp [Num.reciprocal, hd]
        refine ⟨List.zipWith N.mul (N.reciprocal d) l, by simp [hd', hl], ?_⟩
        unfold Num.vmul
        dsimp only
        rw [cassert_decide (by rw [hd', hl]; exact ⟨rfl, rfl⟩)]
        rfl
  obtain ⟨h1, h2, h3⟩ := C108_together (N := N) (comb := comb) hm hG hP hx hb
  refine ⟨h1, h2, h3, C108_together_sor hm hG hP (fun i d t hd ht => ?_) hx hb⟩
  have := works_crsLower N (hA i) (D := d) (t := t) (by rw [hd, hr]) (by rw [ht, hr])
  rwa [hr i] at this

end Crs

/-! ### Exact arithmetic -/

section Exact

variable {α K : Type} {P : Nat} {ns : Fin P → Nat}

open Matrix

/-- the whole vector of numbers -/
def whole (u : ∀ i, Fin (ns i) → K) : Fin (∑ i, ns i) → K :=
  fun k => u (finSigmaFinEquiv.symm k).1 (finSigmaFinEquiv.symm k).2

theorem total_eq (ns : Fin P → Nat) : total ns = ∑ i, ns i := by
  unfold total
  rw [List.sum_ofFn]

/-- where an element of a part is in the whole -/
theorem cat_get : ∀ {P : Nat} {ns : Fin P → Nat} {x : Fin P → List α} (_ : Shape ns x) (i : Fin P) (j : Fin (ns i)),
    (cat x)[(finSigmaFinEquiv (⟨i, j⟩ : (i : Fin P) × Fin (ns i)) : Nat)]? = (x i)[(j : Nat)]?
  | 0, _, _, _, i, _ => i.elim0
  | P + 1, ns, x, h, i, j => by
    rw [cat_succ, finSigmaFinEquiv_apply]
    induction i using Fin.cases with
    | zero =>
      have e : ∑ k : Fin ((0 : Fin (P + 1)) : Nat), ns (Fin.castLE (Fin.is_lt 0).le k) = 0 := Finset.sum_empty
      dsimp only at e ⊢
      rw [e, Nat.zero_add]
      rw [List.getElem?_append_left (by rw [h 0]; exact j.2)]
    | succ i =>
      have ih := cat_get (ns := fun i => ns i.succ) (x := fun i => x i.succ) (fun i => h i.succ) i j
      rw [finSigmaFinEquiv_apply] at ih
      rw [← ih]
      have e : ∑ k : Fin (i.succ : Nat), ns (Fin.castLE (Fin.is_lt i.succ).le k) =
          ns 0 + ∑ k : Fin (i : Nat), ns (Fin.castLE (Fin.is_lt i).le k).succ := by
        show ∑ k : Fin ((i : Nat) + 1), _ = _
        rw [Fin.sum_univ_succ]
        rfl
      dsimp only at e ⊢
      rw [e, Nat.add_assoc, List.getElem?_append_right (by rw [h 0]; omega), h 0, Nat.add_sub_cancel_left]

theorem vec_whole (ι : K → α) (u : ∀ i, Fin (ns i) → K) : cat (fun i => vec ι (u i)) = vec ι (whole u) := by
  have hs : Shape ns (fun i => vec ι (u i)) := fun i => by simp [vec]
  apply List.ext_getElem?
  intro k
  by_cases hk : k < ∑ i, ns i
  · obtain ⟨⟨i, j⟩, hij⟩ := finSigmaFinEquiv.surjective (⟨k, hk⟩ : Fin (∑ i, ns i))
    have := cat_get hs i j
    rw [hij] at this
    rw [this]
    simp only [vec, List.getElem?_ofFn, Fin.is_lt, hk, dite_true, whole]
    rw [← hij, Equiv.symm_apply_apply]
  · rw [List.getElem?_eq_none (by rw [cat_length hs, total_eq]; omega), List.getElem?_eq_none (by simp [vec]; omega)]

theorem whole_surj (v : Fin (∑ i, ns i) → K) : whole (fun i j => v (finSigmaFinEquiv ⟨i, j⟩)) = v := by
  funext k
  simp [whole]

theorem whole_apply (u : ∀ i, Fin (ns i) → K) (i : Fin P) (j : Fin (ns i)) :
    whole u (finSigmaFinEquiv ⟨i, j⟩) = u i j := by
  unfold whole
  rw [Equiv.symm_apply_apply]

variable [Field K]

/-- the block-diagonal matrix -/
def blocks (Ms : ∀ i, Matrix (Fin (ns i)) (Fin (ns i)) K) : Matrix (Fin (∑ i, ns i)) (Fin (∑ i, ns i)) K :=
  (Matrix.blockDiagonal' Ms).submatrix finSigmaFinEquiv.symm finSigmaFinEquiv.symm

theorem dot_whole (u v : ∀ i, Fin (ns i) → K) : whole u ⬝ᵥ whole v = ∑ i, u i ⬝ᵥ v i := by
  unfold dotProduct
  rw [← Equiv.sum_comp finSigmaFinEquiv, Fintype.sum_sigma]
  simp only [whole_apply]

theorem blocks_mulVec (Ms : ∀ i, Matrix (Fin (ns i)) (Fin (ns i)) K) (u : ∀ i, Fin (ns i) → K) :
    blocks Ms *ᵥ whole u = whole (fun i => Ms i *ᵥ u i) := by
  funext k
  obtain ⟨⟨i, j⟩, rfl⟩ := finSigmaFinEquiv.surjective k
  rw [whole_apply]
  unfold blocks Matrix.mulVec dotProduct
  rw [← Equiv.sum_comp finSigmaFinEquiv, Fintype.sum_sigma]
  simp only [whole_apply, Matrix.submatrix_apply, Equiv.symm_apply_apply]
  rw [Finset.sum_eq_single i]
  · simp only [Matrix.blockDiagonal'_apply_eq]
  · intro i' _ hi'
    apply Finset.sum_eq_zero
    intro j' _
    rw [Matrix.blockDiagonal'_apply_ne _ _ _ hi'.symm, zero_mul]
  · intro h
    exact absurd (Finset.mem_univ i) h

theorem blocks_diag (Ms : ∀ i, Matrix (Fin (ns i)) (Fin (ns i)) K) :
    (blocks Ms).diag = whole (fun i => (Ms i).diag) := by
  funext k
  obtain ⟨⟨i, j⟩, rfl⟩ := finSigmaFinEquiv.surjective k
  rw [whole_apply]
  simp [blocks, Matrix.diag]

theorem blocks_spd [LinearOrder K] [IsStrictOrderedRing K] (Ms : ∀ i, Matrix (Fin (ns i)) (Fin (ns i)) K)
    (h : ∀ i, SPD (Ms i)) : SPD (blocks Ms) := by
  constructor
  · unfold blocks
    rw [Matrix.transpose_submatrix, Matrix.blockDiagonal'_transpose]
    congr 2
    funext i
    exact (h i).1
  · intro v hv
    rw [← whole_surj v, blocks_mulVec, dot_whole]
    have hnn : ∀ i, 0 ≤ (fun j => v (finSigmaFinEquiv ⟨i, j⟩)) ⬝ᵥ (Ms i *ᵥ fun j => v (finSigmaFinEquiv ⟨i, j⟩)) := by
      intro i
      by_cases h0 : (fun j => v (finSigmaFinEquiv (⟨i, j⟩ : (i : Fin P) × Fin (ns i)))) = 0
      · rw [h0, zero_dotProduct]
      · exact ((h i).2 _ h0).le
    obtain ⟨k, hk⟩ := Function.ne_iff.mp hv
    obtain ⟨⟨i, j⟩, rfl⟩ := finSigmaFinEquiv.surjective k
    refine Finset.sum_pos' (fun i _ => hnn i) ⟨i, Finset.mem_univ i, (h i).2 _ ?_⟩
    intro h0
    exact hk (congrFun h0 j)

theorem blockMat_isMat {ι : K → α} {As : Fin P → Mat α} {A : Mat α} (hA : BlockMat ns As A)
    {Ms : ∀ i, Matrix (Fin (ns i)) (Fin (ns i)) K} (hM : ∀ i, IsMat (As i) ι (Ms i)) : IsMat A ι (blocks Ms) where
  row := by rw [hA.row, total_eq]
  col := by rw [hA.col, total_eq]
  mv v := by
    have hs : Shape ns (fun i => vec ι (fun j : Fin (ns i) => v (finSigmaFinEquiv ⟨i, j⟩))) := fun i => by simp [vec]
    obtain ⟨y, h1, h2, h3⟩ := hA.mv _ hs
    rw [vec_whole, whole_surj] at h3
    rw [h3, ← whole_surj v, blocks_mulVec, ← vec_whole]
    congr 2
    funext i
    have := h2 i
    dsimp only at this
    rw [(hM i).mv] at this
    injection this with this
    exact this.symm
  diag := by
    obtain ⟨d, h1, h2, h3⟩ := hA.diag
    rw [h3, blocks_diag, ← vec_whole]
    congr 2
    funext i
    have := h2 i
    rw [(hM i).diag] at this
    injection this with this
    exact this.symm

theorem blockPc_isPrecond {ι : K → α} {creates : Fin P → Res (List α → Res (List α))}
    {create : Res (List α → Res (List α))} (hc : BlockPc ns creates create)
    {Qs : ∀ i, Matrix (Fin (ns i)) (Fin (ns i)) K} (hQ : ∀ i, IsPrecond (creates i) ι (byMatrix (Qs i))) :
    IsPrecond create ι (byMatrix (blocks Qs)) := by
  obtain ⟨fs, f, h1, h2, h3⟩ := hc
  refine ⟨f, h2, fun v => ?_⟩
  have hs : Shape ns (fun i => vec ι (fun j : Fin (ns i) => v (finSigmaFinEquiv ⟨i, j⟩))) := fun i => by simp [vec]
  obtain ⟨y, g1, g2, g3⟩ := h3 _ hs
  rw [vec_whole, whole_surj] at g3
  rw [g3, ← whole_surj v]
  show _ = Res.ok (vec ι (blocks Qs *ᵥ _))
  rw [blocks_mulVec, ← vec_whole]
  congr 2
  funext i
  obtain ⟨pc, p1, p2⟩ := hQ i
  rw [h1 i] at p1
  injection p1 with p1
  have := g2 i
  rw [p1, p2] at this
  injection this with this
  exact this.symm

/-- **CG on several processes, exact arithmetic.** Every process has a symmetric positive definite matrix (and
preconditioner), at least one does not start from its solution, and the limit of iterations is at least the total number of
unknowns: all processes return SUCCESS together, after at most that many iterations; each has its part of a vector whose
overall residual is below the tolerance. A process that starts from its own solution does no harm. -/
theorem C108_cg_spd [LinearOrder K] [IsStrictOrderedRing K] {N : Num α} {ι : K → α} {sq : K → K} (hE : Exact N ι sq)
    (hsq : sq 0 = 0) {comb : (Fin P → α) → α} (hcomb : ∀ v : Fin P → K, comb (fun i => ι (v i)) = ι (∑ i, v i))
    (cfg : Cfg α) (tol : K) (htol : 0 < tol) (ht : cfg.tol = ι tol) (hlib : cfg.lib = 0)
    (hm : cfg.residMethod = 0) (hmin : cfg.miniter = 0) (hmax : ∑ i, ns i ≤ cfg.maxiter)
    (As : Fin P → Mat α) (hG : ∀ i, Good (ns i) (As i)) (Ms : ∀ i, Matrix (Fin (ns i)) (Fin (ns i)) K)
    (hM : ∀ i, IsMat (As i) ι (Ms i)) (hspd : ∀ i, SPD (Ms i))
    (creates : Fin P → Res (List α → Res (List α))) (hW : ∀ i, ∃ pc, creates i = .ok pc ∧ Works (ns i) pc)
    (Qs : ∀ i, Matrix (Fin (ns i)) (Fin (ns i)) K) (hQ : ∀ i, SPD (Qs i))
    (hP : ∀ i, IsPrecond (creates i) ι (byMatrix (Qs i))) (x b : ∀ i, Fin (ns i) → K) (hx : ∃ i, Ms i *ᵥ x i ≠ b i) :
    ∃ (k : Nat) (y : ∀ i, Fin (ns i) → K) (res : K), 1 ≤ k ∧ k ≤ ∑ i, ns i ∧
      res = sq (∑ i, (b i - Ms i *ᵥ y i) ⬝ᵥ (b i - Ms i *ᵥ y i)) ∧ res < tol ∧
      Completes comb (fun i => cg N cfg (As i) (creates i) (vec ι (x i)) (vec ι (b i)))
        (fun i => .ok { status := SUCCESS, x := vec ι (y i), finalIter := k, finalResid := ι res }) := by
  obtain ⟨A, hA⟩ := exists_blockMat hG
  obtain ⟨create, hc⟩ := exists_blockPc hW
  have hS : Sums N comb ns (sumOf N comb ns) := sumOf_sums
  have hxs : Shape ns (fun i => vec ι (x i)) := fun i => by simp [vec]
  have hbs : Shape ns (fun i => vec ι (b i)) := fun i => by simp [vec]
  have hag := C108_cg hm hS hA hc hxs hbs
  have hE' : Exact (glob N (sumOf N comb ns)) ι sq :=
    { zero := hE.zero, one := hE.one, add := hE.add, sub := hE.sub, mul := hE.mul, div := hE.div, neg := hE.neg,
      sqrt := hE.sqrt, lt := hE.lt, isNaN := hE.isNaN, isZero := hE.isZero
      sum := by
        intro l
        show sumOf N comb ns (l.map ι) = _
        unfold sumOf
        by_cases hl : (l.map ι).length = total ns
        · rw [if_pos hl]
          rw [List.length_map] at hl
          obtain ⟨p1, p2⟩ := cat_parts hl
          have e : parts ns (l.map ι) = fun i => (parts ns l i).map ι := by
            conv_lhs => rw [← p2]
            rw [cat_map, parts_cat (shape_map p1)]
          rw [e]
          simp only [hE.sum]
          rw [hcomb]
          congr 1
          conv_rhs => rw [← p2]
          unfold cat
          rw [List.sum_flatten, List.map_ofFn, List.sum_ofFn]
          rfl
        · rw [if_neg hl, hE.sum] }
  have hne : blocks Ms *ᵥ whole x ≠ whole b := by
    obtain ⟨i, hi⟩ := hx
    intro h
    apply hi
    rw [blocks_mulVec] at h
    funext j
    have := congrFun h (finSigmaFinEquiv ⟨i, j⟩)
    rwa [whole_apply, whole_apply] at this
  obtain ⟨k, y, hk1, hk2, hr, he⟩ := C34_terminates hE' hsq cfg tol htol ht hlib hm hmin hmax A (blocks Ms)
    (blockMat_isMat hA hM) (blocks_spd Ms hspd) create (blocks Qs) (blocks_spd Qs hQ) (blockPc_isPrecond hc hP)
    (whole x) (whole b) hne
  obtain ⟨ys, st, it, fr, hy, hw, hcpl⟩ := hag
  rw [vec_whole, vec_whole, he] at hw
  injection hw with hw
  injection hw with w1 w2 w3 w4
  rw [← whole_surj y, ← vec_whole] at w2
  have hys : ys = fun i => vec ι (fun j : Fin (ns i) => y (finSigmaFinEquiv ⟨i, j⟩)) := by
    rw [← parts_cat hy, ← w2, parts_cat]
    intro i
    simp [vec]
  have hres : norm2 sq (whole b - blocks Ms *ᵥ y) = sq (∑ i, (b i - Ms i *ᵥ fun j => y (finSigmaFinEquiv ⟨i, j⟩)) ⬝ᵥ
      (b i - Ms i *ᵥ fun j => y (finSigmaFinEquiv ⟨i, j⟩))) := by
    unfold norm2
    rw [← dot_whole]
    have : whole b - blocks Ms *ᵥ y = whole (fun i => b i - Ms i *ᵥ fun j => y (finSigmaFinEquiv ⟨i, j⟩)) := by
      conv_lhs => rw [← whole_surj y, blocks_mulVec]
      rfl
    rw [this]
  refine ⟨k, fun i j => y (finSigmaFinEquiv ⟨i, j⟩), _, hk1, hk2, hres, hr, ?_⟩
  rw [← w1, hys, ← w3, ← w4] at hcpl
  exact hcpl

end Exact

/-! ### Examples -/

/-- two processes with the same matrix; the second starts from its solution -/
example : ∃ (k : Nat) (y : Fin 2 → Fin 2 → ℚ) (res : ℚ), 1 ≤ k ∧ k ≤ 4 ∧ res < 1 / 100 ∧
    Completes (fun v : Fin 2 → ℚ => v 0 + v 1)
      (fun i => cg (fieldNum id) exCfg (ofCrs [1, 0] [0, 1] exA) noPrecond [0, 0] (List.ofFn (![![1, 0], ![0, 0]] i)))
      (fun i => .ok { status := SUCCESS, x := List.ofFn (y i), finalIter := k, finalResid := res }) := by
  obtain ⟨k, y, res, h1, h2, _, h3, h4⟩ := C108_cg_spd (P := 2) (ns := fun _ => 2) (fieldNum_exact id) rfl
    (comb := fun v : Fin 2 → ℚ => v 0 + v 1) (fun v => by simp [Fin.sum_univ_two]) exCfg (1 / 100) (by norm_num) rfl rfl
    rfl rfl (by decide) (fun _ => ofCrs [1, 0] [0, 1] exA)
    (fun _ => good_crs exA exA_safe rfl rfl _ _ (by unfold Order; decide) (by unfold Order; decide)) _
    (fun _ => isMat_crs exA exA_safe exA_distinct rfl rfl _ _ (by unfold Order; decide) (by unfold Order; decide))
    (fun _ => exA_spd) (fun _ => noPrecond) (fun _ => ⟨_, rfl, fun l hl => ⟨l, hl, rfl⟩⟩) _ (fun _ => spd_one)
    (fun _ => noPrecond_is id) (fun _ => ![0, 0]) (![![1, 0], ![0, 0]]) ⟨0, by
      intro h
      have h := congrFun h 0
      simp [Matrix.mulVec] at h⟩
  exact ⟨k, y, res, h1, by simpa using h2, h3, h4⟩

/-- the hypotheses of `C108_crs` hold for parts of different sizes: 2 and 0 -/
example : Together (P := 2) (fun v : Fin 2 → ℚ => v 0 + v 1) ![2, 0]
    (fun i => bicg (fieldNum id) exCfg (ofCrs (![[1, 0], []] i) (![[0, 1], []] i)
      ((![exA, ⟨0, 0, [0], [], [], 0, 0, true⟩] : Fin 2 → Crs ℚ) i)) noPrecond (![[0, 0], []] i) (![[1, 0], []] i)) := by
  refine (C108_crs (P := 2) (jac := false) rfl _ (fun i => ?_) (fun i => ?_) (fun i => ?_) _ _ (fun i => ?_) (fun i => ?_)
    (fun i => ?_) (fun i => ?_)).2.1
  · fin_cases i
    · exact exA_safe
    · exact { created := rfl, lenV := rfl, nnz_le := by decide, lenP := rfl, ptr_le := by decide,
              lenC := by decide, col_lt := by decide }
  all_goals fin_cases i
  all_goals first | rfl | (unfold Order; decide)

/-- two processes with limits 10 and 0: no completion -/
example : ¬ ∃ r, Completes (fun v : Fin 2 → ℚ => v 0 + v 1)
    (fun i => cg (fieldNum id) ((![exCfg, { exCfg with maxiter := 0 }] : Fin 2 → Cfg ℚ) i) (ofCrs [1, 0] [0, 1] exA)
      noPrecond [0, 0] [1, 0]) r := by
  refine C108_maxiter_violated (ns := fun _ => 2) (i := 1) (j := 0) (fun i => ?_) (fun i => ?_) (fun _ => good_crs exA exA_safe rfl rfl _ _
    (by unfold Order; decide) (by unfold Order; decide)) (fun _ => rfl) (fun _ => rfl) rfl (by decide)
  · fin_cases i <;> rfl
  · fin_cases i <;> rfl

end Verif.MpiSolver
