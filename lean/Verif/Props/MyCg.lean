import Verif.Model.MyCg
import Verif.Props.EndToEnd

/-!
C89: the documented hand-written CG, using only the public vector functions, does exactly what `equation::CG`
without preconditioner does.
-/

namespace Verif.MyCg

open Spec Verif.Solver Verif.Prog

variable {α : Type}

/-- the options `my_cg` corresponds to: tolerance `tol`, at most one iteration per row, the rest as constructed -/
def options (tol omega resid0 : α) (row : Nat) : Cfg α :=
  { tol := tol, maxiter := row, omega := omega, prevResid := resid0 }

/-- `my_cg` and `solve` had the same effect: both stopped in the same way, or both returned, with the same `x`,
one printed line per iteration, numbered from 1, the last one with the final residual, and the logger closed
unless the residual is NaN -/
def SameRun (row : Nat) (r : Res (Out α)) (r' : Res (Solver.Out α)) : Prop :=
  match r, r' with
  | .ok o, .ok o' => o.x = o'.x ∧ o.printed.length = o'.finalIter ∧
      (∀ k, k < o'.finalIter → (o.printed[k]?).map Prod.fst = some (k + 1)) ∧
      (0 < row → (o.printed.getLast?).map Prod.snd = some o'.finalResid) ∧
      (o.closed = true ↔ o'.status ≠ RESIDUAL_NAN) ∧
      (o'.status = SUCCESS ∨ o'.status = MAXITER ∨ o'.status = RESIDUAL_NAN)
  | .throw m, .throw m' => m = m'
  | .abort m, .abort m' => m = m'
  | .ub m, .ub m' => m = m'
  | _, _ => False

/-- one iteration -/
theorem step_eq (N : Num α) (A : Mat α) (s : St α) :
    CG.step N A (fun r => .ok r) { x := s.x, r := s.r, z := s.r, p := s.p } =
      (step N A s).bind fun t => .ok { x := t.x, r := t.r, z := t.r, p := t.p } := by
  unfold CG.step step
  dsimp only
  cases A.mv s.p with
  | ok q =>
    simp only [Res.ok_bind]
    cases N.dot s.r s.r with
    | ok tmp =>
      simp only [Res.ok_bind]
      cases N.dot s.p q with
      | ok pq =>
        simp only [Res.ok_bind]
        cases N.axpy (N.div tmp pq) s.p s.x with
        | ok x =>
          simp only [Res.ok_bind]
          cases N.axpy (N.neg (N.div tmp pq)) q s.r with
          | ok r =>
            simp only [Res.ok_bind]
            cases N.dot r r with
            | ok rr =>
              simp only [Res.ok_bind]
              cases N.xpay (N.div rr tmp) r s.p <;> rfl
            | _ => rfl
          | _ => rfl
        | _ => rfl
      | _ => rfl
    | _ => rfl
  | _ => rfl

theorem loop_eq (N : Num α) (A : Mat α) (cfg : Cfg α) (hm : cfg.residMethod = 0) (hmin : cfg.miniter = 0) :
    ∀ (n iter : Nat) (s : St α) (out : List (Nat × α)), iter + n = cfg.maxiter → out.length = iter →
      (∀ k, k < iter → (out[k]?).map Prod.fst = some (k + 1)) →
      (0 < iter → (out.getLast?).map Prod.snd = some (N.nrm2 s.r)) →
      SameRun cfg.maxiter (loop N cfg.tol A n iter s out)
        (CG.loop N cfg A (fun r => .ok r) n iter { x := s.x, r := s.r, z := s.r, p := s.p }) := by
  have hres : ∀ r : List α, getResidual N cfg r = .ok (N.nrm2 r) := by
    intro r; unfold getResidual; rw [hm]; rfl
  intro n
  induction n with
  | zero =>
    intro iter s out h1 h2 h3 h4
    unfold loop CG.loop atMaxiter
    rw [hres, Res.ok_bind]
    refine ⟨rfl, by simp only; omega, ?_, ?_, by simp only [MAXITER, RESIDUAL_NAN]; decide, .inr (.inl rfl)⟩
    · intro k hk; exact h3 k (by simp only at hk; omega)
    · intro h; exact h4 (by omega)
  | succ n ih =>
    intro iter s out h1 h2 h3 h4
    unfold loop CG.loop
    rw [step_eq]
    cases hs : step N A s with
    | ok t =>
      simp only [Res.ok_bind]
      rw [show ((Res.ok t).bind fun t => Res.ok ({ x := t.x, r := t.r, z := t.r, p := t.p } : CG.St α)) =
        .ok { x := t.x, r := t.r, z := t.r, p := t.p } from rfl]
      simp only [Res.ok_bind]
      rw [hres, Res.ok_bind]
      have hnum : ∀ k, k < iter + 1 → ((out ++ [(iter + 1, N.nrm2 t.r)])[k]?).map Prod.fst = some (k + 1) := by
        intro k hk
        by_cases hkk : k < iter
        · rw [List.getElem?_append_left (by omega)]; exact h3 k hkk
        · have : k = out.length := by omega
          rw [List.getElem?_append_right (by omega), this]
          simp [h2]
      have hlast : ((out ++ [(iter + 1, N.nrm2 t.r)]).getLast?).map Prod.snd = some (N.nrm2 t.r) := by simp
      unfold stopCheck
      rw [hres, hmin]
      by_cases hlt : N.lt (N.nrm2 t.r) cfg.tol = true
      · rw [if_pos hlt, if_pos (by simp [hlt]), Res.ok_bind, Res.ok_bind]
        exact ⟨rfl, by simp; omega, hnum, fun _ => hlast,
          by simp only [SUCCESS, RESIDUAL_NAN]; decide, .inl rfl⟩
      · rw [if_neg hlt, if_neg (c := (N.lt (N.nrm2 t.r) cfg.tol && decide (0 ≤ iter + 1)) = true) (by simp [hlt])]
        by_cases hnan : N.isNaN (N.nrm2 t.r) = true
        · rw [if_pos hnan, if_pos hnan, Res.ok_bind, Res.ok_bind]
          exact ⟨rfl, by simp; omega, hnum, fun _ => hlast, by simp, .inr (.inr rfl)⟩
        · rw [if_neg hnan, if_neg hnan, Res.ok_bind]
          exact ih (iter + 1) t _ (by omega) (by simp; omega) hnum (fun _ => hlast)
    | throw m => exact rfl
    | abort m => exact rfl
    | ub m => exact rfl

/-- **C89 (same run).** For every arithmetic (in particular floating point), square matrix of any storage class,
start vector, right-hand side and tolerance, `my_cg` and `equation::CG` without preconditioner have the same effect:
same `x` bit by bit, one printed line per iteration, the last one showing the final residual. -/
theorem C89_same (N : Num α) (tol omega resid0 : α) (A : Mat α) (hA : A.row = A.col) (x b : List α) :
    SameRun A.row (myCg N tol A x b) (CG.solve N (options tol omega resid0 A.row) A noPrecond x b) := by
  unfold myCg CG.solve CG.monolish CG.init noPrecond options
  simp only [if_true, ne_eq, hA, not_true_eq_false, if_false, Res.ok_bind]
  cases A.mv x with
  | ok q =>
    simp only [Res.ok_bind]
    cases N.vsub b q A.col with
    | ok r =>
      simp only [Res.ok_bind]
      cases hc : Num.copyV r A.col with
      | ok p =>
        simp only [Res.ok_bind]
        exact loop_eq N A { tol := tol, maxiter := A.col, omega := omega, prevResid := resid0 } rfl rfl A.col 0
          { x := x, r := r, p := p } [] (by simp) rfl (fun k hk => absurd hk (by omega))
          (fun h => absurd h (by omega))
      | throw m => exact rfl
      | abort m => exact rfl
      | ub m => exact rfl
    | throw m => exact rfl
    | abort m => exact rfl
    | ub m => exact rfl
  | throw m => exact rfl
  | abort m => exact rfl
  | ub m => exact rfl

section exact

open Matrix

variable {K : Type} [Field K] [LinearOrder K] [IsStrictOrderedRing K]

/-- **C89 (the program).** The example program for any size `n`, any diagonal value `a` and off-diagonal value `c`
with `2|c| ≤ a` (the program has 100, 11, -1), any start vector that is not already the solution, any right-hand
side, tolerance and schedule: it ends after at most `n` iterations with a residual below the tolerance, which is the
last number it prints (exact arithmetic). -/
theorem C89_main (sq : K → K) (hsq : sq 0 = 0) (tol : K) (htol : 0 < tol)
    (order zo : Nat → List Nat) (ho : ∀ n, Order (order n) n) (hz : ∀ n, Order (zo n) n) (n : Nat)
    (h2 : 2 ≤ n) (hn : n < 2147483648) (a c : K) (ha : 0 < a) (hc : 2 * |c| ≤ a) (x b : Nat → K)
    (hx : triMatrix n a c *ᵥ firstN n x ≠ firstN n b) :
    ∃ (y : Fin n → K) (printed : List (Nat × K)), printed.length ≤ n ∧
      norm2 sq (firstN n b - triMatrix n a c *ᵥ y) < tol ∧
      (printed.getLast?).map Prod.snd = some (norm2 sq (firstN n b - triMatrix n a c *ᵥ y)) ∧
      main (fieldNum sq) tol (Gen.tridiagonal n a c) order zo x b =
        .ok { x := List.ofFn y, printed := printed, closed := true } := by
  obtain ⟨coo, hg, hI⟩ := Gen.C26_tridiagonal n a c h2 hn
  have hin : Within n n coo.entries := fun e he => by
    have := (hI.stored e.1 e.2.1 e.2.2).mp he
    exact ⟨this.1, this.2.1⟩
  have hd : DistinctPos coo.entries := hI.order.imp fun {a b} h => by omega
  have hs : SortedRows coo.entries := hI.order.imp fun {a b} h => by omega
  have hr := hI.rows; have hcl := hI.cols
  obtain ⟨A, hA, hAr, hAc, -, ht, -, he⟩ := C06_convert_rows coo hI.wf (by rw [hr, hcl]; exact hin) hs
  have e1 : A.rowN = n := by omega
  have e2 : A.colN = n := by omega
  have hmat : Matrix.of (fun i j : Fin n => crsAt A i j) = triMatrix n a c := by
    rw [← tri_matrix hI]; unfold crsAt matrixOf; rw [he]
  subst e1
  obtain ⟨k, y, k1, k2, k3, k4⟩ := C34_crs (n := A.rowN) sq hsq (options tol 0 0 A.rowN) htol rfl rfl rfl (le_refl _) A
    ht.toSafe (by rw [he]; exact hd) rfl e2 (order A.rowN) (zo A.rowN) (ho _) (hz _)
    (by rw [hmat]; exact spd_tri a c ha hc) noPrecond (Or.inl rfl) (firstN _ x) (firstN _ b)
    (by rw [hmat]; exact hx)
  rw [hmat] at k3 k4
  have hrun := C89_same (fieldNum sq) tol 0 0 (ofCrs (order A.rowN) (zo A.rowN) A) e2.symm
    (List.ofFn (firstN A.rowN x)) (List.ofFn (firstN A.rowN b))
  have hmain : main (fieldNum sq) tol (Gen.tridiagonal A.rowN a c) order zo x b =
      myCg (fieldNum sq) tol (ofCrs (order A.rowN) (zo A.rowN) A) (List.ofFn (firstN A.rowN x))
        (List.ofFn (firstN A.rowN b)) := by
    unfold main
    rw [hg, Res.ok_bind, hA, Res.ok_bind]
    rfl
  rw [show (ofCrs (order A.rowN) (zo A.rowN) A).row = A.rowN from rfl, k4] at hrun
  rw [hmain]
  cases hm : myCg (fieldNum sq) tol (ofCrs (order A.rowN) (zo A.rowN) A) (List.ofFn (firstN A.rowN x))
      (List.ofFn (firstN A.rowN b)) with
  | ok o =>
    rw [hm] at hrun
    obtain ⟨q1, q2, -, q4, q5, -⟩ := hrun
    refine ⟨y, o.printed, by simp only at q2; omega, k3, q4 (by omega), ?_⟩
    have hcl : o.closed = true := q5.mpr (by simp only [SUCCESS, RESIDUAL_NAN]; decide)
    rcases o with ⟨ox, op, oc⟩
    simp only at q1 hcl
    rw [q1, hcl]
  | throw m => rw [hm] at hrun; exact hrun.elim
  | abort m => rw [hm] at hrun; exact hrun.elim
  | ub m => rw [hm] at hrun; exact hrun.elim

/-- **C89 (violation).** Started from a vector that already solves the system, `my_cg` turns every element of `x`
into NaN, for every matrix of any size, and leaves the logger open (arithmetic with IEEE special values). -/
theorem C89_exact_start_violated {n : Nat} (hn : 0 < n) (sq : K → K) (tol : K) (A : Crs K) (hA : A.Safe)
    (hd : DistinctPos A.entries) (hr : A.rowN = n) (hc : A.colN = n) (order zo : List Nat) (ho : Order order n)
    (hz : Order zo n) (x : Fin n → K) :
    myCg (Ext.num sq) (.fin tol) (ofCrs order zo (crsMap Ext.fin A))
      (List.ofFn (fun i => Ext.fin (x i)))
      (List.ofFn (fun i => Ext.fin ((Matrix.of (fun i j : Fin n => crsAt A i j) *ᵥ x) i))) =
      .ok { x := List.replicate n .nan, printed := [(1, .nan)], closed := false } := by
  have h := C33_crs_violated sq (options (.fin tol) (.fin 0) (.fin 0) n) tol rfl rfl rfl hn hn A hA hd hr hc order zo
    ho hz x
  have hrow : (ofCrs order zo (crsMap Ext.fin A)).row = n := hr
  have hcol : (ofCrs order zo (crsMap Ext.fin A)).col = n := hc
  have hrun := C89_same (Ext.num sq) (.fin tol) (.fin 0) (.fin 0) (ofCrs order zo (crsMap Ext.fin A))
    (hrow.trans hcol.symm) (List.ofFn (fun i => Ext.fin (x i)))
    (List.ofFn (fun i => Ext.fin ((Matrix.of (fun i j : Fin n => crsAt A i j) *ᵥ x) i)))
  rw [hrow, h] at hrun
  cases hm : myCg (Ext.num sq) (.fin tol) (ofCrs order zo (crsMap Ext.fin A))
      (List.ofFn (fun i => Ext.fin (x i)))
      (List.ofFn (fun i => Ext.fin ((Matrix.of (fun i j : Fin n => crsAt A i j) *ᵥ x) i))) with
  | ok o =>
    rw [hm] at hrun
    obtain ⟨q1, q2, q3, q4, q5, -⟩ := hrun
    rcases o with ⟨ox, op, oc⟩
    simp only at q1 q2 q3 q4 q5
    have hoc : oc = false := by
      cases oc
      · rfl
      · exact absurd rfl (q5.mp rfl)
    match op, q2, q3, q4 with
    | [(k, v)], _, q3, q4 =>
      have h0 := q3 0 (by omega)
      have h1 := q4 hn
      simp only [List.getElem?_cons_zero, Option.map_some, Option.some.injEq] at h0
      simp only [List.getLast?_singleton, Option.map_some, Option.some.injEq] at h1
      rw [q1, hoc, h0, h1]
  | throw m => rw [hm] at hrun; exact hrun.elim
  | abort m => rw [hm] at hrun; exact hrun.elim
  | ub m => rw [hm] at hrun; exact hrun.elim

end exact

/-- the program on a 3 x 3 matrix with diagonal 11 and off-diagonal -1, from x = 0, b = 1: two iterations -/
example : main (fieldNum id) (1 / 1000) (Gen.tridiagonal 3 (11 : ℚ) (-1)) (fun _ => [2, 0, 1]) (fun _ => [0, 1, 2])
    (fun _ => 0) (fun _ => 1) =
    .ok { x := [12 / 119, 13 / 119, 12 / 119], printed := [(1, 6 / 841), (2, 0)], closed := true } := by
  decide +kernel

open Matrix in
/-- the hypotheses of `C89_main` hold for it -/
example : triMatrix 3 (11 : ℚ) (-1) *ᵥ firstN 3 (fun _ => 0) ≠ firstN 3 (fun _ => 1) := by
  intro h
  have h := congrFun h 0
  simp [firstN, Matrix.mulVec, dotProduct] at h

end Verif.MyCg
