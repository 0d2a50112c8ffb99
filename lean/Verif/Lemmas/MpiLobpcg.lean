import Verif.Spec.MpiLobpcgSpec
import Verif.Props.MpiSolver
import Verif.Props.LobpcgCases

/-!
Lemmas for C118: one process alone; processes in lock step.
-/

namespace Verif.MpiLobpcg

open Verif.Solver Verif.Lapack Verif.MpiSolver Verif.Lobpcg

variable {α β γ : Type} {P : Nat}

/-! ### One process -/

/-- a process that is alone gets back what it contributes -/
def solo : Proc α β → Res β
  | .ret r => r
  | .red v k => solo (k v)

theorem completes_solo (p : Proc α β) : Completes (fun v : Fin 1 → α => v 0) (fun _ => p) (fun _ => solo p) := by
  induction p with
  | ret r => exact .done _
  | red v k ih => exact .step (fun _ => v) (fun _ => k) _ (ih v)

theorem solo_bind (p : Proc α β) (f : β → Proc α γ) : solo (p >>= f) = solo p >>= fun b => solo (f b) := by
  induction p with
  | ret r => cases r <;> rfl
  | red v k ih => exact ih v

theorem solo_loc (r : Res β) : solo (loc r : Proc α β) = r := rfl
theorem solo_pure (b : β) : solo (pure b : Proc α β) = .ok b := rfl
theorem solo_nrm2 (N : Num α) (x : List α) : solo (MpiSolver.nrm2 N x) = .ok (N.nrm2 x) := rfl
theorem solo_dot (N : Num α) (x y : List α) : solo (MpiSolver.dot N x y) = N.dot x y := by
  unfold MpiSolver.dot Num.dot
  rw [solo_bind]
  rfl
theorem solo_ite {c : Prop} [Decidable c] (p p' : Proc α β) : solo (if c then p else p') = if c then solo p else solo p' := by
  split <;> rfl

variable {N : Num α}

theorem solo_column (A : Mat α) (pc : List α → Res (List α)) (m n k : Nat) (S : List α) (iter : Nat) (prev : St α) (i : Nat)
    (s : St α) : solo (column N A pc m n k S iter prev i s) = Lobpcg.column N A pc m n k S iter prev i s := by
  unfold column Lobpcg.column
  simp only [solo_bind, solo_loc, solo_nrm2, solo_ite, solo_pure, Res.ok_bind]

theorem solo_gcolumn (A B : Mat α) (pc : List α → Res (List α)) (m n k : Nat) (S : List α) (iter : Nat) (prev : St α) (i : Nat)
    (s : St α) : solo (gcolumn N A B pc m n k S iter prev i s) = Lobpcg.gcolumn N A B pc m n k S iter prev i s := by
  unfold gcolumn Lobpcg.gcolumn
  simp only [solo_bind, solo_loc, solo_nrm2, solo_ite, solo_pure, Res.ok_bind]

theorem solo_columns {body : Nat → St α → Proc α (Sum (Lobpcg.Out α) (St α × α))}
    {body' : Nat → St α → Res (Sum (Lobpcg.Out α) (St α × α))} (h : ∀ i s, solo (body i s) = body' i s) :
    ∀ is rs s, solo (columns body is rs s) = Lobpcg.columns body' is rs s
  | [], _, _ => rfl
  | i :: is, rs, s => by
    unfold columns Lobpcg.columns
    rw [solo_bind, h]
    refine bind_congr' rfl fun r _ => ?_
    rcases r with o | ⟨s', q⟩
    · rfl
    · exact solo_columns h is (rs ++ [q]) s'

theorem solo_passWith {L : Lib α} {cfg : Cfg α} {m iter k : Nat} {lb ub : Int} {sb : St α → List (List α)}
    {body : Nat → List α → St α → Nat → St α → Proc α (Sum (Lobpcg.Out α) (St α × α))}
    {body' : Nat → List α → St α → Nat → St α → Res (Sum (Lobpcg.Out α) (St α × α))}
    (h : ∀ k S p i s, solo (body k S p i s) = body' k S p i s) (s : St α) :
    solo (passWith N L cfg m iter k lb ub sb body s) = Lobpcg.passWith N L cfg m iter k lb ub sb body' s := by
  unfold passWith Lobpcg.passWith
  dsimp only
  rw [solo_ite, solo_ite]
  refine if_congr Iff.rfl rfl (if_congr Iff.rfl rfl ?_)
  rw [solo_bind, solo_columns (h _ _ _)]
  refine bind_congr' rfl fun c _ => ?_
  rcases c with o | ⟨s', rs⟩
  · rfl
  · dsimp only
    rw [solo_bind]
    refine bind_congr' rfl fun r _ => ?_
    rw [solo_ite]; rfl

theorem solo_pass {L : Lib α} {cfg : Cfg α} {m iter : Nat} {sing : Bool} {sb : St α → List (List α)}
    {body : Nat → List α → St α → Nat → St α → Proc α (Sum (Lobpcg.Out α) (St α × α))}
    {body' : Nat → List α → St α → Nat → St α → Res (Sum (Lobpcg.Out α) (St α × α))}
    (h : ∀ k S p i s, solo (body k S p i s) = body' k S p i s) (s : St α) :
    solo (pass N L cfg m iter sing sb body s) = Lobpcg.pass N L cfg m iter sing sb body' s := by
  unfold pass Lobpcg.pass
  rw [solo_ite, solo_passWith h, solo_passWith h]

theorem solo_loop {cfg : Cfg α} {body : Nat → Bool → St α → Proc α (Pass α)} {body' : Nat → Bool → St α → Res (Pass α)}
    (h : ∀ i b s, solo (body i b s) = body' i b s) :
    ∀ fuel iter sing r s, solo (loop cfg body fuel iter sing r s) = asRes (Lobpcg.loop cfg body' fuel iter sing r s)
  | 0, _, _, _, _ => rfl
  | fuel + 1, iter, sing, r, s => by
    unfold loop Lobpcg.loop
    rw [solo_ite]
    split
    · rw [solo_bind, h]
      cases hb : body' iter sing s with
      | ok p =>
        rw [Res.ok_bind]
        cases p with
        | done o => rfl
        | restart s' => exact solo_loop h fuel iter true r s'
        | next s' r' => exact solo_loop h fuel (iter + 1) false r' s'
      | throw e => rfl
      | abort e => rfl
      | ub e => rfl
    · rfl

theorem solo_mapProc {f : β → Proc α γ} {f' : β → Res γ} (h : ∀ b, solo (f b) = f' b) :
    ∀ l, solo (mapProc f l) = mapRes f' l
  | [] => rfl
  | a :: l => by
    unfold mapProc mapRes
    rw [solo_bind, h]
    refine bind_congr' rfl fun b _ => ?_
    rw [solo_bind, solo_mapProc h l]
    rfl

theorem mapRes_pure {f : β → γ} : ∀ l, mapRes (fun b => .ok (f b)) l = .ok (l.map f)
  | [] => rfl
  | a :: l => by
    unfold mapRes
    rw [Res.ok_bind, mapRes_pure l]
    rfl

theorem solo_initial (m : Nat) (rs : Option (List (List α))) (xin : List (List α)) :
    solo (initial N m rs xin) = .ok (Lobpcg.initial N m rs xin) := by
  cases rs with
  | none => rfl
  | some rs =>
    unfold initial Lobpcg.initial
    dsimp only
    rw [solo_mapProc (f' := fun r => .ok (scal N (N.div N.one (N.nrm2 r)) r)) (fun b => rfl), mapRes_pure]

theorem solo_initVec (A : Mat α) (n : Nat) (x : List α) : solo (initVec N A n x) = Lobpcg.initVec N A n x := by
  unfold initVec Lobpcg.initVec
  simp only [solo_bind, solo_loc, solo_nrm2, solo_dot, solo_pure, Res.ok_bind]

theorem solo_ginitVec (A B : Mat α) (n : Nat) (x : List α) : solo (ginitVec N A B n x) = Lobpcg.ginitVec N A B n x := by
  unfold ginitVec Lobpcg.ginitVec
  simp only [solo_bind, solo_loc, solo_nrm2, solo_dot, solo_pure, Res.ok_bind]

end Verif.MpiLobpcg
