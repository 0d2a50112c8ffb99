import Verif.Props.MpiLobpcg
import Verif.Props.LobpcgCases

/-!
C118: runs on several processes.
-/

namespace Verif.MpiLobpcg

open Verif.Solver Verif.Lapack Verif.MpiSolver Verif.Lobpcg Verif.Spec

variable {α β : Type} {P : Nat}

/-- the results, if all processes have finished -/
def allRet : List (Proc α β) → Option (List (Res β))
  | [] => some []
  | .ret r :: ps => (allRet ps).map (fun rs => r :: rs)
  | .red _ _ :: _ => none

/-- the contributions and continuations, if all processes wait in `Allreduce` -/
def allRed : List (Proc α β) → Option (List (α × (α → Proc α β)))
  | [] => some []
  | .red v k :: ps => (allRed ps).map (fun vs => (v, k) :: vs)
  | .ret _ :: _ => none

/-- run the processes through at most `n` reductions -/
def exec (comb : List α → α) : Nat → List (Proc α β) → Option (List (Res β))
  | 0, ps => allRet ps
  | n + 1, ps =>
    match allRed ps with
    | some vs => exec comb n (vs.map (fun vk => vk.2 (comb (vs.map Prod.fst))))
    | none => allRet ps

theorem allRet_spec : ∀ (P : Nat) (ps : Fin P → Proc α β) (rs : List (Res β)), allRet (List.ofFn ps) = some rs →
    ∃ r : Fin P → Res β, rs = List.ofFn r ∧ ps = fun i => .ret (r i)
  | 0, ps, rs, h => by
    refine ⟨fun i => i.elim0, ?_, funext fun i => i.elim0⟩
    rw [List.ofFn_zero] at h ⊢
    exact (Option.some.inj h).symm
  | P + 1, ps, rs, h => by
    rw [List.ofFn_succ] at h
    cases h0 : ps 0 with
    | red v k => rw [h0] at h; cases h
    | ret r0 =>
      rw [h0, allRet] at h
      obtain ⟨t, ht, rfl⟩ := Option.map_eq_some_iff.mp h
      obtain ⟨r, rfl, hr⟩ := allRet_spec P _ _ ht
      refine ⟨Fin.cons r0 r, by rw [List.ofFn_cons], funext fun i => ?_⟩
      refine Fin.cases ?_ (fun j => ?_) i
      · rw [h0]; rfl
      · exact congrFun hr j

theorem allRed_spec : ∀ (P : Nat) (ps : Fin P → Proc α β) (vs : List (α × (α → Proc α β))), allRed (List.ofFn ps) = some vs →
    ∃ v : Fin P → α × (α → Proc α β), vs = List.ofFn v ∧ ps = fun i => .red (v i).1 (v i).2
  | 0, ps, rs, h => by
    refine ⟨fun i => i.elim0, ?_, funext fun i => i.elim0⟩
    rw [List.ofFn_zero] at h ⊢
    exact (Option.some.inj h).symm
  | P + 1, ps, rs, h => by
    rw [List.ofFn_succ] at h
    cases h0 : ps 0 with
    | ret r => rw [h0] at h; cases h
    | red v k =>
      rw [h0, allRed] at h
      obtain ⟨t, ht, rfl⟩ := Option.map_eq_some_iff.mp h
      obtain ⟨r, rfl, hr⟩ := allRed_spec P _ _ ht
      refine ⟨Fin.cons (v, k) r, by rw [List.ofFn_cons], funext fun i => ?_⟩
      refine Fin.cases ?_ (fun j => ?_) i
      · rw [h0]; rfl
      · exact congrFun hr j

theorem exec_spec {comb : List α → α} : ∀ (n : Nat) (ps : Fin P → Proc α β) (r : Fin P → Res β),
    exec comb n (List.ofFn ps) = some (List.ofFn r) → Completes (fun v => comb (List.ofFn v)) ps r
  | 0, ps, r, h => by
    obtain ⟨r', h', rfl⟩ := allRet_spec P ps _ h
    rw [List.ofFn_injective h']
    exact .done _
  | n + 1, ps, r, h => by
    unfold exec at h
    cases hv : allRed (List.ofFn ps) with
    | none =>
      rw [hv] at h
      obtain ⟨r', h', rfl⟩ := allRet_spec P ps _ h
      rw [List.ofFn_injective h']
      exact .done _
    | some vs =>
      rw [hv] at h
      obtain ⟨v, rfl, rfl⟩ := allRed_spec P ps _ hv
      dsimp only at h
      rw [List.map_ofFn, List.map_ofFn] at h
      exact .step (fun i => (v i).1) (fun i => (v i).2) r (exec_spec n _ r h)

/-- `MPI_SUM` -/
def addAll : List (Ext ℚ) → Ext ℚ := fun l => l.foldr Ext.add (.fin 0)

/-! ### Two processes with one row each -/

/-- row `i` of `diag(1, 2)` -/
def rowMat (a : ℚ) : Mat (Ext ℚ) := ofCrs [0] [0] (crsMap Ext.fin ⟨1, 1, [0, 1], [0], [a], 1, 1, true⟩)

/-- the projected matrices `(w, x)ᵀ (w, x)` of the two processes; both have rank one -/
def hang0 : List ℚ := [16/25, -12/25, -12/25, 9/25]
def hang1 : List ℚ := [9/25, 12/25, 12/25, 16/25]

theorem hang_minors : Matrix.det !![(16/25 : ℚ), -12/25; -12/25, 9/25] = 0 ∧
    Matrix.det !![(9/25 : ℚ), 12/25; 12/25, 16/25] = 0 := by
  constructor <;> rw [Matrix.det_fin_two_of] <;> norm_num

theorem loop_forever {cfg : Cfg α} {body : Nat → Bool → St α → Proc α (Pass α)} {I : St α → Prop} {iter : Nat}
    (hi : iter < cfg.maxiter) (h : ∀ sing s, I s → ∃ s', I s' ∧ body iter sing s = pure (.restart s')) :
    ∀ (fuel : Nat) (sing : Bool) (r : α) (s : St α), I s → loop cfg body fuel iter sing r s = pure none
  | 0, _, _, _, _ => rfl
  | fuel + 1, sing, r, s, hs => by
    obtain ⟨s', hI, he⟩ := h sing s hs
    rw [loop, if_pos hi, he]
    exact loop_forever hi h fuel true r s' hI

def hang2 : List ℚ := [18/25, 24/25, 24/25, 32/25]

/-- the matrix and the start vector of the run `lob_run`, distributed by rows: process `i` holds row `i` -/
def rowsOf (L : Lib (Ext ℚ)) (cfg : Cfg (Ext ℚ)) (fuel : Nat) (i : Fin 2) : Proc (Ext ℚ) (Option (Lobpcg.Out (Ext ℚ))) :=
  standard (Ext.num lobSq) L cfg (rowMat (![1, 2] i)) noPrecond [q 0] [[q (![3/5, 4/5] i)]] 1 none fuel

/-- what `initVec` returns on all processes -/
abbrev Inits := Option (List (Res (List (List (Ext ℚ) × List (Ext ℚ) × List (Ext ℚ)))))

instance decInit : DecidableEq (List (Ext ℚ) × List (Ext ℚ) × List (Ext ℚ)) := instDecidableEqProd

instance decInits : DecidableEq Inits := inferInstance

theorem rows_init : exec addAll 2 (List.ofFn (fun i : Fin 2 =>
      mapProc (initVec (Ext.num lobSq) (rowMat (![1, 2] i)) 1) [[q (![3/5, 4/5] i)]])) =
    (some (List.ofFn (fun i : Fin 2 => .ok [([q (![3/5, 8/5] i)], [q (![-4/5, 3/5] i)], [q (![-4/5, 6/5] i)])])) : Inits) := by
  decide +kernel

/-- **C118, violated**: `A = diag(1, 2)` on two processes with one row each. Each projects the problem on its own part of `w`
and `x`, two vectors of one element, which are linearly dependent; LAPACK reports it on both, and both repeat the iteration
with the same data for ever. The same problem on one process is solved in one iteration (`lob_run`). -/
theorem C118_hang_violated (L : Lib (Ext ℚ)) (cfg : Cfg (Ext ℚ)) (hmax : 0 < cfg.maxiter)
    (h0 : (L.sygvd 1 true false 2 (hang0.map q) 2 (hang0.map q) 2).2.2.2 = 4)
    (h1 : (L.sygvd 1 true false 2 (hang2.map q) 2 (hang1.map q) 2).2.2.2 = 4) :
    ¬ Ends (fun v => addAll (List.ofFn v)) (rowsOf L cfg) := by
  rintro ⟨fuel, o, ho⟩
  have hnone : Completes (fun v => addAll (List.ofFn v)) (rowsOf L cfg fuel) (fun _ => .ok none) := by
    have hinit := exec_spec 2 _ _ rows_init
    have : rowsOf L cfg fuel = fun i => mapProc (initVec (Ext.num lobSq) (rowMat (![1, 2] i)) 1) [[q (![3/5, 4/5] i)]] >>=
        fun t => loop cfg (fun iter singular s => pass (Ext.num lobSq) L cfg 1 iter singular (fun s => s.F.rows)
          (fun k S prev => column (Ext.num lobSq) (rowMat (![1, 2] i)) (fun r => .ok r) 1 1 k S iter prev) s) fuel 0 false
          (.fin 0)
        { F := ⟨t.map (fun v => v.2.1), [[q (![3/5, 4/5] i)]], [[.fin 0]]⟩
          G := ⟨t.map (fun v => v.2.2), t.map (fun v => v.1), [[.fin 0]]⟩
          H := ⟨[], [], []⟩
          l := [q 0]
          lam := [.fin 0, .fin 0, .fin 0] } := rfl
    rw [this]
    refine completes_bind hinit rfl ?_
    have hl : ∀ i : Fin 2, loop cfg (fun iter singular s => pass (Ext.num lobSq) L cfg 1 iter singular (fun s => s.F.rows)
          (fun k S prev => column (Ext.num lobSq) (rowMat (![1, 2] i)) (fun r => .ok r) 1 1 k S iter prev) s) fuel 0 false
          (.fin 0)
        { F := ⟨[[q (![-4/5, 3/5] i)]], [[q (![3/5, 4/5] i)]], [[.fin 0]]⟩
          G := ⟨[[q (![-4/5, 6/5] i)]], [[q (![3/5, 8/5] i)]], [[.fin 0]]⟩
          H := ⟨[], [], []⟩
          l := [q 0]
          lam := [.fin 0, .fin 0, .fin 0] } = pure none := by
      intro i
      refine loop_forever (I := fun s => s.F = ⟨[[q (![-4/5, 3/5] i)]], [[q (![3/5, 4/5] i)]], [[.fin 0]]⟩ ∧
        s.G = ⟨[[q (![-4/5, 6/5] i)]], [[q (![3/5, 8/5] i)]], [[.fin 0]]⟩) hmax ?_ fuel false _ _ ⟨rfl, rfl⟩
      rintro sing s ⟨hF, hG⟩
      have hA : gram (Ext.num lobSq) (s.G.rows.take 2) (s.F.rows.take 2) = (![hang0, hang2] i).map q := by
        rw [hF, hG]
        fin_cases i <;> decide +kernel
      have hB : gram (Ext.num lobSq) (s.F.rows.take 2) (s.F.rows.take 2) = (![hang0, hang1] i).map q := by
        rw [hF]
        fin_cases i <;> decide +kernel
      have hinfo : (L.sygvd 1 true false 2 ((![hang0, hang2] i).map q) 2 ((![hang0, hang1] i).map q) 2).2.2.2 = 4 := by
        fin_cases i
        · exact h0
        · exact h1
      refine ⟨{ s with lam := (overwrite s.lam
        (L.sygvd 1 true false 2 ((![hang0, hang2] i).map q) 2 ((![hang0, hang1] i).map q) 2).2.2.1) }, ⟨hF, hG⟩, ?_⟩
      · unfold pass
        rw [if_pos (Or.inl rfl)]
        unfold passWith
        dsimp only
        rw [show 2 * 1 = 2 from rfl, hA, hB, hinfo, if_pos (by decide)]
    have : (fun i : Fin 2 => loop cfg (fun iter singular s => pass (Ext.num lobSq) L cfg 1 iter singular (fun s => s.F.rows)
          (fun k S prev => column (Ext.num lobSq) (rowMat (![1, 2] i)) (fun r => .ok r) 1 1 k S iter prev) s) fuel 0 false
          (.fin 0)
        { F := ⟨[[q (![-4/5, 3/5] i)]], [[q (![3/5, 4/5] i)]], [[.fin 0]]⟩
          G := ⟨[[q (![-4/5, 6/5] i)]], [[q (![3/5, 8/5] i)]], [[.fin 0]]⟩
          H := ⟨[], [], []⟩
          l := [q 0]
          lam := [.fin 0, .fin 0, .fin 0] }) = fun _ => .ret (.ok none) := funext hl
    exact this ▸ Completes.done _
  have := congrFun (hnone.unique ho) 0
  cases this

/-- a library with these answers -/
def hangLib : Lib (Ext ℚ) where
  getrf _ _ a _ := (a, [], 0)
  getrs _ _ _ _ _ _ b _ := (b, 0)
  sytrf _ _ a _ _ := (a, [], 0)
  sytrs _ _ _ _ _ _ b _ := (b, 0)
  syevd _ _ _ a _ := (a, [], 0)
  sygvd _ _ _ _ a' _ b' _ := (a', b', [], if b' = hang0.map q ∨ b' = hang1.map q then 4 else 0)

example : ¬ Ends (fun v => addAll (List.ofFn v)) (rowsOf hangLib lobCfg) :=
  C118_hang_violated hangLib lobCfg (by decide) (by decide +kernel) (by decide +kernel)

/-! ### Four processes that each find an eigenvalue of their own -/

/-- `diag(1, 26)` on processes 0 and 1, `diag(11, 36)` on processes 2 and 3 -/
def blk (i : Fin 4) : Mat (Ext ℚ) :=
  ofCrs [0, 1] [0, 1] (crsMap Ext.fin ⟨2, 2, [0, 1, 2], [0, 1], ![[1, 26], [1, 26], [11, 36], [11, 36]] i, 2, 2, true⟩)

def blkSq (a : ℚ) : ℚ := if a = 169 then 13 else if a = 676/225 then 26/15 else if a = 4 then 2 else a

/-- the projected matrices of processes 0, 1 and 2, 3: the matrices `diag(1, 26)` and `diag(11, 36)` in the bases `w`, `x` -/
def blkA : List ℚ := [425/676, 59/52, 59/52, 17/4]
def blkB : List ℚ := [1/4, -5/52, -5/52, 1/4]
def blkA' : List ℚ := [4995/676, 279/52, 279/52, 27/4]
def blkB' : List ℚ := [1/4, 5/52, 5/52, 1/4]

/-- LAPACK's answers to them: eigenvalues 1, 26 and 11, 36; the eigenvectors are the coefficients of the unit vectors -/
def blkLib : Lib (Ext ℚ) where
  getrf _ _ a _ := (a, [], 0)
  getrs _ _ _ _ _ _ b _ := (b, 0)
  sytrf _ _ a _ _ := (a, [], 0)
  sytrs _ _ _ _ _ _ b _ := (b, 0)
  syevd _ _ _ a _ := (a, [], 0)
  sygvd _ _ _ _ a' _ b' _ :=
    if a' = blkA.map q ∧ b' = blkB.map q then ([q (-26/15), q (8/15), q (13/10), q (21/10)], b', [q 1, q 26], 0)
    else if a' = blkA'.map q ∧ b' = blkB'.map q then
      ([q (-26/15), q (28/15), q (13/10), q (11/10)], b', [q 11, q 36], 0)
    else ([], [], [], -1)

/-- they are right: `A b = λ B b` and `bᵀ B b = 1` -/
theorem blkLib_right : ∀ t ∈ [(blkA, blkB, ((-26/15 : ℚ), (8/15 : ℚ)), (1 : ℚ)), (blkA, blkB, (13/10, 21/10), 26),
      (blkA', blkB', (-26/15, 28/15), 11), (blkA', blkB', (13/10, 11/10), 36)],
    t.1[0]! * t.2.2.1.1 + t.1[1]! * t.2.2.1.2 = t.2.2.2 * (t.2.1[0]! * t.2.2.1.1 + t.2.1[1]! * t.2.2.1.2) ∧
    t.1[2]! * t.2.2.1.1 + t.1[3]! * t.2.2.1.2 = t.2.2.2 * (t.2.1[2]! * t.2.2.1.1 + t.2.1[3]! * t.2.2.1.2) ∧
    t.2.2.1.1 * (t.2.1[0]! * t.2.2.1.1 + t.2.1[1]! * t.2.2.1.2) +
      t.2.2.1.2 * (t.2.1[2]! * t.2.2.1.1 + t.2.1[3]! * t.2.2.1.2) = 1 := by
  decide +kernel

def blkRun (i : Fin 4) : Proc (Ext ℚ) (Option (Lobpcg.Out (Ext ℚ))) :=
  standard (Ext.num blkSq) blkLib lobCfg (blk i) noPrecond [q 0] [[q (3/10), q (4/10)]] 2 none 5

abbrev Outs := Option (List (Res (Option (Lobpcg.Out (Ext ℚ)))))

instance decOuts : DecidableEq Outs := inferInstance

/-- what process `i` returns -/
def blkOut (i : Fin 4) : Lobpcg.Out (Ext ℚ) :=
  { status := SUCCESS
    l := [q (![1, 1, 11, 11] i)]
    x := [[q (1/2), q 0]]
    finalIter := 1
    finalResid := q 0 }

theorem blk_exec : exec addAll 6 (List.ofFn blkRun) = (some (List.ofFn (fun i : Fin 4 => .ok (some (blkOut i)))) : Outs) := by
  decide +kernel

theorem blk_run : Completes (fun v => addAll (List.ofFn v)) blkRun (fun i => .ok (some (blkOut i))) :=
  exec_spec 6 _ _ blk_exec

/-- **C118, violated**: the matrix `diag(1, 26, 1, 26, 11, 36, 11, 36)` on four processes with two rows each, one eigenvalue
wanted, LAPACK answering rightly. All processes return success after one iteration with residual 0, processes 0 and 1 with
the eigenvalue 1, processes 2 and 3 with the eigenvalue 11: the processes have solved problems of their own. -/
theorem C118_eigenvalues_violated : ¬ SameEigenvalues (fun v => addAll (List.ofFn v)) blkRun := by
  intro h
  have := h blkOut blk_run 0 2
  revert this
  decide +kernel

/-! ### Non-vacuity of C118_lobpcg_return_partial -/

/-- a library that answers everything -/
def anyLib : Lib (Ext ℚ) where
  getrf _ _ a _ := (a, [], 0)
  getrs _ _ _ _ _ _ b _ := (b, 0)
  sytrf _ _ a _ _ := (a, [], 0)
  sytrs _ _ _ _ _ _ b _ := (b, 0)
  syevd _ _ _ a _ := (a, [], 0)
  sygvd _ _ _ k a _ b _ := (a, b, List.replicate k (.fin 1), 0)

theorem anyLib_answers : Answers anyLib := fun k a b ha _ => ⟨ha, List.length_replicate .., rfl⟩

theorem blk_works (i : Fin 4) : Works 2 (blk i).mv := by
  intro v hv
  obtain ⟨a, b, rfl⟩ : ∃ a b, v = [a, b] := by
    match v, hv with
    | [a, b], _ => exact ⟨a, b, rfl⟩
  fin_cases i <;> exact ⟨_, rfl, rfl⟩

example : Return (P := 4) (fun v => addAll (List.ofFn v)) lobCfg 1 (fun _ => 2) (fun i => standard (Ext.num blkSq) anyLib lobCfg
    (blk i) (.ok (fun r => .ok r)) [q 0] [[q (3/10), q (4/10)]] 2 none 11) :=
  C118_lobpcg_return_partial (P := 4) (ns := fun _ => 2) (As := blk) (m := 1) (fuel := 11) (l := fun _ => [q 0]) (rs := fun _ => none)
    (xin := fun _ => [[q (3/10), q (4/10)]]) (by decide) (fun _ => anyLib_answers) lobCfg (fun _ => rfl) (fun _ => rfl) blk_works
    (fun _ v hv => ⟨v, hv, rfl⟩) (fun _ => rfl) (fun _ => ⟨rfl, by simp⟩) (rand := false) (fun _ => rfl)
    (fun _ => by intro r h; cases h) (by decide)

example : Return (P := 4) (fun v => addAll (List.ofFn v)) lobCfg 1 (fun _ => 2) (fun i => generalized (Ext.num blkSq) anyLib
    lobCfg (blk i) (blk i) (.ok (fun r => .ok r)) [q 0] [[q (3/10), q (4/10)]] 2 1 none 11) :=
  C118_lobpcg_generalized_return_partial (P := 4) (ns := fun _ => 2) (As := blk) (Bs := blk) (m := 1) (fuel := 11) (l := fun _ => [q 0]) (rs := fun _ => none)
    (xin := fun _ => [[q (3/10), q (4/10)]]) (by decide) (fun _ => anyLib_answers) lobCfg (fun _ => rfl) (fun _ => rfl) blk_works
    (fun _ => rfl) (fun _ => rfl) blk_works (fun _ v hv => ⟨v, hv, rfl⟩) (fun _ => rfl) (fun _ => ⟨rfl, by simp⟩)
    (rand := false) (fun _ => rfl) (fun _ => by intro r h; cases h) (by decide)

example : ∃ out, Lobpcg.standard (Ext.num blkSq) anyLib lobCfg (blk 0) (.ok (fun r => .ok r)) [q 0]
    [[q (3/10), q (4/10)]] 2 none 11 = some (.ok out) ∧ out.l.length = 1 ∧ Rows 1 2 out.x ∧
      (out.status = SUCCESS ∨ out.status = MAXITER ∨ out.status = RESIDUAL_NAN) ∧ out.finalIter ≤ 10 :=
  C72_lobpcg_total_partial (n := 2) (m := 1) (by decide) anyLib_answers lobCfg rfl rfl (blk_works 0) (fun v hv => ⟨v, hv, rfl⟩) rfl
    ⟨rfl, by simp⟩ (by intro r h; cases h) (by decide)

example : ∃ out, Lobpcg.generalized (Ext.num blkSq) anyLib lobCfg (blk 0) (blk 2) (.ok (fun r => .ok r)) [q 0]
    [[q (3/10), q (4/10)]] 2 1 none 11 = some (.ok out) ∧ out.l.length = 1 ∧ Rows 1 2 out.x ∧
      (out.status = SUCCESS ∨ out.status = MAXITER ∨ out.status = RESIDUAL_NAN) ∧ out.finalIter ≤ 10 :=
  C72_lobpcg_generalized_total_partial (n := 2) (m := 1) (by decide) anyLib_answers lobCfg rfl rfl (blk_works 0) rfl rfl (blk_works 2)
    (fun v hv => ⟨v, hv, rfl⟩) rfl ⟨rfl, by simp⟩ (by intro r h; cases h) (by decide)

end Verif.MpiLobpcg
