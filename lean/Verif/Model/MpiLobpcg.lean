import Verif.Model.MpiSolver
import Verif.Model.Lobpcg

/-!
# LOBPCG in an MPI build

`src/eigen/lobpcg_standard.cpp` and `lobpcg_generalized.cpp` when every process calls the solver: `blas::dot` and
`blas::nrm2` reduce over all processes (`src/blas/vector/dot.hpp:34-37`, `nrm2.hpp:29-32`), the products of dense matrices
(`blas::matmul`, lines 148-158) and LAPACK's `sygvd` (line 164) are local, as are `vml::max` and the decisions made from
`info`. A process is a `Proc` (`Verif/Model/MpiSolver.lean`); local pieces are those of `Verif/Model/Lobpcg.lean`.

Simplifications: those of `Verif/Model/MpiSolver.lean` and `Verif/Model/Lobpcg.lean`; `none` means that the process has made
`fuel` passes through its main loop without finishing.
-/

namespace Verif.MpiLobpcg

open Verif.Solver Verif.Lapack Verif.MpiSolver Verif.Lobpcg

variable {α : Type} (N : Num α)

/-- `Lobpcg.column` with the three norms reduced over all processes.
lobpcg_standard.cpp:201-276 -/
def column (A : Mat α) (pc : List α → Res (List α)) (m n k : Nat) (S : List α) (iter : Nat) (prev : St α) (i : Nat)
    (s : St α) : Proc α (Sum (Lobpcg.Out α) (St α × α)) := do
  let li ← loc (rd s.lam i)
  let l ← loc (wr s.l i li)
  let b ← loc (coeffs N m k S i)
  let zero := List.replicate n N.zero
  let px ← loc (combine N m b prev.F zero)
  let PX ← loc (combine N m b prev.G zero)
  let normp ← nrm2 N px.1
  let p := scal N (N.div N.one normp) px.1
  let P := scal N (N.div N.one normp) PX.1
  let normx ← nrm2 N px.2
  let x := scal N (N.div N.one normx) px.2
  let X := scal N (N.div N.one normx) PX.2
  let w ← loc (N.axpyz (N.neg li) x X n)
  let w ← loc (pc w)
  let r ← nrm2 N w
  if N.isNaN r then
    pure (.inl { status := RESIDUAL_NAN, l := l, x := s.F.x.set i x, finalIter := iter + 1, finalResid := r })
  else do
    let w := scal N (N.div N.one r) w
    let W ← loc (mvInto A n w)
    pure (.inr ({ s with F := s.F.put i w x p, G := s.G.put i W X P, l := l }, r))

/-- the same in the generalised solver: lobpcg_generalized.cpp:229-321 -/
def gcolumn (A B : Mat α) (pc : List α → Res (List α)) (m n k : Nat) (S : List α) (iter : Nat) (prev : St α) (i : Nat)
    (s : St α) : Proc α (Sum (Lobpcg.Out α) (St α × α)) := do
  let li ← loc (rd s.lam i)
  let l ← loc (wr s.l i li)
  let b ← loc (coeffs N m k S i)
  let zero := List.replicate n N.zero
  let px ← loc (combine N m b prev.F zero)
  let PX ← loc (combine N m b prev.G zero)
  let BPX ← loc (combine N m b prev.H zero)
  let normp ← nrm2 N px.1
  let p := scal N (N.div N.one normp) px.1
  let P := scal N (N.div N.one normp) PX.1
  let BP := scal N (N.div N.one normp) BPX.1
  let normx ← nrm2 N px.2
  let x := scal N (N.div N.one normx) px.2
  let X := scal N (N.div N.one normx) PX.2
  let BX := scal N (N.div N.one normx) BPX.2
  let w ← loc (N.axpyz (N.neg li) x X n)
  let w ← loc (pc w)
  let r ← nrm2 N w
  if N.isNaN r then
    pure (.inl { status := RESIDUAL_NAN, l := l, x := s.F.x.set i x, finalIter := iter + 1, finalResid := r })
  else do
    let w := scal N (N.div N.one r) w
    let W ← loc (mvInto A n w)
    let BW ← loc (mvInto B n w)
    pure (.inr ({ s with F := s.F.put i w x p, G := s.G.put i W X P, H := s.H.put i BW BX BP, l := l }, r))

/-- the loop over `i < m`: lobpcg_standard.cpp:201-277 -/
def columns (body : Nat → St α → Proc α (Sum (Lobpcg.Out α) (St α × α))) :
    List Nat → List α → St α → Proc α (Sum (Lobpcg.Out α) (St α × List α))
  | [], rs, s => pure (.inr (s, rs))
  | i :: is, rs, s => do
    let r ← body i s
    match r with
    | .inl o => pure (.inl o)
    | .inr (s', q) => columns body is (rs ++ [q]) s'

/-- The body of the main loop. The projected matrices hold the products of this process's parts only.
lobpcg_standard.cpp:136-309 -/
def passWith (L : Lib α) (cfg : Cfg α) (m iter k : Nat) (lbound ubound : Int) (sb : St α → List (List α))
    (body : (k : Nat) → (S : List α) → (prev : St α) → Nat → St α → Proc α (Sum (Lobpcg.Out α) (St α × α))) (s : St α) :
    Proc α (Pass α) :=
  let vecs := s.F.rows.take k
  let Sam := gram N (s.G.rows.take k) vecs
  let Sbm := gram N ((sb s).take k) vecs
  let r := L.sygvd 1 true false k Sam k Sbm k
  let s := { s with lam := overwrite s.lam r.2.2.1 }
  let info := r.2.2.2
  if lbound < info ∧ info ≤ ubound then pure (.restart s)
  else if info ≠ 0 ∧ info < m then loc (.throw "internal LAPACK sygvd returned error")
  else do
    let c ← columns (body k r.1 s) (List.range m) [] s
    match c with
    | .inl o => pure (.done o)
    | .inr (s', rs) => do
      let resid ← loc (maxV N rs)
      if N.lt resid cfg.tol = true ∧ cfg.miniter < iter + 1 then
        pure (.done { status := SUCCESS, l := s'.l, x := s'.F.x, finalIter := iter + 1, finalResid := resid })
      else pure (.next s' resid)

/-- `Lobpcg.pass`: lobpcg_standard.cpp:123-182 -/
def pass (L : Lib α) (cfg : Cfg α) (m iter : Nat) (singular : Bool) (sb : St α → List (List α))
    (body : (k : Nat) → (S : List α) → (prev : St α) → Nat → St α → Proc α (Sum (Lobpcg.Out α) (St α × α))) (s : St α) :
    Proc α (Pass α) :=
  if iter = 0 ∨ singular = true then passWith N L cfg m iter (2 * m) (3 * m) (4 * m) sb body s
  else passWith N L cfg m iter (3 * m) (5 * m) (6 * m) sb body s

/-- The main loop, at most `fuel` passes: lobpcg_standard.cpp:119-318 -/
def loop (cfg : Cfg α) (body : (iter : Nat) → (singular : Bool) → St α → Proc α (Pass α)) :
    (fuel iter : Nat) → Bool → (resid : α) → St α → Proc α (Option (Lobpcg.Out α))
  | 0, _, _, _, _ => pure none
  | fuel + 1, iter, singular, resid, s =>
    if iter < cfg.maxiter then do
      let p ← body iter singular s
      match p with
      | .done o => pure (some o)
      | .restart s' => loop cfg body fuel iter true resid s'
      | .next s' r' => loop cfg body fuel (iter + 1) false r' s'
    else
      pure (some { status := MAXITER, l := s.l, x := s.F.x, finalIter := cfg.maxiter, finalResid := resid })

/-- apply `f` to the elements of a list in order -/
def mapProc {β γ : Type} (f : β → Proc α γ) : List β → Proc α (List γ)
  | [] => pure []
  | a :: l => do
    let b ← f a
    let r ← mapProc f l
    pure (b :: r)

/-- a random vector is divided by its norm: lobpcg_standard.cpp:83-91 -/
def normalise (r : List α) : Proc α (List α) := do
  let norm ← nrm2 N r
  pure (scal N (N.div N.one norm) r)

/-- the initial vectors: lobpcg_standard.cpp:79-98 -/
def initial (m : Nat) (rs : Option (List (List α))) (xin : List (List α)) : Proc α (List (List α)) :=
  match rs with
  | some rs => mapProc (normalise N) (rs.take m)
  | none => pure (xin.take m)

/-- `Lobpcg.initVec`: lobpcg_standard.cpp:104-115 -/
def initVec (A : Mat α) (n : Nat) (x : List α) : Proc α (List α × List α × List α) := do
  let X ← loc (mvInto A n x)
  let mu ← dot N x X
  let w ← loc (N.axpyz (N.neg mu) x X n)
  let norm ← nrm2 N w
  let w := scal N (N.div N.one norm) w
  let W ← loc (mvInto A n w)
  pure (X, w, W)

/-- `Lobpcg.ginitVec`: lobpcg_generalized.cpp:124-141 -/
def ginitVec (A B : Mat α) (n : Nat) (x : List α) : Proc α (List α × List α × List α × List α × List α) := do
  let X ← loc (mvInto A n x)
  let BX ← loc (mvInto B n x)
  let muA ← dot N x X
  let muB ← dot N x BX
  let w ← loc (N.axpyz (N.neg (N.div muA muB)) x BX n)
  let norm ← nrm2 N w
  let w := scal N (N.div N.one norm) w
  let W ← loc (mvInto A n w)
  let BW ← loc (mvInto B n w)
  pure (X, BX, w, W, BW)

/-- `standard_eigen::LOBPCG::monolish_LOBPCG(A, l, xinout)` on one of the processes: lobpcg_standard.cpp:10-318 -/
def standard (L : Lib α) (cfg : Cfg α) (A : Mat α) (create : Res (List α → Res (List α))) (l : List α)
    (xin : List (List α)) (xcol : Nat) (rs : Option (List (List α))) (fuel : Nat) : Proc α (Option (Lobpcg.Out α)) :=
  let m := l.length
  let n := A.col
  if A.col ≠ xcol then loc (.throw "error, A.col != x.col")
  else if l.length ≠ xin.length then loc (.throw "error, l.size != x.row")
  else do
    let pc ← loc create
    let x ← initial N m rs xin
    let t ← mapProc (initVec N A n) x
    let zeros := List.replicate m (List.replicate n N.zero)
    loop cfg (fun iter singular s => pass N L cfg m iter singular (fun s => s.F.rows)
        (fun k S prev => column N A pc m n k S iter prev) s) fuel 0 false N.zero
      { F := ⟨t.map (fun v => v.2.1), x, zeros⟩
        G := ⟨t.map (fun v => v.2.2), t.map (fun v => v.1), zeros⟩
        H := ⟨[], [], []⟩
        l := l
        lam := List.replicate (3 * m) N.zero }

/-- `generalized_eigen::LOBPCG::monolish_LOBPCG(A, B, l, xinout, itype)` on one of the processes:
lobpcg_generalized.cpp:9-361 -/
def generalized (L : Lib α) (cfg : Cfg α) (A B : Mat α) (create : Res (List α → Res (List α))) (l : List α)
    (xin : List (List α)) (xcol : Nat) (itype : Int) (rs : Option (List (List α))) (fuel : Nat) :
    Proc α (Option (Lobpcg.Out α)) := do
  let m := l.length
  let n := A.col
  loc (cassert (decide (itype = 1)))
  if A.col ≠ xcol then loc (.throw "error, A.col != x.col")
  else if A.col ≠ B.col ∨ A.row ≠ B.row then loc (.throw "error, A shape != B shape")
  else if l.length ≠ xin.length then loc (.throw "error, l.size != x.row")
  else do
    let pc ← loc create
    let x ← initial N m rs xin
    let t ← mapProc (ginitVec N A B n) x
    let zeros := List.replicate m (List.replicate n N.zero)
    loop cfg (fun iter singular s => pass N L cfg m iter singular (fun s => s.H.rows)
        (fun k S prev => gcolumn N A B pc m n k S iter prev) s) fuel 0 false N.zero
      { F := ⟨t.map (fun v => v.2.2.1), x, zeros⟩
        G := ⟨t.map (fun v => v.2.2.2.1), t.map (fun v => v.1), zeros⟩
        H := ⟨t.map (fun v => v.2.2.2.2), t.map (fun v => v.2.1), zeros⟩
        l := l
        lam := List.replicate (3 * m) N.zero }

end Verif.MpiLobpcg
