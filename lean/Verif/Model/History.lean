import Verif.Model.Sor

/-!
The residual history of the iterative solvers (`set_print_rhistory`, `set_rhistory_filename`): the
same loops as in `Model/Solver.lean` and `Model/Sor.lean`, together with the lines written to the
history stream, in order. A line `iter + 1 \t resid \n` is the pair of the two numbers; how the number
is rounded to decimal digits by `std::scientific` is not modelled. `print` is `get_print_rhistory()`.
-/

namespace Verif.Solver

variable {α : Type}

/-- the lines of a run -/
abbrev History (α : Type) := List (Nat × α)

/-- `if (get_print_rhistory()) *rhistory_stream << iter + 1 << "\t" << resid << endl`:
cg.cpp:62-65, bicgstab.cpp:109-112, jacobi.cpp:126-129, sor.cpp:141-144 -/
def line (print : Bool) (iter : Nat) (resid : α) : History α :=
  if print then [(iter + 1, resid)] else []

/-- The loop of CG with its history: cg.cpp:46-87 -/
def CG.loopH (N : Num α) (cfg : Cfg α) (A : Mat α) (pc : List α → Res (List α)) (print : Bool) :
    Nat → Nat → CG.St α → Res (Out α × History α)
  | 0, _, s => do
    let out ← atMaxiter N cfg s.x s.r
    .ok (out, [])
  | n + 1, iter, s => do
    let s ← CG.step N A pc s
    let resid ← getResidual N cfg s.r
    let l := line print iter resid
    let o ← stopCheck N cfg iter resid s.x s.r
    match o with
    | some out => .ok (out, l)
    | none => do
      let p ← CG.loopH N cfg A pc print n (iter + 1) s
      .ok (p.1, l ++ p.2)

/-- `monolish_CG` with its history: cg.cpp:12-88 -/
def CG.monolishH (N : Num α) (cfg : Cfg α) (A : Mat α) (create : Res (List α → Res (List α)))
    (print : Bool) (x b : List α) : Res (Out α × History α) :=
  if A.row ≠ A.col then .throw "error, A.row != A.col"
  else do
    let pc ← create
    let s ← CG.init N A pc x b
    CG.loopH N cfg A pc print cfg.maxiter 0 s

/-- `CG::solve` with its history: cg.cpp:106-117 -/
def CG.solveH (N : Num α) (cfg : Cfg α) (A : Mat α) (create : Res (List α → Res (List α)))
    (print : Bool) (x b : List α) : Res (Out α × History α) :=
  if cfg.lib = 0 then CG.monolishH N cfg A create print x b
  else .ok ({ status := 0, x := x, finalIter := cfg.prevIter, finalResid := cfg.prevResid }, [])

/-- The loop of BiCGSTAB with its history: bicgstab.cpp:49-132 -/
def BiCG.loopH (N : Num α) (cfg : Cfg α) (A : Mat α) (pc : List α → Res (List α)) (print : Bool)
    (r0 : List α) : Nat → Nat → BiCG.St α → Res (Out α × History α)
  | 0, _, s => do
    let out ← atMaxiter N cfg s.x s.r
    .ok (out, [])
  | n + 1, iter, s => do
    let rho ← N.dot s.r r0
    if N.isZero rho then
      let fr ← getResidual N cfg s.r
      .ok ({ status := BREAKDOWN, x := s.x, finalIter := iter + 1, finalResid := fr }, [])
    else
      let p ← BiCG.direction N A.row iter s rho
      let phat ← pc p
      let v ← A.mv phat
      let vr0 ← N.dot v r0
      let alpha := N.div rho vr0
      let sv ← N.axpyz (N.neg alpha) v s.r A.row
      let shat ← pc sv
      let t ← A.mv shat
      let ts ← N.dot t sv
      let tt ← N.dot t t
      let omega := N.div ts tt
      if N.isZero omega then
        let fr ← getResidual N cfg s.r
        .ok ({ status := BREAKDOWN, x := s.x, finalIter := iter + 1, finalResid := fr }, [])
      else
        let x ← N.axpy alpha phat s.x
        let x ← N.axpy omega shat x
        let r ← N.axpyz (N.neg omega) t sv A.row
        let resid ← getResidual N cfg r
        let l := line print iter resid
        let o ← stopCheck N cfg iter resid x r
        match o with
        | some out => .ok (out, l)
        | none => do
          let q ← BiCG.loopH N cfg A pc print r0 n (iter + 1)
            { x := x, r := r, p := p, v := v, rhoOld := rho, alpha := alpha, omega := omega }
          .ok (q.1, l ++ q.2)

/-- `monolish_BiCGSTAB` with its history: bicgstab.cpp:12-133 -/
def BiCG.monolishH (N : Num α) (cfg : Cfg α) (A : Mat α) (create : Res (List α → Res (List α)))
    (print : Bool) (x b : List α) : Res (Out α × History α) :=
  if A.row ≠ A.col then .throw "error A.row != A.col"
  else do
    let pc ← create
    let q ← A.mv x
    let r ← N.vsub b q A.row
    BiCG.loopH N cfg A pc print r cfg.maxiter 0
      { x := x, r := r, p := List.replicate A.row N.zero, v := List.replicate A.row N.zero,
        rhoOld := N.one, alpha := N.one, omega := N.one }

/-- `BiCGSTAB::solve` with its history: bicgstab.cpp:154-168 -/
def BiCG.solveH (N : Num α) (cfg : Cfg α) (A : Mat α) (create : Res (List α → Res (List α)))
    (print : Bool) (x b : List α) : Res (Out α × History α) :=
  if cfg.lib = 0 then BiCG.monolishH N cfg A create print x b
  else .ok ({ status := 0, x := x, finalIter := cfg.prevIter, finalResid := cfg.prevResid }, [])

/-- The loop of Jacobi with its history: jacobi.cpp:115-146 -/
def Jacobi.loopH (N : Num α) (cfg : Cfg α) (A : Mat α) (pc : List α → Res (List α)) (print : Bool)
    (b d : List α) (binv : α) : Nat → Nat → (x r : List α) → Res (Out α × History α)
  | 0, _, x, r => do
    let out ← atMaxiter N cfg x r
    .ok (out, [])
  | n + 1, iter, x, _ => do
    let _ ← pc x
    let s ← Num.copyV x A.row
    let t ← A.mv s
    let r ← N.axpyz (N.neg N.one) t b A.row
    let nrm := N.nrm2 r
    let r ← N.vmul r d A.row
    let x ← N.vadd x r x.length
    let nrm := N.mul nrm binv
    let l := line print iter nrm
    let o ← stopCheck N cfg iter nrm x r
    match o with
    | some out => .ok (out, l)
    | none => do
      let p ← Jacobi.loopH N cfg A pc print b d binv n (iter + 1) x r
      .ok (p.1, l ++ p.2)

/-- `monolish_Jacobi` with its history: jacobi.cpp:83-147 -/
def Jacobi.monolishH (N : Num α) (cfg : Cfg α) (A : Mat α) (create : Res (List α → Res (List α)))
    (print : Bool) (x b : List α) : Res (Out α × History α) :=
  if A.row ≠ A.col then .throw "error, A.row != A.col"
  else do
    let d ← A.diag
    let pc ← create
    Jacobi.loopH N cfg A pc print b (N.reciprocal d) (N.div N.one (N.nrm2 b)) cfg.maxiter 0 x
      (List.replicate A.row N.zero)

/-- `Jacobi::solve` with its history: jacobi.cpp:171-182 -/
def Jacobi.solveH (N : Num α) (cfg : Cfg α) (A : Mat α) (create : Res (List α → Res (List α)))
    (print : Bool) (x b : List α) : Res (Out α × History α) :=
  if cfg.lib = 0 then Jacobi.monolishH N cfg A create print x b
  else .ok ({ status := 0, x := x, finalIter := cfg.prevIter, finalResid := cfg.prevResid }, [])

/-- The loop of SOR with its history: sor.cpp:122-157 -/
def SOR.loopH (N : Num α) (cfg : Cfg α) (A : Mat α)
    (lower : List α → List α → List α → Res (List α)) (pc : List α → Res (List α)) (print : Bool)
    (b d : List α) (binv : α) : Nat → Nat → (x r : List α) → Res (Out α × History α)
  | 0, _, x, r => do
    let out ← atMaxiter N cfg x r
    .ok (out, [])
  | n + 1, iter, x, _ => do
    let s ← pc x
    let t ← A.mv s
    let r ← N.axpyz (N.neg N.one) t b A.row
    let nrm := N.nrm2 r
    let t ← lower d t r
    let x ← N.axpy N.one t x
    let nrm := N.mul nrm binv
    let l := line print iter nrm
    let o ← stopCheck N cfg iter nrm x r
    match o with
    | some out => .ok (out, l)
    | none => do
      let p ← SOR.loopH N cfg A lower pc print b d binv n (iter + 1) x r
      .ok (p.1, l ++ p.2)

/-- `monolish_SOR` with its history: sor.cpp:91-163 -/
def SOR.monolishH (N : Num α) (cfg : Cfg α) (A : Mat α)
    (lower : List α → List α → List α → Res (List α)) (create : Res (List α → Res (List α)))
    (print : Bool) (x b : List α) : Res (Out α × History α) :=
  if A.row ≠ A.col then .throw "error, A.row != A.col"
  else do
    let d ← A.diag
    let d := N.reciprocal (d.map (N.mul (N.div N.one cfg.omega)))
    let pc ← create
    SOR.loopH N cfg A lower pc print b d (N.div N.one (N.nrm2 b)) cfg.maxiter 0 x
      (List.replicate A.row N.zero)

/-- `SOR::solve` with its history: sor.cpp:184-196 -/
def SOR.solveH (N : Num α) (cfg : Cfg α) (A : Mat α)
    (lower : List α → List α → List α → Res (List α)) (create : Res (List α → Res (List α)))
    (print : Bool) (x b : List α) : Res (Out α × History α) :=
  if cfg.lib = 0 then SOR.monolishH N cfg A lower create print x b
  else .ok ({ status := 0, x := x, finalIter := cfg.prevIter, finalResid := cfg.prevResid }, [])

end Verif.Solver
