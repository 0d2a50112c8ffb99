import Verif.Model.Lobpcg

/-!
The LOBPCG eigensolvers in a GPU build: `standard_eigen::LOBPCG`, `generalized_eigen::LOBPCG` with their transfers between
host and device (src/eigen/lobpcg_standard.cpp, src/eigen/lobpcg_generalized.cpp).

Every object has a host copy, a device copy and a flag. The calculation is that of `Verif/Model/Lobpcg.lean`, but every call works
on the copies the C++ function works on and is preceded by the assertion on the placement of its arguments.

Simplifications, besides those of `Model/Lobpcg.lean`: device and host arithmetic are the same; the library `Cu` is cuSOLVER;
`twxp` is represented by the list of its columns; `A`, `B` and the data of the preconditioner, which LOBPCG only reads, appear as
functions (of the copies on their sides) with flags.
-/

namespace Verif.Lobpcg.Dev

open Solver Lapack

variable {α β : Type}

/-- An object: its host copy, its device copy (meaningful while the flag is set), `get_device_mem_stat()`. -/
structure D (β : Type) where
  host : β
  dev : β
  on : Bool
  deriving DecidableEq, Repr

namespace D

/-- the copy functions of the library work on -/
def get (o : D β) : β := if o.on then o.dev else o.host

/-- write it -/
def put (o : D β) (v : β) : D β := if o.on then { o with dev := v } else { o with host := v }

/-- `send`: src/utils/system/gpu_comm.cpp -/
def send (gpu : Bool) (o : D β) : D β := if gpu then { o with dev := o.host, on := true } else o

/-- `recv`: copy back and free the device copy. src/utils/system/gpu_comm.cpp -/
def recv (gpu : Bool) (o : D β) : D β := if gpu && o.on then { o with host := o.dev, on := false } else o

/-- `nonfree_recv`: copy back. src/utils/system/gpu_comm.cpp -/
def nonfreeRecv (gpu : Bool) (o : D β) : D β := if gpu && o.on then { o with host := o.dev } else o

/-- a newly constructed object -/
def new (v : β) : D β := { host := v, dev := v, on := false }

end D

/-- `assert(util::is_same_device_mem_stat(...))`: include/monolish/common/monolish_common.hpp:906-923 -/
def same : List Bool → Res Unit
  | [] => .ok ()
  | f :: fs => cassert (fs.all fun g => g == f)

/-- `v[i]` of a vector, read: include/monolish/common/monolish_vector.hpp:600-605 -/
def vrd (v : D (List α)) (i : Nat) : Res α :=
  if v.on then .throw "Error, GPU vector cant use operator[]" else rd v.host i

/-- `v[i] = a`: include/monolish/common/monolish_vector.hpp:600-605 -/
def vwr (v : D (List α)) (i : Nat) (a : α) : Res (D (List α)) :=
  if v.on then .throw "Error, GPU vector cant use operator[]"
  else do
    let l ← wr v.host i a
    .ok { v with host := l }

/-- The objects of a call: `wxp`, `WXP`, `BWXP` and the copies of the last iteration, `twxp`, the projected matrices, `lambda`,
the scratch vectors `vtmp1`, `vtmp2`, `zero`, and the arguments `l`, `xinout`. lobpcg_standard.cpp:36-53,116-118 -/
structure St (α : Type) where
  F : D (Fam α)
  G : D (Fam α)
  H : D (Fam α)
  Fp : D (Fam α)
  Gp : D (Fam α)
  Hp : D (Fam α)
  T : D (List (List α))
  Sam : D (List α)
  Sbm : D (List α)
  lam : D (List α)
  v1 : D (List α)
  v2 : D (List α)
  zero : D (List α)
  l : D (List α)
  xin : D (List (List α))

/-- What a call leaves behind: return code, `get_final_iter()`, `get_final_residual()`, the objects. -/
structure Ret (α : Type) where
  status : Int
  finalIter : Nat
  finalResid : α
  s : St α

/-- The preconditioner after `create_precond`: the function it applies, and where its data is (`none`: it has no data). The
vectors of Jacobi are sent if `A` is on the device (src/equation/jacobi.cpp:10-27). -/
structure Pc (α : Type) where
  f : List α → Res (List α)
  on : Option Bool

/-- `precond.apply_precond(vtmp2, vtmp1)`: `blas::copy(r, z)` (src/equation/none.cpp:40-46) or
`vml::mul(r, M, z)` (src/equation/jacobi.cpp:49-56) -/
def Pc.apply (pc : Pc α) (r z : D (List α)) : Res (D (List α)) := do
  match pc.on with
  | none => same [r.on, z.on]
  | some o => same [r.on, o, z.on]
  let v ← pc.f r.get
  .ok (z.put v)

/-- The assertion of `blas::copy` in a loop over `m` rows: it is met at once if there are no rows. -/
def rowsCheck (m : Nat) (fs : List Bool) : Res Unit := if m = 0 then .ok () else same fs

/-- The loop that copies the rows `x[i]` to `xinout` before every return: lobpcg_standard.cpp:263-266,283-286,309-312. With
`m = 0` there is nothing to copy. -/
def giveBack (m : Nat) (s : St α) : Res (St α) := do
  rowsCheck m [s.F.on, s.xin.on]
  .ok { s with xin := s.xin.put s.F.get.x }

/-- The calls in the loop over `i` up to the residual, for one family: `copy(zero, ..)`, the `axpy`s.
lobpcg_standard.cpp:220-239 -/
def combineD (N : Num α) (m : Nat) (b : List α) (zero : D (List α)) (fp f : D (Fam α)) : Res (List α × List α) := do
  same [zero.on, f.on]
  same [fp.on, f.on]
  combine N m b fp.get zero.get

/-- The body of the loop over `i < m`. lobpcg_standard.cpp:201-276 -/
def column (N : Num α) (A : Mat α) (Aon : Bool) (pc : Pc α) (m n k iter i : Nat) (s : St α) :
    Res (Sum (Ret α) (St α × α)) := do
  let li ← vrd s.lam i
  let l ← vwr s.l i li
  let s := { s with l := l }
  same [s.Sam.on, false]
  let b ← coeffs N m k s.Sam.get i
  let px ← combineD N m b s.zero s.Fp s.F
  let PX ← combineD N m b s.zero s.Gp s.G
  let cp := N.div N.one (N.nrm2 px.1)
  let cx := N.div N.one (N.nrm2 px.2)
  let p := scal N cp px.1
  let P := scal N cp PX.1
  let x := scal N cx px.2
  let X := scal N cx PX.2
  let li ← vrd s.l i
  same [s.F.on, s.G.on, s.F.on]
  let w ← N.axpyz (N.neg li) x X n
  same [s.F.on, s.v2.on]
  let v2 := s.v2.put w
  let v1 ← pc.apply v2 s.v1
  same [v1.on, s.F.on]
  let w := v1.get
  let s := { s with v1 := v1, v2 := v2 }
  let r := N.nrm2 w
  if N.isNaN r then do
    let s ← giveBack m { s with F := s.F.put (s.F.get.put i w x p), G := s.G.put { s.G.get with x := s.G.get.x.set i X } }
    .ok (.inl { status := RESIDUAL_NAN, finalIter := iter + 1, finalResid := r, s := s })
  else do
    let w := scal N (N.div N.one r) w
    same [Aon, s.F.on, s.G.on]
    let W ← mvInto A n w
    .ok (.inr ({ s with F := s.F.put (s.F.get.put i w x p), G := s.G.put (s.G.get.put i W X P) }, r))

/-- the loop over `i`; `rs` collects `residual` -/
def columns (body : Nat → St α → Res (Sum (Ret α) (St α × α))) :
    List Nat → List α → St α → Res (Sum (Ret α) (St α × List α))
  | [], rs, s => .ok (.inr (s, rs))
  | i :: is, rs, s => do
    let r ← body i s
    match r with
    | .inl o => .ok (.inl o)
    | .inr (s', q) => columns body is (rs ++ [q]) s'

/-- `internal::lapack::sygvd(Sam, Sbm, lambda, 1, "V", "L")`: in a GPU build the three arguments are sent (the host copies are
what is used), and `Sam` and `lambda` fetched afterwards; `Sbm` stays on the device.
src/internal/lapack/sygv/dense_double_sygv.cpp:12-106 -/
def sygvd (gpu : Bool) (L Cu : Lib α) (k : Nat) (s : St α) : St α × Int :=
  if gpu then
    let Sam := s.Sam.send gpu
    let Sbm := s.Sbm.send gpu
    let lam := s.lam.send gpu
    let r := Cu.sygvd 1 true false k Sam.dev k Sbm.dev k
    ({ s with
        Sam := ({ Sam with dev := r.1 } : D (List α)).recv gpu
        Sbm := { Sbm with dev := r.2.1 }
        lam := ({ lam with dev := overwrite lam.dev r.2.2.1 } : D (List α)).recv gpu }, r.2.2.2)
  else
    let r := L.sygvd 1 true false k s.Sam.host k s.Sbm.host k
    ({ s with
        Sam := { s.Sam with host := r.1 }
        Sbm := { s.Sbm with host := r.2.1 }
        lam := { s.lam with host := overwrite s.lam.host r.2.2.1 } }, r.2.2.2)

/-- one pass through the main loop -/
inductive Pass (α : Type) where
  | done (o : Ret α)
  | restart (s : St α)
  | next (s : St α) (resid : α)

/-- The projection: `Sam`, `lambda` sent, `wxp` fetched and transposed on the host, `twxp` sent, the two products, which are fetched.
`sb` selects the matrix of the second product (`wxp` or `BWXP`). lobpcg_standard.cpp:121-164 -/
def project (N : Num α) (gpu Aon : Bool) (k : Nat) (sb : St α → D (Fam α)) (s : St α) : Res (St α) := do
  let s := if Aon then { s with Sam := s.Sam.send gpu, lam := s.lam.send gpu } else s
  let s := if Aon then { s with F := s.F.nonfreeRecv gpu } else s
  let s := { s with T := { s.T with host := s.F.host.rows.take k } }
  let s := if Aon then { s with T := s.T.send gpu } else s
  same [s.G.on, s.T.on, s.Sam.on]
  let s := { s with Sam := s.Sam.put (gram N (s.G.get.rows.take k) s.T.get) }
  same [(sb s).on, s.T.on, s.Sbm.on]
  let s := { s with Sbm := s.Sbm.put (gram N ((sb s).get.rows.take k) s.T.get) }
  .ok (if Aon then { s with Sam := s.Sam.nonfreeRecv gpu, Sbm := s.Sbm.nonfreeRecv gpu } else s)

/-- `blas::copy(wxp, wxp_p)`, `blas::copy(WXP, WXP_p)`, and in the generalised solver `blas::copy(BWXP, BWXP_p)`.
lobpcg_standard.cpp:196-198, lobpcg_generalized.cpp:224-227 -/
def keep (general : Bool) (s : St α) : Res (St α) := do
  same [s.F.on, s.Fp.on]
  let s := { s with Fp := s.Fp.put s.F.get }
  same [s.G.on, s.Gp.on]
  let s := { s with Gp := s.Gp.put s.G.get }
  if general then do
    same [s.H.on, s.Hp.on]
    .ok { s with Hp := s.Hp.put s.H.get }
  else .ok s

/-- The body of the main loop: lobpcg_standard.cpp:121-309. -/
def passWith (N : Num α) (gpu Aon : Bool) (L Cu : Lib α) (cfg : Cfg α) (general : Bool) (m iter k : Nat) (lbound ubound : Int)
    (sb : St α → D (Fam α)) (body : (k : Nat) → Nat → St α → Res (Sum (Ret α) (St α × α)))
    (s : St α) : Res (Pass α) := do
  let s ← project N gpu Aon k sb s
  let (s, info) := sygvd gpu L Cu k s
  if lbound < info ∧ info ≤ ubound then .ok (.restart s)
  else if info ≠ 0 ∧ info < m then .throw "internal LAPACK sygvd returned error"
  else do
    let s := if Aon then { s with Sam := s.Sam.recv gpu, lam := s.lam.recv gpu } else s
    let s ← keep general s
    let c ← columns (body k) (List.range m) [] s
    match c with
    | .inl o => .ok (.done o)
    | .inr (s', rs) => do
      let resid ← maxV N rs
      if N.lt resid cfg.tol = true ∧ cfg.miniter < iter + 1 then do
        let s' ← giveBack m s'
        .ok (.done { status := SUCCESS, finalIter := iter + 1, finalResid := resid, s := s' })
      else .ok (.next s' resid)

/-- The size of the projected problem, as in `Lobpcg.pass`: lobpcg_standard.cpp:123-182. -/
def pass (N : Num α) (gpu Aon : Bool) (L Cu : Lib α) (cfg : Cfg α) (general : Bool) (m iter : Nat) (singular : Bool)
    (sb : St α → D (Fam α)) (body : (k : Nat) → Nat → St α → Res (Sum (Ret α) (St α × α)))
    (s : St α) : Res (Pass α) :=
  if iter = 0 ∨ singular = true then passWith N gpu Aon L Cu cfg general m iter (2 * m) (3 * m) (4 * m) sb body s
  else passWith N gpu Aon L Cu cfg general m iter (3 * m) (5 * m) (6 * m) sb body s

/-- The main loop, at most `fuel` passes. lobpcg_standard.cpp:119-318 -/
def loop (cfg : Cfg α) (m : Nat) (body : (iter : Nat) → (singular : Bool) → St α → Res (Pass α)) :
    (fuel iter : Nat) → Bool → (resid : α) → St α → Option (Res (Ret α))
  | 0, _, _, _, _ => none
  | fuel + 1, iter, singular, resid, s =>
    if iter < cfg.maxiter then
      match body iter singular s with
      | .ok (.done o) => some (.ok o)
      | .ok (.restart s') => loop cfg m body fuel iter true resid s'
      | .ok (.next s' r') => loop cfg m body fuel (iter + 1) false r' s'
      | .throw e => some (.throw e)
      | .abort e => some (.abort e)
      | .ub e => some (.ub e)
    else
      some (do
        let s ← giveBack m s
        .ok { status := MAXITER, finalIter := cfg.maxiter, finalResid := resid, s := s })

/-- The initial vectors, made on the host: random ones, or copies of the rows of `xinout`, which have to be on the host.
lobpcg_standard.cpp:79-98 -/
def initial (N : Num α) (m : Nat) (rs : Option (List (List α))) (xin : D (List (List α))) : Res (List (List α)) :=
  match rs with
  | some rs => .ok (Lobpcg.initial N m (some rs) [])
  | none => do
    rowsCheck m [xin.on, false]
    .ok (Lobpcg.initial N m none xin.get)

/-- The objects before the first pass (`t`: nothing computed yet); if `A` is on the device everything but `Sam`, `lambda` is sent.
lobpcg_standard.cpp:36-53,99-102,116-121 -/
def start (N : Num α) (gpu Aon : Bool) (m n : Nat) (x : List (List α)) (l : D (List α)) (xin : D (List (List α))) : St α :=
  let snd {β : Type} (o : D β) : D β := if Aon then o.send gpu else o
  let zeros := List.replicate m (List.replicate n N.zero)
  let fam : Fam α := ⟨zeros, zeros, zeros⟩
  { F := snd (.new ⟨zeros, x, zeros⟩), G := snd (.new fam), H := snd (.new fam)
    Fp := snd (.new fam), Gp := snd (.new fam), Hp := snd (.new fam)
    T := snd (.new [])
    Sam := .new (List.replicate (9 * m * m) N.zero), Sbm := snd (.new (List.replicate (9 * m * m) N.zero))
    lam := .new (List.replicate (3 * m) N.zero)
    v1 := snd (.new (List.replicate n N.zero)), v2 := snd (.new (List.replicate n N.zero))
    zero := snd (.new (List.replicate n N.zero))
    l := l, xin := snd xin }

/-- The first products: `X = A x`, `w`, `W`, for all vectors; the flags are those of `A`, `wxp`, `WXP`.
lobpcg_standard.cpp:104-115 -/
def firstVecs (N : Num α) (A : Mat α) (Aon : Bool) (n : Nat) (s : St α) : Res (St α) := do
  let t ← mapRes (fun x => do
    same [Aon, s.F.on, s.G.on]
    initVec N A n x) s.F.get.x
  .ok { s with
        F := s.F.put { s.F.get with w := t.map (fun v => v.2.1) }
        G := s.G.put { s.G.get with w := t.map (fun v => v.2.2), x := t.map (fun v => v.1) } }

/-- `standard_eigen::LOBPCG::monolish_LOBPCG(A, l, xinout)`: lobpcg_standard.cpp:10-318. `l`, `xin` are the arguments, `xrow`,
`xcol` the sizes of `xinout`. -/
def standard (N : Num α) (gpu : Bool) (L Cu : Lib α) (cfg : Cfg α) (A : Mat α) (Aon : Bool)
    (create : Res (Pc α)) (l : D (List α)) (xin : D (List (List α))) (xcol : Nat)
    (rs : Option (List (List α))) (fuel : Nat) : Option (Res (Ret α)) :=
  let m := l.get.length
  let n := A.col
  let init : Res (Pc α × St α) := do
    if A.col ≠ xcol then .throw "error, A.col != x.col"
    else if m ≠ xin.get.length then .throw "error, l.size != x.row"
    else do
      let pc ← create
      let x ← initial N m rs xin
      let s ← firstVecs N A Aon n (start N gpu Aon m n x l xin)
      .ok (pc, s)
  match init with
  | .ok (pc, s) =>
    loop cfg m (fun iter singular s => pass N gpu Aon L Cu cfg false m iter singular (fun s => s.F)
      (fun k i s => column N A Aon pc m n k iter i s) s) fuel 0 false N.zero s
  | .throw e => some (.throw e)
  | .abort e => some (.abort e)
  | .ub e => some (.ub e)

/-! ### The generalised problem -/

/-- The body of the loop over `i < m`: lobpcg_generalized.cpp:229-321. -/
def gcolumn (N : Num α) (A B : Mat α) (Aon Bon : Bool) (pc : Pc α) (m n k iter i : Nat) (s : St α) :
    Res (Sum (Ret α) (St α × α)) := do
  let li ← vrd s.lam i
  let l ← vwr s.l i li
  let s := { s with l := l }
  same [s.Sam.on, false]
  let b ← coeffs N m k s.Sam.get i
  let px ← combineD N m b s.zero s.Fp s.F
  let PX ← combineD N m b s.zero s.Gp s.G
  let BPX ← combineD N m b s.zero s.Hp s.H
  let cp := N.div N.one (N.nrm2 px.1)
  let cx := N.div N.one (N.nrm2 px.2)
  let p := scal N cp px.1
  let P := scal N cp PX.1
  let BP := scal N cp BPX.1
  let x := scal N cx px.2
  let X := scal N cx PX.2
  let BX := scal N cx BPX.2
  let li ← vrd s.l i
  same [s.F.on, s.G.on, s.F.on]
  let w ← N.axpyz (N.neg li) x X n
  same [s.F.on, s.v2.on]
  let v2 := s.v2.put w
  let v1 ← pc.apply v2 s.v1
  same [v1.on, s.F.on]
  let w := v1.get
  let s := { s with v1 := v1, v2 := v2 }
  let r := N.nrm2 w
  if N.isNaN r then do
    let s ← giveBack m { s with F := s.F.put (s.F.get.put i w x p) }
    .ok (.inl { status := RESIDUAL_NAN, finalIter := iter + 1, finalResid := r, s := s })
  else do
    let w := scal N (N.div N.one r) w
    same [Aon, s.F.on, s.G.on]
    let W ← mvInto A n w
    same [Bon, s.F.on, s.H.on]
    let BW ← mvInto B n w
    .ok (.inr ({ s with F := s.F.put (s.F.get.put i w x p), G := s.G.put (s.G.get.put i W X P)
                        H := s.H.put (s.H.get.put i BW BX BP) }, r))

/-- The first products in the generalised solver: lobpcg_generalized.cpp:124-141. -/
def gfirstVecs (N : Num α) (A B : Mat α) (Aon Bon : Bool) (n : Nat) (s : St α) : Res (St α) := do
  let t ← mapRes (fun x => do
    same [Aon, s.F.on, s.G.on]
    let X ← mvInto A n x
    same [Bon, s.F.on, s.H.on]
    let BX ← mvInto B n x
    let muA ← N.dot x X
    let muB ← N.dot x BX
    let mu := N.div muA muB
    let w ← N.axpyz (N.neg mu) x BX n
    let w := scal N (N.div N.one (N.nrm2 w)) w
    let W ← mvInto A n w
    let BW ← mvInto B n w
    .ok (X, BX, w, W, BW)) s.F.get.x
  .ok { s with
        F := s.F.put { s.F.get with w := t.map (fun v => v.2.2.1) }
        G := s.G.put { s.G.get with w := t.map (fun v => v.2.2.2.1), x := t.map (fun v => v.1) }
        H := s.H.put { s.H.get with w := t.map (fun v => v.2.2.2.2), x := t.map (fun v => v.2.1) } }

/-- `generalized_eigen::LOBPCG::monolish_LOBPCG(A, B, l, xinout, itype)`: lobpcg_generalized.cpp:9-361 -/
def generalized (N : Num α) (gpu : Bool) (L Cu : Lib α) (cfg : Cfg α) (A B : Mat α) (Aon Bon : Bool)
    (create : Res (Pc α)) (l : D (List α)) (xin : D (List (List α))) (xcol : Nat) (itype : Int)
    (rs : Option (List (List α))) (fuel : Nat) : Option (Res (Ret α)) :=
  let m := l.get.length
  let n := A.col
  let init : Res (Pc α × St α) := do
    cassert (decide (itype = 1))
    if A.col ≠ xcol then .throw "error, A.col != x.col"
    else if A.col ≠ B.col ∨ A.row ≠ B.row then .throw "error, A shape != B shape"
    else if m ≠ xin.get.length then .throw "error, l.size != x.row"
    else do
      let pc ← create
      let x ← initial N m rs xin
      let s ← gfirstVecs N A B Aon Bon n (start N gpu Aon m n x l xin)
      .ok (pc, s)
  match init with
  | .ok (pc, s) =>
    loop cfg m (fun iter singular s => pass N gpu Aon L Cu cfg true m iter singular (fun s => s.H)
      (fun k i s => gcolumn N A B Aon Bon pc m n k iter i s) s) fuel 0 false N.zero s
  | .throw e => some (.throw e)
  | .abort e => some (.abort e)
  | .ub e => some (.ub e)

end Verif.Lobpcg.Dev
