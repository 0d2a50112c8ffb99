import Verif.Model.Solver
import Verif.Model.Lapack

/-!
Model of the LOBPCG eigensolvers `standard_eigen::LOBPCG` and `generalized_eigen::LOBPCG` (host side).

Scalars, vectors, matrix and preconditioner as in `Verif/Model/Solver.lean`. The rows of the
`3m × n` matrices `wxp`, `WXP` (`BWXP`), on which the code works through `view1D`s, are kept as three
lists of `m` vectors. LAPACK is the parameter `Lib` of `Verif/Model/Lapack.lean`. The `for` loop can
repeat an iteration without bound (`iter--; continue`), so the model takes the number of passes it may
make; `none` means that it is not finished by then.

Simplifications: device memory off; the residual history stream and the logger are left out; the
resizing of `twxp`, `Sam`, `Sbm` between `2m` and `3m` rows is the argument `k`; products of dense
matrices are sums of products in some order (C18); the inner loops over different families of vectors,
which touch different rows, are run one after the other.
-/

namespace Verif.Lobpcg

open Solver Lapack

variable {α : Type}

/-- Three blocks of `m` rows: `w`, `x`, `p` (`W`, `X`, `P`; `BW`, `BX`, `BP`).
src/eigen/lobpcg_standard.cpp:36-77 -/
structure Fam (α : Type) where
  w : List (List α)
  x : List (List α)
  p : List (List α)
  deriving DecidableEq, Repr

/-- the rows of the `3m × n` matrix -/
def Fam.rows (f : Fam α) : List (List α) := f.w ++ f.x ++ f.p

/-- `blas::scal(a, x)`: src/blas/vector/scal.hpp -/
def scal (N : Num α) (a : α) (x : List α) : List α := x.map (fun u => N.mul a u)

/-- `blas::matvec(A, x[i], X[i])` with views of `n` elements:
src/blas/matrix/matvec/crs_matvec.hpp:10-13 (size checks) -/
def mvInto (A : Mat α) (n : Nat) (x : List α) : Res (List α) := do
  cassert (decide (A.row = n))
  A.mv x

/-- `vml::max(v)`: `internal::vmax`, src/internal/math/double_math.cpp:432-460, in sequential order (C25 is
about the other orders) -/
def maxV (N : Num α) : List α → Res α
  | [] => .ub "max_element of an empty vector"
  | a :: l => .ok (l.foldl (fun s b => if N.lt s b then b else s) a)

/-- `blas::matmul(R, twxp, S)` where `twxp` is the transpose of `f`: `S(a, b) = (R_a, f_b)`.
lobpcg_standard.cpp:148-158 -/
def gram (N : Num α) (R f : List (List α)) : List α :=
  R.flatMap (fun u => f.map (fun v => N.sum (List.zipWith N.mul u v)))

/-- `Sam.row(i, b)` for a `k × k` matrix: src/utils/getvec/dense_getvec.cpp -/
def rowOf (k : Nat) (S : List α) (i : Nat) : Res (List α) :=
  if i * k + k ≤ S.length then .ok ((S.drop (i * k)).take k) else .ub "row"

/-- The coefficients of vector `i`: row `i` of the eigenvector matrix, filled up with zeros when only
`2m` vectors were used. lobpcg_standard.cpp:206-219 -/
def coeffs (N : Num α) (m k : Nat) (S : List α) (i : Nat) : Res (List α) := do
  let b ← rowOf k S i
  .ok (b ++ List.replicate (3 * m - k) N.zero)

/-- The linear combinations for one family: new `p[i]` and `x[i]`, not yet normalised.
lobpcg_standard.cpp:220-239 -/
def combine (N : Num α) (m : Nat) (b : List α) (f : Fam α) (zero : List α) :
    Res (List α × List α) :=
  forN m (fun j s => do
    let bw ← rd b j
    let bx ← rd b (m + j)
    let bp ← rd b (2 * m + j)
    let wj ← rd f.w j
    let xj ← rd f.x j
    let pj ← rd f.p j
    let p ← N.axpy bw wj s.1
    let p ← N.axpy bp pj p
    let x ← N.axpy bw wj s.2
    let x ← N.axpy bp pj x
    let x ← N.axpy bx xj x
    .ok (p, x)) (zero, zero)

/-- Everything that survives an iteration: the vectors, their images under `A` (and `B`), the
eigenvalues `l` of the caller, the array `lambda` for LAPACK. -/
structure St (α : Type) where
  F : Fam α
  G : Fam α
  H : Fam α
  l : List α
  lam : List α
  deriving DecidableEq, Repr

/-- What a call leaves behind: return code, `l`, the rows of `xinout`, `get_final_iter()`,
`get_final_residual()`. -/
structure Out (α : Type) where
  status : Int
  l : List α
  x : List (List α)
  finalIter : Nat
  finalResid : α
  deriving DecidableEq, Repr

/-- replace vector `i` of the three blocks -/
def Fam.put (f : Fam α) (i : Nat) (w x p : List α) : Fam α :=
  ⟨f.w.set i w, f.x.set i x, f.p.set i p⟩

/-! ### The standard problem -/

/-- The body of the loop over `i < m`: either the return with `RESIDUAL_NAN`, or the new state and
`residual[i]`. `prev` holds the copies `wxp_p`, `WXP_p` made before the loop.
lobpcg_standard.cpp:201-276 -/
def column (N : Num α) (A : Mat α) (pc : List α → Res (List α)) (m n k : Nat) (S : List α)
    (iter : Nat) (prev : St α) (i : Nat) (s : St α) : Res (Sum (Out α) (St α × α)) := do
  let li ← rd s.lam i
  let l ← wr s.l i li
  let b ← coeffs N m k S i
  let zero := List.replicate n N.zero
  let px ← combine N m b prev.F zero
  let PX ← combine N m b prev.G zero
  let cp := N.div N.one (N.nrm2 px.1)
  let cx := N.div N.one (N.nrm2 px.2)
  let p := scal N cp px.1
  let P := scal N cp PX.1
  let x := scal N cx px.2
  let X := scal N cx PX.2
  let w ← N.axpyz (N.neg li) x X n
  let w ← pc w
  let r := N.nrm2 w
  if N.isNaN r then
    .ok (.inl { status := RESIDUAL_NAN, l := l, x := s.F.x.set i x, finalIter := iter + 1,
                finalResid := r })
  else do
    let w := scal N (N.div N.one r) w
    let W ← mvInto A n w
    .ok (.inr ({ s with F := s.F.put i w x p, G := s.G.put i W X P, l := l }, r))

/-- the loop over the indices still to be treated; `rs` collects `residual` -/
def columns (body : Nat → St α → Res (Sum (Out α) (St α × α))) :
    List Nat → List α → St α → Res (Sum (Out α) (St α × List α))
  | [], rs, s => .ok (.inr (s, rs))
  | i :: is, rs, s => do
    let r ← body i s
    match r with
    | .inl o => .ok (.inl o)
    | .inr (s', q) => columns body is (rs ++ [q]) s'

/-- what one pass through the main loop does: return, repeat the iteration with the flag
`is_singular` set, or go on -/
inductive Pass (α : Type) where
  | done (o : Out α)
  | restart (s : St α)
  | next (s : St α) (resid : α)
  deriving DecidableEq, Repr

/-- The body of the main loop, `sb` being the rows `blas::matmul` multiplies with `twxp` to get `Sb`
and `body` the loop over `i`. lobpcg_standard.cpp:136-309 -/
def passWith (N : Num α) (L : Lib α) (cfg : Cfg α) (m iter k : Nat) (lbound ubound : Int)
    (sb : St α → List (List α))
    (body : (k : Nat) → (S : List α) → (prev : St α) → Nat → St α → Res (Sum (Out α) (St α × α)))
    (s : St α) : Res (Pass α) := do
  let vecs := s.F.rows.take k
  let Sam := gram N (s.G.rows.take k) vecs
  let Sbm := gram N ((sb s).take k) vecs
  let r := L.sygvd 1 true false k Sam k Sbm k
  let s := { s with lam := overwrite s.lam r.2.2.1 }
  let info := r.2.2.2
  if lbound < info ∧ info ≤ ubound then .ok (.restart s)
  else if info ≠ 0 ∧ info < m then .throw "internal LAPACK sygvd returned error"
  else do
    let c ← columns (body k r.1 s) (List.range m) [] s
    match c with
    | .inl o => .ok (.done o)
    | .inr (s', rs) => do
      let resid ← maxV N rs
      if N.lt resid cfg.tol = true ∧ cfg.miniter < iter + 1 then
        .ok (.done { status := SUCCESS, l := s'.l, x := s'.F.x, finalIter := iter + 1,
                     finalResid := resid })
      else .ok (.next s' resid)

/-- The size of the projected problem and the range of `info` that means a singular matrix:
`2m` and `(3m, 4m]` in the first iteration or when the last attempt was singular, else `3m` and
`(5m, 6m]`. lobpcg_standard.cpp:123-182 -/
def pass (N : Num α) (L : Lib α) (cfg : Cfg α) (m iter : Nat) (singular : Bool)
    (sb : St α → List (List α))
    (body : (k : Nat) → (S : List α) → (prev : St α) → Nat → St α → Res (Sum (Out α) (St α × α)))
    (s : St α) : Res (Pass α) :=
  if iter = 0 ∨ singular = true then passWith N L cfg m iter (2 * m) (3 * m) (4 * m) sb body s
  else passWith N L cfg m iter (3 * m) (5 * m) (6 * m) sb body s

/-- The main loop, at most `fuel` passes. lobpcg_standard.cpp:119-318 -/
def loop (cfg : Cfg α) (body : (iter : Nat) → (singular : Bool) → St α → Res (Pass α)) :
    (fuel iter : Nat) → Bool → (resid : α) → St α → Option (Res (Out α))
  | 0, _, _, _, _ => none
  | fuel + 1, iter, singular, resid, s =>
    if iter < cfg.maxiter then
      match body iter singular s with
      | .ok (.done o) => some (.ok o)
      | .ok (.restart s') => loop cfg body fuel iter true resid s'
      | .ok (.next s' r') => loop cfg body fuel (iter + 1) false r' s'
      | .throw e => some (.throw e)
      | .abort e => some (.abort e)
      | .ub e => some (.ub e)
    else
      some (.ok { status := MAXITER, l := s.l, x := s.F.x, finalIter := cfg.maxiter,
                  finalResid := resid })

/-- the initial vectors: copies of the rows of `xinout`, or random vectors `rs` that are normalised.
lobpcg_standard.cpp:79-98 -/
def initial (N : Num α) (m : Nat) (rs : Option (List (List α))) (xin : List (List α)) :
    List (List α) :=
  match rs with
  | some rs => (rs.take m).map (fun r => scal N (N.div N.one (N.nrm2 r)) r)
  | none => xin.take m

/-- `X = A x`, `mu = (x, X)`, `w = X - mu x` normalised, `W = A w`. lobpcg_standard.cpp:104-115 -/
def initVec (N : Num α) (A : Mat α) (n : Nat) (x : List α) : Res (List α × List α × List α) := do
  let X ← mvInto A n x
  let mu ← N.dot x X
  let w ← N.axpyz (N.neg mu) x X n
  let w := scal N (N.div N.one (N.nrm2 w)) w
  let W ← mvInto A n w
  .ok (X, w, W)

/-- apply `f` to the elements of a list in order -/
def mapRes {β γ : Type} (f : β → Res γ) : List β → Res (List γ)
  | [] => .ok []
  | a :: l => do
    let b ← f a
    let r ← mapRes f l
    .ok (b :: r)

/-- `standard_eigen::LOBPCG::monolish_LOBPCG(A, l, xinout)`: lobpcg_standard.cpp:10-318. `l` has `m`
elements; `xin` are the rows of `xinout`, each of `xcol` elements; `rs` the random vectors, if the
initial vectors are random. -/
def standard (N : Num α) (L : Lib α) (cfg : Cfg α) (A : Mat α)
    (create : Res (List α → Res (List α))) (l : List α) (xin : List (List α)) (xcol : Nat)
    (rs : Option (List (List α))) (fuel : Nat) : Option (Res (Out α)) :=
  let m := l.length
  let n := A.col
  let init : Res ((List α → Res (List α)) × St α) := do
    if A.col ≠ xcol then .throw "error, A.col != x.col"
    else if l.length ≠ xin.length then .throw "error, l.size != x.row"
    else do
      let pc ← create
      let x := initial N m rs xin
      let t ← mapRes (initVec N A n) x
      let zeros := List.replicate m (List.replicate n N.zero)
      .ok (pc, { F := ⟨t.map (fun v => v.2.1), x, zeros⟩
                 G := ⟨t.map (fun v => v.2.2), t.map (fun v => v.1), zeros⟩
                 H := ⟨[], [], []⟩
                 l := l
                 lam := List.replicate (3 * m) N.zero })
  match init with
  | .ok (pc, s) =>
    loop cfg (fun iter singular s => pass N L cfg m iter singular (fun s => s.F.rows)
      (fun k S prev => column N A pc m n k S iter prev) s) fuel 0 false N.zero s
  | .throw e => some (.throw e)
  | .abort e => some (.abort e)
  | .ub e => some (.ub e)

/-! ### The generalised problem -/

/-- The body of the loop over `i < m` in the generalised solver. The vector `w[i]`, whose norm is the
residual, is `X[i] - l[i] x[i]` (line 293), not `X[i] - l[i] BX[i]`.
src/eigen/lobpcg_generalized.cpp:229-321 -/
def gcolumn (N : Num α) (A B : Mat α) (pc : List α → Res (List α)) (m n k : Nat) (S : List α)
    (iter : Nat) (prev : St α) (i : Nat) (s : St α) : Res (Sum (Out α) (St α × α)) := do
  let li ← rd s.lam i
  let l ← wr s.l i li
  let b ← coeffs N m k S i
  let zero := List.replicate n N.zero
  let px ← combine N m b prev.F zero
  let PX ← combine N m b prev.G zero
  let BPX ← combine N m b prev.H zero
  let cp := N.div N.one (N.nrm2 px.1)
  let cx := N.div N.one (N.nrm2 px.2)
  let p := scal N cp px.1
  let P := scal N cp PX.1
  let BP := scal N cp BPX.1
  let x := scal N cx px.2
  let X := scal N cx PX.2
  let BX := scal N cx BPX.2
  let w ← N.axpyz (N.neg li) x X n
  let w ← pc w
  let r := N.nrm2 w
  if N.isNaN r then
    .ok (.inl { status := RESIDUAL_NAN, l := l, x := s.F.x.set i x, finalIter := iter + 1,
                finalResid := r })
  else do
    let w := scal N (N.div N.one r) w
    let W ← mvInto A n w
    let BW ← mvInto B n w
    .ok (.inr ({ s with F := s.F.put i w x p, G := s.G.put i W X P, H := s.H.put i BW BX BP, l := l },
      r))

/-- `X = A x`, `BX = B x`, `mu = (x, X) / (x, BX)`, then `w = BX - mu x` (line 134; the comment says
`X - mu BX`), `W = A w`, `BW = B w`. lobpcg_generalized.cpp:124-141 -/
def ginitVec (N : Num α) (A B : Mat α) (n : Nat) (x : List α) :
    Res (List α × List α × List α × List α × List α) := do
  let X ← mvInto A n x
  let BX ← mvInto B n x
  let muA ← N.dot x X
  let muB ← N.dot x BX
  let mu := N.div muA muB
  let w ← N.axpyz (N.neg mu) x BX n
  let w := scal N (N.div N.one (N.nrm2 w)) w
  let W ← mvInto A n w
  let BW ← mvInto B n w
  .ok (X, BX, w, W, BW)

/-- `generalized_eigen::LOBPCG::monolish_LOBPCG(A, B, l, xinout, itype)`: lobpcg_generalized.cpp:9-361 -/
def generalized (N : Num α) (L : Lib α) (cfg : Cfg α) (A B : Mat α)
    (create : Res (List α → Res (List α))) (l : List α) (xin : List (List α)) (xcol : Nat)
    (itype : Int) (rs : Option (List (List α))) (fuel : Nat) : Option (Res (Out α)) :=
  let m := l.length
  let n := A.col
  let init : Res ((List α → Res (List α)) × St α) := do
    cassert (decide (itype = 1))
    if A.col ≠ xcol then .throw "error, A.col != x.col"
    else if A.col ≠ B.col ∨ A.row ≠ B.row then .throw "error, A shape != B shape"
    else if l.length ≠ xin.length then .throw "error, l.size != x.row"
    else do
      let pc ← create
      let x := initial N m rs xin
      let t ← mapRes (ginitVec N A B n) x
      let zeros := List.replicate m (List.replicate n N.zero)
      .ok (pc, { F := ⟨t.map (fun v => v.2.2.1), x, zeros⟩
                 G := ⟨t.map (fun v => v.2.2.2.1), t.map (fun v => v.1), zeros⟩
                 H := ⟨t.map (fun v => v.2.2.2.2), t.map (fun v => v.2.1), zeros⟩
                 l := l
                 lam := List.replicate (3 * m) N.zero })
  match init with
  | .ok (pc, s) =>
    loop cfg (fun iter singular s => pass N L cfg m iter singular (fun s => s.H.rows)
      (fun k S prev => gcolumn N A B pc m n k S iter prev) s) fuel 0 false N.zero s
  | .throw e => some (.throw e)
  | .abort e => some (.abort e)
  | .ub e => some (.ub e)

end Verif.Lobpcg
