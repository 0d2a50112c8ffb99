import Verif.Props.Lobpcg
import Verif.Props.SolverMat
import Verif.Spec.LapackSpec

/-!
C70 on a concrete matrix; C71: the generalised problem; C72: termination.
-/

namespace Verif.Lobpcg

open Spec Solver Lapack Matrix

set_option linter.unusedSectionVars false

variable {K : Type} [Field K] [LinearOrder K] [IsStrictOrderedRing K] {n : Nat}
  {M : Matrix (Fin n) (Fin n) K}

theorem strict_id : Strict (K := K) (n := n) (fun r => .ok r) (fun v => v) where
  app _ := rfl
  len u w hl h := by cases h; exact hl
  fin u v _ h := ⟨v, Res.ok.inj h⟩

/-- **C70** without preconditioner and with exact square roots: unit vectors with
`‖A v - λ v‖ < tol`. -/
theorem C70_lobpcg_no_precond {sq : K → K} (hsq : ∀ a, 0 ≤ a → sq a * sq a = a) (hn : 0 < n)
    {L : Lib (Ext K)} {cfg : Cfg (Ext K)} {tol : K} (htol : cfg.tol = .fin tol)
    {A : Mat (Ext K)} (hA : IsMat A Ext.fin M)
    {l : List (Ext K)} {xin : List (List (Ext K))} {xcol : Nat} {rs : Option (List (List (Ext K)))}
    (hrs : ∀ r, rs = some r → l.length ≤ r.length) {fuel : Nat} {out : Out (Ext K)}
    (h : standard (Ext.num sq) L cfg A noPrecond l xin xcol rs fuel = some (.ok out))
    (hs : out.status = SUCCESS) :
    ∃ (lam : Fin l.length → K) (v : Fin l.length → Fin n → K),
      out.l = List.ofFn (fun i => Ext.fin (lam i)) ∧ out.x = List.ofFn (fun i => vec Ext.fin (v i)) ∧
      ∀ i, sq ((M *ᵥ v i - lam i • v i) ⬝ᵥ (M *ᵥ v i - lam i • v i)) < tol ∧ v i ⬝ᵥ v i = 1 := by
  obtain ⟨lam, v, h1, h2, h3⟩ := C70_lobpcg_standard_success hn htol hA strict_id hrs h hs
  exact ⟨lam, v, h1, h2, fun i => ⟨(h3 i).1, Normalised.unit hsq (h3 i).2⟩⟩

/-! ### A concrete run -/

def q (a : ℚ) : Ext ℚ := .fin a

/-- a library that answers `r` when `sygvd` is asked about the matrices `a`, `b`, and an error else -/
def answer (a b : List ℚ) (r : List (Ext ℚ) × List (Ext ℚ) × List (Ext ℚ) × Int) :
    Lib (Ext ℚ) where
  getrf _ _ a _ := (a, [], 0)
  getrs _ _ _ _ _ _ b _ := (b, 0)
  sytrf _ _ a _ _ := (a, [], 0)
  sytrs _ _ _ _ _ _ b _ := (b, 0)
  syevd _ _ _ a _ := (a, [], 0)
  sygvd itype vectors upper _ a' _ b' _ :=
    if itype = 1 ∧ vectors = true ∧ upper = false ∧ a' = a.map q ∧ b' = b.map q then r
    else ([], [], [], -1)

/-- `diag(1, 2)` -/
def lobA : Crs ℚ := ⟨2, 2, [0, 1, 2], [0, 1], [1, 2], 2, 2, true⟩

theorem lobA_safe : lobA.Safe :=
  { created := rfl, lenV := rfl, nnz_le := by decide, lenP := rfl, ptr_le := by decide,
    lenC := by decide, col_lt := by decide }

/-- square roots of the numbers that occur below -/
def lobSq (a : ℚ) : ℚ :=
  if a = 144 / 625 then 12 / 25 else if a = 16 / 25 then 4 / 5 else if a = 81 / 625 then 9 / 25 else
  if a = 36 then 6 else a

def lobCfg : Cfg (Ext ℚ) := { tol := .fin (1 / 100000000), maxiter := 10, omega := .fin 1, prevResid := .fin 0 }

/-- From `(3/5, 4/5)` the first iteration finds the eigenpair `1, (1, 0)`. The projected problem is the
matrix `diag(1, 2)` in the basis `w = (-4/5, 3/5)`, `x`, that is `[[34/25, 12/25], [12/25, 41/25]]`; its
eigenvectors are what LAPACK returns. -/
theorem lob_run :
    standard (Ext.num lobSq) (answer [34/25, 12/25, 12/25, 41/25] [1, 0, 0, 1]
        ([q (-4/5), q (3/5), q (3/5), q (4/5)], [], [q 1, q 2], 0)) lobCfg
      (ofCrs [1, 0] [0, 1] (crsMap Ext.fin lobA)) noPrecond [q 0] [[q (3/5), q (4/5)]] 2 none 5 =
    some (.ok { status := SUCCESS, l := [q 1], x := [[q 1, q 0]], finalIter := 1, finalResid := q 0 }) := by
  decide +kernel

/-- the hypotheses of C70 are met by this run -/
example : Pairs lobSq (fun lam v =>
      (Matrix.of (fun i j : Fin 2 => crsAt lobA i j)) *ᵥ v - lam • v) (1 / 100000000)
    [q 1] [[q 1, q 0]] 1 :=
  C70_lobpcg_standard_success (n := 2) (by decide) rfl
    (isMat_crsExt lobA lobA_safe (by decide) rfl rfl [1, 0] [0, 1]
      (by unfold Order; decide) (by unfold Order; decide)) strict_id
    (by intro r h; cases h) lob_run rfl

/-! ### C71: the generalised problem -/

theorem gcolumn_ok (sq : K → K) (hn : 0 < n)
    {A B : Mat (Ext K)} (hA : ∀ v, A.mv (vec Ext.fin v) = .ok (vec Ext.fin (M *ᵥ v)))
    {pc : List (Ext K) → Res (List (Ext K))}
    {P : (Fin n → K) → Fin n → K} (hpc : Strict pc P) {m k iter i : Nat} {S : List (Ext K)}
    {prev s : St (Ext K)} (hp : FamRel M prev.F prev.G) (hs : FamRel M s.F s.G)
    {s' : St (Ext K)} {r : Ext K}
    (h : gcolumn (Ext.num sq) A B pc m n k S iter prev i s = .ok (.inr (s', r))) :
    ColOk sq M P (fun s => FamRel M s.F s.G) i s s' r := by
  unfold gcolumn at h
  obtain ⟨li, hli, h⟩ := Res.bind_eq_ok.mp h
  obtain ⟨l', hl', h⟩ := Res.bind_eq_ok.mp h
  obtain ⟨b, hb, h⟩ := Res.bind_eq_ok.mp h
  obtain ⟨px, hpx, h⟩ := Res.bind_eq_ok.mp h
  obtain ⟨PX, hPX, h⟩ := Res.bind_eq_ok.mp h
  obtain ⟨BPX, hBPX, h⟩ := Res.bind_eq_ok.mp h
  obtain ⟨w, hw, h⟩ := Res.bind_eq_ok.mp h
  obtain ⟨w', hw', h⟩ := Res.bind_eq_ok.mp h
  obtain ⟨r1, r2⟩ := combine_rel sq hn hp hpx hPX
  by_cases hnan : (Ext.num sq).isNaN ((Ext.num sq).nrm2 w') = true
  · rw [if_pos hnan] at h; cases h
  · rw [if_neg hnan] at h
    obtain ⟨W, hW, h⟩ := Res.bind_eq_ok.mp h
    obtain ⟨BW, hBW, h⟩ := Res.bind_eq_ok.mp h
    cases h
    refine ⟨hs.put (rel_mvInto hA hW) (r2.scal sq hn) (r1.scal sq hn), Bool.eq_false_iff.mpr hnan,
      _, li, rfl, wr_eq_ok hl', ?_⟩
    exact good_of sq hn hpc (r2.scal sq hn) hw hw'

theorem gcolumn_inl {N : Num (Ext K)} {A B : Mat (Ext K)} {pc : List (Ext K) → Res (List (Ext K))}
    {m k iter i : Nat} {S : List (Ext K)} {prev s : St (Ext K)} {o : Out (Ext K)}
    (h : gcolumn N A B pc m n k S iter prev i s = .ok (.inl o)) : o.status = RESIDUAL_NAN := by
  unfold gcolumn at h
  obtain ⟨_, _, h⟩ := Res.bind_eq_ok.mp h
  obtain ⟨_, _, h⟩ := Res.bind_eq_ok.mp h
  obtain ⟨_, _, h⟩ := Res.bind_eq_ok.mp h
  obtain ⟨_, _, h⟩ := Res.bind_eq_ok.mp h
  obtain ⟨_, _, h⟩ := Res.bind_eq_ok.mp h
  obtain ⟨_, _, h⟩ := Res.bind_eq_ok.mp h
  obtain ⟨_, _, h⟩ := Res.bind_eq_ok.mp h
  obtain ⟨_, _, h⟩ := Res.bind_eq_ok.mp h
  dsimp only at h
  split at h
  · cases h; rfl
  · obtain ⟨_, _, h⟩ := Res.bind_eq_ok.mp h
    obtain ⟨_, _, h⟩ := Res.bind_eq_ok.mp h
    cases h

/-- **C71**, what the code does guarantee: a return code of success of `LOBPCG::solve` for the
generalised problem certifies that `P (A v - λ v)` is small, with no `B` in it. (Missing: the property is
about `A v - λ B v`.) -/
theorem C71_lobpcg_generalized_partial {sq : K → K} (hn : 0 < n)
    {L : Lib (Ext K)} {cfg : Cfg (Ext K)} {tol : K} (htol : cfg.tol = .fin tol)
    {A B : Mat (Ext K)} (hA : IsMat A Ext.fin M)
    {pc : List (Ext K) → Res (List (Ext K))} {P : (Fin n → K) → Fin n → K} (hpc : Strict pc P)
    {l : List (Ext K)} {xin : List (List (Ext K))} {xcol : Nat} {itype : Int}
    {rs : Option (List (List (Ext K)))}
    (hrs : ∀ r, rs = some r → l.length ≤ r.length) {fuel : Nat} {out : Out (Ext K)}
    (h : generalized (Ext.num sq) L cfg A B (.ok pc) l xin xcol itype rs fuel = some (.ok out))
    (hs : out.status = SUCCESS) :
    Pairs sq (fun lam v => P (M *ᵥ v - lam • v)) tol out.l out.x l.length := by
  unfold generalized at h
  dsimp only at h
  rw [hA.col] at h
  split at h
  rotate_left
  · cases h
  · cases h
  · cases h
  rename_i pc' s hinit
  obtain ⟨_, _, hinit⟩ := Res.bind_eq_ok.mp hinit
  split at hinit
  · cases hinit
  split at hinit
  · cases hinit
  split at hinit
  · cases hinit
  rename_i hcol _ hlen
  obtain ⟨pc'', hpc'', hinit⟩ := Res.bind_eq_ok.mp hinit
  cases hpc''
  obtain ⟨t, ht, hinit⟩ := Res.bind_eq_ok.mp hinit
  cases hinit
  obtain ⟨ht1, ht2⟩ := mapRes_spec ht
  have hxl : (initial (Ext.num sq) l.length rs xin).length = l.length := by
    unfold initial
    cases rs with
    | none => simp; omega
    | some r => have := hrs r rfl; simp; omega
  have hcomp : ∀ (j : Nat) v, t[j]? = some v → Rel M v.2.2.1 v.2.2.2.1 ∧
      ∀ x, (initial (Ext.num sq) l.length rs xin)[j]? = some x → Rel M x v.1 := by
    intro j v hv
    obtain ⟨x, hx, hiv⟩ := ht2 j v hv
    unfold ginitVec at hiv
    obtain ⟨X, hX, hiv⟩ := Res.bind_eq_ok.mp hiv
    obtain ⟨BX, hBX, hiv⟩ := Res.bind_eq_ok.mp hiv
    obtain ⟨mu, hmu, hiv⟩ := Res.bind_eq_ok.mp hiv
    obtain ⟨mu', hmu', hiv⟩ := Res.bind_eq_ok.mp hiv
    obtain ⟨w, hw, hiv⟩ := Res.bind_eq_ok.mp hiv
    obtain ⟨W, hW, hiv⟩ := Res.bind_eq_ok.mp hiv
    obtain ⟨BW, hBW, hiv⟩ := Res.bind_eq_ok.mp hiv
    cases hiv
    refine ⟨rel_mvInto hA.mv hW, ?_⟩
    intro y hy
    rw [hx] at hy
    cases hy
    exact rel_mvInto hA.mv hX
  refine loop_ok (Inv := Good' (fun s => FamRel M s.F s.G) l.length) (cfg := cfg)
    (Q := fun o => o.status = SUCCESS →
      Pairs sq (fun lam v => P (M *ᵥ v - lam • v)) tol o.l o.x l.length)
    (body := fun iter singular s => pass (Ext.num sq) L cfg l.length iter singular (fun s => s.H.rows)
      (fun k S prev => gcolumn (Ext.num sq) A B pc l.length n k S iter prev) s)
    (by
      intro iter singular z p hz hb
      exact pass_split hb (fun k lb ub hb => passWith_ok (M := M) sq (P := P)
        (Inv := fun s => FamRel M s.F s.G) (fun _ _ hh => hh) htol
        (fun k S prev i z z' r hp hz hc => gcolumn_ok sq hn hA.mv hpc hp hz hc)
        (fun k S prev i z o hc => gcolumn_inl hc) hz hb))
    (by intro o h1 h2; rw [h1] at h2; exact absurd h2 (by decide))
    fuel 0 false _ _ out ⟨⟨?_, ?_, zeros_rel _⟩, hxl, rfl⟩ h hs
  · intro j u U hu hU
    simp only [List.getElem?_map, Option.map_eq_some_iff] at hu hU
    obtain ⟨v, hv, rfl⟩ := hu
    obtain ⟨v', hv', rfl⟩ := hU
    rw [hv] at hv'
    cases hv'
    exact (hcomp j v hv).1
  · intro j u U hu hU
    simp only [List.getElem?_map, Option.map_eq_some_iff] at hu hU
    obtain ⟨v', hv', rfl⟩ := hU
    exact (hcomp j v' hv').2 u hu

/-- for `B = I` that is the residual of the generalised problem -/
theorem C71_lobpcg_identity_partial {sq : K → K} (hn : 0 < n)
    {L : Lib (Ext K)} {cfg : Cfg (Ext K)} {tol : K} (htol : cfg.tol = .fin tol)
    {A B : Mat (Ext K)} (hA : IsMat A Ext.fin M) {MB : Matrix (Fin n) (Fin n) K} (hB : MB = 1)
    {pc : List (Ext K) → Res (List (Ext K))} {P : (Fin n → K) → Fin n → K} (hpc : Strict pc P)
    {l : List (Ext K)} {xin : List (List (Ext K))} {xcol : Nat} {itype : Int}
    {rs : Option (List (List (Ext K)))}
    (hrs : ∀ r, rs = some r → l.length ≤ r.length) {fuel : Nat} {out : Out (Ext K)}
    (h : generalized (Ext.num sq) L cfg A B (.ok pc) l xin xcol itype rs fuel = some (.ok out))
    (hs : out.status = SUCCESS) :
    Pairs sq (fun lam v => P (M *ᵥ v - lam • (MB *ᵥ v))) tol out.l out.x l.length := by
  subst hB
  simp only [Matrix.one_mulVec]
  exact C71_lobpcg_generalized_partial hn htol hA hpc hrs h hs

/-- `A = (169/625) I` -/
def genA : Crs ℚ := ⟨3, 3, [0, 1, 2, 3], [0, 1, 2], [169/625, 169/625, 169/625], 3, 3, true⟩

/-- `B`, symmetric and positive definite -/
def genB : Crs ℚ :=
  ⟨3, 3, [0, 2, 5, 7], [0, 1, 0, 1, 2, 1, 2], [13/25, 9/25, 9/25, 73/100, 1/10, 1/10, 1], 7, 7, true⟩

theorem genA_safe : genA.Safe :=
  { created := rfl, lenV := rfl, nnz_le := by decide, lenP := rfl, ptr_le := by decide,
    lenC := by decide, col_lt := by decide }

/-- the answer of LAPACK to the projected problem -/
def genAns : List (Ext ℚ) × List (Ext ℚ) × List (Ext ℚ) × Int :=
  ([q (4/5), q (3/5), q (6/5), q (-8/5)], [], [q (169/625), q (676/625)], 0)

def genRun : Option (Res (Out (Ext ℚ))) :=
  generalized (Ext.num lobSq) (answer [169/625, 0, 0, 169/625] [73/100, 9/25, 9/25, 13/25] genAns) lobCfg
    (ofCrs [0, 1, 2] [0, 1, 2] (crsMap Ext.fin genA)) (ofCrs [0, 1, 2] [0, 1, 2] (crsMap Ext.fin genB))
    noPrecond [q 0] [[q 1, q 0, q 0]] 3 1 none 5

theorem gen_run : genRun =
    some (.ok { status := SUCCESS, l := [q (169/625)], x := [[q (3/5), q (4/5), q 0]], finalIter := 1,
                finalResid := q 0 }) := by
  decide +kernel

/-- LAPACK is asked in this run about `diag(169/625, 169/625)` and `[[73/100, 9/25], [9/25, 13/25]]`, and
`genAns` solves that: `S_a y = λ S_b y` and `y S_b y = 1` for both vectors -/
theorem gen_answer_correct : ∀ y ∈ [((4/5 : ℚ), (3/5 : ℚ), (169/625 : ℚ)), (6/5, -8/5, 676/625)],
    (169/625) * y.1 = y.2.2 * ((73/100) * y.1 + (9/25) * y.2.1) ∧
    (169/625) * y.2.1 = y.2.2 * ((9/25) * y.1 + (13/25) * y.2.1) ∧
    y.1 * ((73/100) * y.1 + (9/25) * y.2.1) + y.2.1 * ((9/25) * y.1 + (13/25) * y.2.1) = 1 := by
  decide +kernel

/-- **C71, violated**: `A = (169/625) I`, `B` symmetric positive definite, start vector `e₁`. LAPACK solves
the projected problem exactly, the solver reports success with residual 0 in the first iteration, but
the pair is no solution of `A v = λ B v`: the last component of `A v - λ B v` is not 0. -/
theorem C71_lobpcg_generalized_violated :
    ∃ (l : Fin 1 → ℚ) (v : Fin 1 → Fin 3 → ℚ),
      genRun = some (.ok { status := SUCCESS, l := List.ofFn (fun i => Ext.fin (l i)),
                           x := List.ofFn (fun i => vec Ext.fin (v i)), finalIter := 1,
                           finalResid := .fin 0 }) ∧
      ((Matrix.of (fun i j : Fin 3 => crsAt genA i j)) *ᵥ v 0 -
        l 0 • ((Matrix.of (fun i j : Fin 3 => crsAt genB i j)) *ᵥ v 0)) 2 = -(169/625) * (2/25) := by
  refine ⟨fun _ => 169/625, fun _ => ![3/5, 4/5, 0], ?_, ?_⟩
  · rw [gen_run]; decide +kernel
  · decide +kernel

/-- the hypotheses of the partial theorem are met by this run -/
example : Pairs lobSq (fun lam v =>
      (Matrix.of (fun i j : Fin 3 => crsAt genA i j)) *ᵥ v - lam • v) (1 / 100000000)
    [q (169/625)] [[q (3/5), q (4/5), q 0]] 1 :=
  C71_lobpcg_generalized_partial (n := 3) (by decide) rfl
    (isMat_crsExt genA genA_safe (by decide) rfl rfl [0, 1, 2] [0, 1, 2]
      (by unfold Order; decide) (by unfold Order; decide)) strict_id
    (by intro r h; cases h) gen_run rfl

/-! ### C72: termination -/

/-- as long as LAPACK reports a singular matrix in every attempt, the loop does not end -/
theorem loop_forever {α : Type} {cfg : Cfg α} {body : Nat → Bool → St α → Res (Pass α)}
    {I : St α → Prop} {iter : Nat} (hi : iter < cfg.maxiter)
    (h : ∀ sing s, I s → ∃ s', I s' ∧ body iter sing s = .ok (.restart s')) :
    ∀ (fuel : Nat) (sing : Bool) (r : α) (s : St α), I s → loop cfg body fuel iter sing r s = none
  | 0, _, _, _, _ => rfl
  | fuel + 1, sing, r, s, hs => by
    obtain ⟨s', hI, he⟩ := h sing s hs
    rw [loop, if_pos hi, he]
    exact loop_forever hi h fuel true r s' hI

/-- the Gram matrices of `w₁, w₂, x₁, x₂` in the example -/
def endA : List ℚ := [34/25, -12/25, 12/25, -34/25, -12/25, 41/25, -41/25, 12/25,
  12/25, -41/25, 41/25, -12/25, -34/25, 12/25, -12/25, 34/25]
def endB : List ℚ := [1, 0, 0, -1, 0, 1, -1, 0, 0, -1, 1, 0, -1, 0, 0, 1]

/-- the leading minors of orders 1 and 2 of `endB` are positive, that of order 3 is 0: `dsygvd` has to
return `N + 3 = 7` -/
theorem end_minors : (1 : ℚ) > 0 ∧ Matrix.det !![(1 : ℚ), 0; 0, 1] > 0 ∧
    Matrix.det !![(1 : ℚ), 0, 0; 0, 1, -1; 0, -1, 1] = 0 := by
  refine ⟨by norm_num, ?_, ?_⟩
  · rw [Matrix.det_fin_two_of]; norm_num
  · rw [Matrix.det_fin_three]; simp

/-- **C72, violated**: `A = diag(1, 2)`, both eigenpairs wanted (`m = n = 2`), orthonormal start vectors.
The four vectors `w₁, w₂, x₁, x₂` of the plane are linearly dependent, LAPACK reports it (`INFO = 4 + 3`),
and the solver repeats the iteration with the same data: it is not finished after any number of passes,
whatever `maxiter` is. -/
theorem C72_lobpcg_termination_violated (L : Lib (Ext ℚ)) (cfg : Cfg (Ext ℚ)) (hmax : 0 < cfg.maxiter)
    (hL : (L.sygvd 1 true false 4 (endA.map q) 4 (endB.map q) 4).2.2.2 = 7) (fuel : Nat) :
    standard (Ext.num lobSq) L cfg (ofCrs [1, 0] [0, 1] (crsMap Ext.fin lobA)) noPrecond [q 0, q 0]
      [[q (3/5), q (4/5)], [q (4/5), q (-3/5)]] 2 none fuel = none := by
  have hinit : mapRes (initVec (Ext.num lobSq) (ofCrs [1, 0] [0, 1] (crsMap Ext.fin lobA)) 2)
      (initial (Ext.num lobSq) 2 none [[q (3/5), q (4/5)], [q (4/5), q (-3/5)]]) =
      .ok [([q (3/5), q (8/5)], [q (-4/5), q (3/5)], [q (-4/5), q (6/5)]),
           ([q (4/5), q (-6/5)], [q (-3/5), q (-4/5)], [q (-3/5), q (-8/5)])] := by
    decide +kernel
  unfold standard
  have hcol : (ofCrs [1, 0] [0, 1] (crsMap Ext.fin lobA)).col = 2 := rfl
  simp only [hcol, List.length_cons, List.length_nil, Nat.zero_add, Nat.reduceAdd, ne_eq,
    not_true_eq_false, if_false, noPrecond, Res.ok_bind, hinit]
  refine loop_forever (I := fun s =>
      s.F = ⟨[[q (-4/5), q (3/5)], [q (-3/5), q (-4/5)]],
        [[q (3/5), q (4/5)], [q (4/5), q (-3/5)]], [[q 0, q 0], [q 0, q 0]]⟩ ∧
      s.G = ⟨[[q (-4/5), q (6/5)], [q (-3/5), q (-8/5)]],
        [[q (3/5), q (8/5)], [q (4/5), q (-6/5)]], [[q 0, q 0], [q 0, q 0]]⟩) hmax ?_ fuel false _ _ ?_
  · intro sing s ⟨hF, hG⟩
    have hA : gram (Ext.num lobSq) (s.G.rows.take (2 * 2)) (s.F.rows.take (2 * 2)) = endA.map q := by
      rw [hF, hG]; decide +kernel
    have hB : gram (Ext.num lobSq) (s.F.rows.take (2 * 2)) (s.F.rows.take (2 * 2)) = endB.map q := by
      rw [hF]; decide +kernel
    refine ⟨{ s with
      lam := overwrite s.lam (L.sygvd 1 true false 4 (endA.map q) 4 (endB.map q) 4).2.2.1 },
      ⟨hF, hG⟩, ?_⟩
    unfold pass
    rw [if_pos (Or.inl rfl)]
    unfold passWith
    simp only [hA, hB]
    have : (L.sygvd 1 true false (2 * 2) (endA.map q) (2 * 2) (endB.map q) (2 * 2)).2.2.2 = 7 := hL
    rw [if_pos (by rw [this]; decide)]
  · exact ⟨by decide +kernel, by decide +kernel⟩

/-- `sygvd` never reports a singular matrix of the kind that makes the solver repeat an iteration -/
def NoRestart {α : Type} (L : Lib α) (m : Nat) : Prop :=
  ∀ a b, ¬ ((3 * m : Int) < (L.sygvd 1 true false (2 * m) a (2 * m) b (2 * m)).2.2.2 ∧
      (L.sygvd 1 true false (2 * m) a (2 * m) b (2 * m)).2.2.2 ≤ 4 * m) ∧
    ¬ ((5 * m : Int) < (L.sygvd 1 true false (3 * m) a (3 * m) b (3 * m)).2.2.2 ∧
      (L.sygvd 1 true false (3 * m) a (3 * m) b (3 * m)).2.2.2 ≤ 6 * m)

theorem passWith_no_restart {α : Type} {N : Num α} {L : Lib α} {cfg : Cfg α} {m iter k : Nat}
    {lb ub : Int} {sb : St α → List (List α)}
    {body : (k : Nat) → (S : List α) → (prev : St α) → Nat → St α → Res (Sum (Out α) (St α × α))}
    {s s' : St α} (hL : ∀ a b, ¬ (lb < (L.sygvd 1 true false k a k b k).2.2.2 ∧
      (L.sygvd 1 true false k a k b k).2.2.2 ≤ ub)) :
    passWith N L cfg m iter k lb ub sb body s ≠ .ok (.restart s') := by
  intro h
  unfold passWith at h
  dsimp only at h
  rw [if_neg (hL _ _)] at h
  split at h
  · cases h
  · obtain ⟨c, hc, h⟩ := Res.bind_eq_ok.mp h
    cases c with
    | inl o => cases h
    | inr z =>
      obtain ⟨r, hr, h⟩ := Res.bind_eq_ok.mp h
      split at h <;> cases h

theorem loop_ends {α : Type} {cfg : Cfg α} {body : Nat → Bool → St α → Res (Pass α)}
    (h : ∀ iter sing s s', body iter sing s ≠ .ok (.restart s')) :
    ∀ (fuel iter : Nat) (sing : Bool) (r : α) (s : St α), iter ≤ cfg.maxiter → cfg.maxiter < fuel + iter →
      loop cfg body fuel iter sing r s ≠ none
  | 0, iter, _, _, _, hi, hf => by omega
  | fuel + 1, iter, sing, r, s, hi, hf => by
    rw [loop]
    split
    · cases hb : body iter sing s with
      | ok p =>
        cases p with
        | done o => simp
        | restart s' => exact absurd hb (h _ _ _ _)
        | next s' r' => exact loop_ends h fuel (iter + 1) false r' s' (by omega) (by omega)
      | throw e => simp
      | abort e => simp
      | ub e => simp
    · simp

/-- **C72**, the part that holds: if LAPACK never reports a singular matrix, both solvers end within
`maxiter` iterations, for all matrices, start vectors and preconditioners. -/
theorem C72_lobpcg_terminates_partial {α : Type} (N : Num α) (L : Lib α) (cfg : Cfg α) (A B : Mat α)
    (create : Res (List α → Res (List α))) (l : List α) (xin : List (List α)) (xcol : Nat) (itype : Int)
    (rs : Option (List (List α))) (hL : NoRestart L l.length) :
    standard N L cfg A create l xin xcol rs (cfg.maxiter + 1) ≠ none ∧
    generalized N L cfg A B create l xin xcol itype rs (cfg.maxiter + 1) ≠ none := by
  have hpass : ∀ iter sing sb body (s s' : St α),
      pass N L cfg l.length iter sing sb body s ≠ .ok (.restart s') := by
    intro iter sing sb body s s'
    unfold pass
    split
    · exact passWith_no_restart (fun a b => (hL a b).1)
    · exact passWith_no_restart (fun a b => (hL a b).2)
  constructor
  · unfold standard
    dsimp only
    split
    · exact loop_ends (fun iter sing s s' => hpass iter sing _ _ s s') _ _ _ _ _ (by omega) (by omega)
    · simp
    · simp
    · simp
  · unfold generalized
    dsimp only
    split
    · exact loop_ends (fun iter sing s s' => hpass iter sing _ _ s s') _ _ _ _ _ (by omega) (by omega)
    · simp
    · simp
    · simp

/-- a library that never reports a singular matrix -/
example : NoRestart (answer [] [] ([], [], [], 0)) 1 := by
  intro a b
  simp only [answer]
  constructor <;> split <;> decide

/-- libraries with the answer of C72_lobpcg_termination_violated exist -/
example : ((answer endA endB ([], [], [], 7)).sygvd 1 true false 4 (endA.map q) 4 (endB.map q) 4).2.2.2
    = 7 := by
  decide +kernel

end Verif.Lobpcg
