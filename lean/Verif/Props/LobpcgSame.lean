import Verif.Model.Lobpcg
import Verif.Props.SolverOp
import Verif.Props.LobpcgCases

/-!
C105 for the LOBPCG eigensolvers: they cannot tell apart two representations of one matrix.
-/

namespace Verif.Lobpcg

open Solver Lapack Spec

variable {α : Type} {N : Num α} {n : Nat} {A A' B B' : Mat α}

theorem mvInto_same (hA : SameMat n A A') {x : List α} (hx : x.length = n) : mvInto A n x = mvInto A' n x := by
  unfold mvInto
  rw [hA.row, hA.row', hA.mv x hx]

theorem scal_len (a : α) (x : List α) : (scal N a x).length = x.length := by simp [scal]

theorem column_same (hA : SameMat n A A') {pc : List α → Res (List α)} (hpc : KeepsLength pc) (m k : Nat) (S : List α)
    (iter : Nat) (prev : St α) (i : Nat) (s : St α) :
    column N A pc m n k S iter prev i s = column N A' pc m n k S iter prev i s := by
  unfold column
  refine bind_congr' rfl fun li _ => bind_congr' rfl fun l _ => bind_congr' rfl fun b _ => bind_congr' rfl fun px _ =>
    bind_congr' rfl fun PX _ => bind_congr' rfl fun w hw => bind_congr' rfl fun w' hw' => ?_
  dsimp only
  split
  · rfl
  · rw [mvInto_same hA (by rw [scal_len, hpc _ _ hw', axpyz_len hw])]

theorem gcolumn_same (hA : SameMat n A A') (hB : SameMat n B B') {pc : List α → Res (List α)} (hpc : KeepsLength pc) (m k : Nat)
    (S : List α) (iter : Nat) (prev : St α) (i : Nat) (s : St α) :
    gcolumn N A B pc m n k S iter prev i s = gcolumn N A' B' pc m n k S iter prev i s := by
  unfold gcolumn
  refine bind_congr' rfl fun li _ => bind_congr' rfl fun l _ => bind_congr' rfl fun b _ => bind_congr' rfl fun px _ =>
    bind_congr' rfl fun PX _ => bind_congr' rfl fun BPX _ => bind_congr' rfl fun w hw => bind_congr' rfl fun w' hw' => ?_
  dsimp only
  split
  · rfl
  · have hl : (scal N (N.div N.one (N.nrm2 w')) w').length = n := by rw [scal_len, hpc _ _ hw', axpyz_len hw]
    rw [mvInto_same hA hl, mvInto_same hB hl]

theorem initVec_same (hA : SameMat n A A') {x : List α} (hx : x.length = n) : initVec N A n x = initVec N A' n x := by
  unfold initVec
  rw [mvInto_same hA hx]
  refine bind_congr' rfl fun X _ => bind_congr' rfl fun mu _ => bind_congr' rfl fun w hw => ?_
  dsimp only
  rw [mvInto_same hA (by rw [scal_len, axpyz_len hw])]

theorem ginitVec_same (hA : SameMat n A A') (hB : SameMat n B B') {x : List α} (hx : x.length = n) :
    ginitVec N A B n x = ginitVec N A' B' n x := by
  unfold ginitVec
  rw [mvInto_same hA hx, mvInto_same hB hx]
  refine bind_congr' rfl fun X _ => bind_congr' rfl fun BX _ => bind_congr' rfl fun a _ => bind_congr' rfl fun b _ =>
    bind_congr' rfl fun w hw => ?_
  dsimp only
  have hl : (scal N (N.div N.one (N.nrm2 w)) w).length = n := by rw [scal_len, axpyz_len hw]
  rw [mvInto_same hA hl, mvInto_same hB hl]

theorem mapRes_same {β γ : Type} {f g : β → Res γ} : ∀ {l : List β}, (∀ x ∈ l, f x = g x) → mapRes f l = mapRes g l
  | [], _ => rfl
  | a :: l, h => by
    unfold mapRes
    rw [h a List.mem_cons_self, mapRes_same fun x hx => h x (List.mem_cons_of_mem _ hx)]

/-- the initial vectors have `n` elements if those given or drawn have -/
theorem initial_len {m : Nat} {rs : Option (List (List α))} {xin : List (List α)} (hx : ∀ v ∈ xin, v.length = n)
    (hr : ∀ l, rs = some l → ∀ v ∈ l, v.length = n) : ∀ v ∈ initial N m rs xin, v.length = n := by
  intro v hv
  unfold initial at hv
  cases rs with
  | none => exact hx v (List.mem_of_mem_take hv)
  | some l =>
    obtain ⟨u, hu, rfl⟩ := List.mem_map.mp hv
    rw [scal_len]
    exact hr l rfl u (List.mem_of_mem_take hu)

/-- **C105**: LOBPCG gives the same outcome (return code, eigenvalues, vectors, iterations, residual, error) for two matrix
arguments with the same products, in every arithmetic, for every LAPACK. -/
theorem C105_lobpcg_same (L : Lib α) (cfg : Cfg α) (hA : SameMat n A A') {create : Res (List α → Res (List α))}
    (hc : ∀ pc, create = .ok pc → KeepsLength pc) (l : List α) {xin : List (List α)} (hx : ∀ v ∈ xin, v.length = n)
    (xcol : Nat) {rs : Option (List (List α))} (hr : ∀ l, rs = some l → ∀ v ∈ l, v.length = n) (fuel : Nat) :
    standard N L cfg A create l xin xcol rs fuel = standard N L cfg A' create l xin xcol rs fuel := by
  unfold standard
  dsimp only
  rw [hA.col, hA.col']
  have h1 := mapRes_same (f := initVec N A n) (g := initVec N A' n) (l := initial N l.length rs xin)
    (fun v hv => initVec_same hA (initial_len hx hr v hv))
  rw [h1]
  split
  · next pc s heq =>
    have hpc : KeepsLength pc := by
      split at heq
      · exact nomatch heq
      split at heq
      · exact nomatch heq
      obtain ⟨p, hp, heq⟩ := Res.bind_eq_ok.mp heq
      obtain ⟨t, _, heq⟩ := Res.bind_eq_ok.mp heq
      cases heq
      exact hc _ hp
    have hb : (fun (iter k : Nat) (S : List α) (prev : St α) => column N A pc l.length n k S iter prev) =
        fun iter k S prev => column N A' pc l.length n k S iter prev := by
      funext iter k S prev i s
      exact column_same hA hpc _ _ _ _ _ _ _
    have hb' : ∀ iter, (fun (k : Nat) (S : List α) (prev : St α) => column N A pc l.length n k S iter prev) =
        fun k S prev => column N A' pc l.length n k S iter prev := fun iter => congrFun hb iter
    simp only [hb']
  · rfl
  · rfl
  · rfl

/-- **C105** for the generalised problem. -/
theorem C105_lobpcg_generalized_same (L : Lib α) (cfg : Cfg α) (hA : SameMat n A A') (hB : SameMat n B B')
    {create : Res (List α → Res (List α))} (hc : ∀ pc, create = .ok pc → KeepsLength pc) (l : List α) {xin : List (List α)}
    (hx : ∀ v ∈ xin, v.length = n) (xcol : Nat) (itype : Int) {rs : Option (List (List α))}
    (hr : ∀ l, rs = some l → ∀ v ∈ l, v.length = n) (fuel : Nat) :
    generalized N L cfg A B create l xin xcol itype rs fuel = generalized N L cfg A' B' create l xin xcol itype rs fuel := by
  unfold generalized
  dsimp only
  rw [hA.col, hA.col', hB.col, hB.col', hA.row, hA.row', hB.row, hB.row']
  have h1 := mapRes_same (f := ginitVec N A B n) (g := ginitVec N A' B' n) (l := initial N l.length rs xin)
    (fun v hv => ginitVec_same hA hB (initial_len hx hr v hv))
  rw [h1]
  split
  · next pc s heq =>
    have hpc : KeepsLength pc := by
      obtain ⟨_, _, heq⟩ := Res.bind_eq_ok.mp heq
      split at heq
      · exact nomatch heq
      split at heq
      · exact nomatch heq
      split at heq
      · exact nomatch heq
      obtain ⟨p, hp, heq⟩ := Res.bind_eq_ok.mp heq
      obtain ⟨t, _, heq⟩ := Res.bind_eq_ok.mp heq
      cases heq
      exact hc _ hp
    have hb' : ∀ iter, (fun (k : Nat) (S : List α) (prev : St α) => gcolumn N A B pc l.length n k S iter prev) =
        fun k S prev => gcolumn N A' B' pc l.length n k S iter prev := by
      intro iter
      funext k S prev i s
      exact gcolumn_same hA hB hpc _ _ _ _ _ _ _
    simp only [hb']
  · rfl
  · rfl
  · rfl

section

variable {K : Type} [Field K] [LinearOrder K] [IsStrictOrderedRing K]

theorem noPrecond_keeps : ∀ pc, (noPrecond : Res (List α → Res (List α))) = .ok pc → KeepsLength pc := by
  intro pc hpc u w huw
  cases hpc
  cases huw
  rfl

/-- **C105**: LOBPCG on a Dense and on a CRS matrix with the same elements (products in exact arithmetic, everything else in any):
the same outcome, without preconditioner and with the Jacobi preconditioner. -/
theorem C105_lobpcg_dense {D : Dense K} (hD : D.WF) (h0 : D.first = 0) {f : Nat → Nat → K} (hD1 : D.Reads f)
    (hDr : D.rowN = n) (hDc : D.colN = n) {dorder : List Nat} (hdo : Order dorder n)
    {A : Crs K} (hA : A.Safe) (hd : DistinctPos A.entries) (hr : A.rowN = n) (hc : A.colN = n)
    (hf : ∀ i j, i < n → j < n → crsAt A i j = f i j) {order zo : List Nat} (ho : Order order n) (hz : Order zo n)
    (N : Num K) (L : Lib K) (cfg : Cfg K) (l : List K) {xin : List (List K)} (hx : ∀ v ∈ xin, v.length = n) (xcol : Nat)
    {rs : Option (List (List K))} (hrs : ∀ l, rs = some l → ∀ v ∈ l, v.length = n) (fuel : Nat) :
      let A1 := ofDense dorder D
      let A2 := ofCrs order zo A
      standard N L cfg A1 noPrecond l xin xcol rs fuel = standard N L cfg A2 noPrecond l xin xcol rs fuel ∧
      standard N L cfg A1 (jacobiPrecond N A1) l xin xcol rs fuel =
        standard N L cfg A2 (jacobiPrecond N A2) l xin xcol rs fuel := by
  have e : Matrix.of (fun i j : Fin n => crsAt A i j) = Matrix.of (fun i j : Fin n => f i j) := by
    ext i j
    exact hf i j i.2 j.2
  have h1 := isMat_crs A hA hd hr hc order zo ho hz
  rw [e] at h1
  have hS := sameMat_of_isMat (isMat_dense D hD h0 f hD1 hDr hDc dorder hdo) h1
  refine ⟨C105_lobpcg_same L cfg hS noPrecond_keeps l hx xcol hrs fuel, ?_⟩
  rw [jacobiPrecond_same hS]
  exact C105_lobpcg_same L cfg hS (fun pc hpc => jacobiPrecond_keeps hpc) l hx xcol hrs fuel

open LinOp in
/-- **C105**: LOBPCG on a LinearOperator that acts as a matrix, and on a CRS matrix with the same elements. -/
theorem C105_lobpcg_operator {ord : Nat → List Nat} {σ : Store K} {a : Nat} {f : Nat → Nat → K} {O : Op K}
    (hO : σ a = .op O) (h : Acts ord σ false a n n f) {work : Nat → List Nat} {sched : List Nat}
    (hw : LinDiag.Shares n work) (hs : ∀ t, 4 * (work t).length ≤ sched.count t)
    {A : Crs K} (hA : A.Safe) (hd : DistinctPos A.entries) (hr : A.rowN = n) (hc : A.colN = n)
    (hf : ∀ i j, i < n → j < n → crsAt A i j = f i j) {order zo : List Nat} (ho : Order order n) (hz : Order zo n) :
    ∃ d0, ∀ depth, d0 ≤ depth → ∀ (N : Num K) (L : Lib K) (cfg : Cfg K) (l : List K) (xin : List (List K)) (xcol : Nat)
      (rs : Option (List (List K))) (fuel : Nat), (∀ v ∈ xin, v.length = n) → (∀ l, rs = some l → ∀ v ∈ l, v.length = n) →
      let A1 := ofOp ord depth σ a O work sched
      let A2 := ofCrs order zo A
      standard N L cfg A1 noPrecond l xin xcol rs fuel = standard N L cfg A2 noPrecond l xin xcol rs fuel ∧
      standard N L cfg A1 (jacobiPrecond N A1) l xin xcol rs fuel =
        standard N L cfg A2 (jacobiPrecond N A2) l xin xcol rs fuel := by
  obtain ⟨d0, hd0⟩ := isMat_ofOp hO h hw hs
  refine ⟨d0, fun depth hdep N L cfg l xin xcol rs fuel hx hrs => ?_⟩
  have e : Matrix.of (fun i j : Fin n => crsAt A i j) = Matrix.of (fun i j : Fin n => f i j) := by
    ext i j
    exact hf i j i.2 j.2
  have h1 := isMat_crs A hA hd hr hc order zo ho hz
  rw [e] at h1
  have hS := sameMat_of_isMat (hd0 depth hdep) h1
  refine ⟨C105_lobpcg_same L cfg hS noPrecond_keeps l hx xcol hrs fuel, ?_⟩
  rw [jacobiPrecond_same hS]
  exact C105_lobpcg_same L cfg hS (fun pc hpc => jacobiPrecond_keeps hpc) l hx xcol hrs fuel

end

/-- the hypotheses hold for (2 1; 1 2) as CRS, Dense, operator -/
example (N : Num ℚ) (L : Lib ℚ) (cfg : Cfg ℚ) (fuel : Nat) :
    standard N L cfg (ofDense [0, 1] exD) noPrecond [0] [[1, 2]] 2 none fuel =
      standard N L cfg (ofCrs [1, 0] [0, 1] exA) noPrecond [0] [[1, 2]] 2 none fuel :=
  (C105_lobpcg_dense (n := 2) (f := fun i j => crsAt exA i j) (D := exD) ⟨rfl, rfl, by decide⟩ rfl
    (fun i j hi hj => exD_at ⟨i, hi⟩ ⟨j, hj⟩) rfl rfl (by unfold Order; decide) exA_safe exA_distinct
    rfl rfl (fun _ _ _ _ => rfl) (order := [1, 0]) (zo := [0, 1]) (by unfold Order; decide) (by unfold Order; decide)
    N L cfg [0] (by simp) 2 (by simp) fuel).1

example : ∃ d0, ∀ depth, d0 ≤ depth → ∀ (N : Num ℚ) (L : Lib ℚ) (cfg : Cfg ℚ) (fuel : Nat),
    standard N L cfg (ofOp List.range depth exStore 0 exOp exWork (List.replicate 8 0)) noPrecond [0] [[1, 2]] 2 none fuel =
      standard N L cfg (ofCrs [1, 0] [0, 1] exA) noPrecond [0] [[1, 2]] 2 none fuel := by
  obtain ⟨d0, h⟩ := C105_lobpcg_operator (n := 2) (O := exOp) rfl exStore_acts exWork_shares exWork_sched exA_safe exA_distinct
    rfl rfl (fun _ _ _ _ => rfl) (order := [1, 0]) (zo := [0, 1]) (by unfold Order; decide) (by unfold Order; decide)
  exact ⟨d0, fun depth hd N L cfg fuel => (h depth hd N L cfg [0] [[1, 2]] 2 none fuel (by simp) (by simp)).1⟩

/-- … and the generalised problem, with the same matrix twice -/
example (N : Num ℚ) (L : Lib ℚ) (cfg : Cfg ℚ) (fuel : Nat) {A' : Mat ℚ} (h : SameMat 2 (ofCrs [1, 0] [0, 1] exA) A') :
    generalized N L cfg (ofCrs [1, 0] [0, 1] exA) (ofCrs [1, 0] [0, 1] exA) noPrecond [0] [[1, 2]] 2 1 none fuel =
      generalized N L cfg A' A' noPrecond [0] [[1, 2]] 2 1 none fuel :=
  C105_lobpcg_generalized_same L cfg h h noPrecond_keeps [0] (by simp) 2 1 (by simp) fuel

end Verif.Lobpcg
