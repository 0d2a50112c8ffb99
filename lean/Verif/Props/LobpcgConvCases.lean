import Verif.Props.LobpcgConv
import Verif.Props.SolverOp

/-! C120: start vectors for which LOBPCG fails; CRS matrices. -/

namespace Verif.Lobpcg

open Spec Solver Lapack Matrix

variable {K : Type} [Field K] [LinearOrder K] [IsStrictOrderedRing K] {n : Nat} {M : Matrix (Fin n) (Fin n) K}

/-- a CRS matrix can be applied to every vector of its length, also one with NaN in it -/
theorem mv_crsExt (A : Crs K) (hA : A.Safe) (hr : A.rowN = n) (hc : A.colN = n) (order zo : List Nat)
    (ho : Order order n) (u : List (Ext K)) (hu : u.length = n) :
    ∃ v, (ofCrs order zo (crsMap Ext.fin A)).mv u = .ok v := by
  have hy : (⟨List.replicate A.rowN (0 : Ext K), 0, A.rowN⟩ : Win (Ext K)).Ok := by simp [Win.Ok]
  obtain ⟨y, h1, -, -⟩ := C16_matvec_exact (crsMap Ext.fin A) (crsMap_safe Ext.fin hA)
    ⟨u, 0, u.length⟩ ⟨List.replicate A.rowN 0, 0, A.rowN⟩ (by simp [hu, hc, crsMap]) rfl hy
    (fun j => u.getD j 0) (by
      intro j hj
      simp only [Win.get, Nat.zero_add]
      rw [rd_eq_ok, List.getElem?_eq_getElem hj]
      simp [List.getD, List.getElem?_eq_getElem hj]) order (by show Order order A.rowN; rw [hr]; exact ho)
  refine ⟨y.buf, ?_⟩
  show Res.bind _ _ = _
  have : (crsMap Ext.fin A).rowN = A.rowN := rfl
  rw [this, h1]
  rfl

/-- every element is NaN, and there is one -/
def AllNan (u : List (Ext K)) : Prop := u ≠ [] ∧ ∀ a ∈ u, a = .nan

theorem nan_add (a : Ext K) : Ext.add .nan a = .nan := by cases a <;> rfl
theorem add_nan (a : Ext K) : Ext.add a .nan = .nan := by cases a <;> rfl
theorem mul_nan (a : Ext K) : Ext.mul a .nan = .nan := by cases a <;> rfl

theorem AllNan.zip {f : Ext K → Ext K → Ext K} {x y : List (Ext K)} (hl : x.length = y.length) (hx : x ≠ [])
    (hf : ∀ a ∈ x, ∀ b ∈ y, f a b = .nan) : AllNan (List.zipWith f x y) := by
  refine ⟨?_, ?_⟩
  · intro h
    have := congrArg List.length h
    rw [List.length_zipWith, ← hl] at this
    simp at this
    exact hx this
  · intro a ha
    obtain ⟨i, hi, he⟩ := List.getElem_of_mem ha
    rw [List.getElem_zipWith] at he
    rw [← he]
    exact hf _ (List.getElem_mem _) _ (List.getElem_mem _)

theorem AllNan.axpy_left {sq : K → K} {a : Ext K} {x y z : List (Ext K)} (hx : AllNan x)
    (h : (Ext.num sq).axpy a x y = .ok z) : AllNan z := by
  unfold Num.axpy at h
  obtain ⟨_, hc, h⟩ := Res.bind_eq_ok.mp h
  cases h
  refine AllNan.zip ?_ hx.1 ?_
  · have := Solver.of_cassert hc
    simpa using this
  · intro b hb c _
    rw [hx.2 b hb]
    show Ext.add (Ext.mul a .nan) c = .nan
    rw [mul_nan, nan_add]

theorem AllNan.axpy_right {sq : K → K} {a : Ext K} {x y z : List (Ext K)} (hy : AllNan y)
    (h : (Ext.num sq).axpy a x y = .ok z) : AllNan z := by
  unfold Num.axpy at h
  obtain ⟨_, hc, h⟩ := Res.bind_eq_ok.mp h
  cases h
  have hl : x.length = y.length := by
    have := Solver.of_cassert hc
    simpa using this
  refine AllNan.zip hl ?_ ?_
  · intro h0
    rw [h0] at hl
    exact hy.1 (List.length_eq_zero_iff.mp hl.symm)
  · intro b _ c hc
    rw [hy.2 c hc]
    exact add_nan _

theorem AllNan.scal {sq : K → K} {a : Ext K} {x : List (Ext K)} (hx : AllNan x) : AllNan (scal (Ext.num sq) a x) := by
  refine ⟨by simpa [Lobpcg.scal] using hx.1, ?_⟩
  intro b hb
  obtain ⟨c, hc, rfl⟩ := List.mem_map.mp hb
  rw [hx.2 c hc]
  exact mul_nan a

/-- one vector of NaN among the `w` spoils every combination -/
theorem combine_nan {sq : K → K} {m j0 : Nat} (hj : j0 < m) {b : List (Ext K)} {f : Fam (Ext K)} {w0 : List (Ext K)}
    (hw : f.w[j0]? = some w0) (hn : AllNan w0) {zero : List (Ext K)} {r : List (Ext K) × List (Ext K)}
    (h : combine (Ext.num sq) m b f zero = .ok r) : AllNan r.2 := by
  have key : ∀ (cnt lo : Nat) (s r : List (Ext K) × List (Ext K)), (j0 < lo → AllNan s.2) → j0 < lo + cnt →
      forFrom lo cnt (fun j s => do
        let bw ← rd b j
        let bx ← rd b (m + j)
        let bp ← rd b (2 * m + j)
        let wj ← rd f.w j
        let xj ← rd f.x j
        let pj ← rd f.p j
        let p ← (Ext.num sq).axpy bw wj s.1
        let p ← (Ext.num sq).axpy bp pj p
        let x ← (Ext.num sq).axpy bw wj s.2
        let x ← (Ext.num sq).axpy bp pj x
        let x ← (Ext.num sq).axpy bx xj x
        .ok (p, x)) s = .ok r → AllNan r.2 := by
    intro cnt
    induction cnt with
    | zero =>
      intro lo s r hs hlt h
      rw [forFrom_zero] at h
      cases h
      exact hs (by omega)
    | succ cnt ih =>
      intro lo s r hs hlt h
      rw [forFrom_succ] at h
      obtain ⟨s', h1, h⟩ := Res.bind_eq_ok.mp h
      refine ih (lo + 1) s' r ?_ (by omega) h
      intro hlo
      obtain ⟨bw, -, h1⟩ := Res.bind_eq_ok.mp h1
      obtain ⟨bx, -, h1⟩ := Res.bind_eq_ok.mp h1
      obtain ⟨bp, -, h1⟩ := Res.bind_eq_ok.mp h1
      obtain ⟨wj, hwj, h1⟩ := Res.bind_eq_ok.mp h1
      obtain ⟨xj, -, h1⟩ := Res.bind_eq_ok.mp h1
      obtain ⟨pj, -, h1⟩ := Res.bind_eq_ok.mp h1
      obtain ⟨p1, -, h1⟩ := Res.bind_eq_ok.mp h1
      obtain ⟨p2, -, h1⟩ := Res.bind_eq_ok.mp h1
      obtain ⟨x1, e1, h1⟩ := Res.bind_eq_ok.mp h1
      obtain ⟨x2, e2, h1⟩ := Res.bind_eq_ok.mp h1
      obtain ⟨x3, e3, h1⟩ := Res.bind_eq_ok.mp h1
      cases h1
      have a1 : AllNan x1 := by
        by_cases he : j0 = lo
        · rw [← he, rd_eq_ok, hw] at hwj
          cases hwj
          exact hn.axpy_left e1
        · exact (hs (by omega)).axpy_right e1
      exact (a1.axpy_right e2).axpy_right e3
  unfold combine forN at h
  exact key m 0 _ r (by omega) (by omega) h

theorem column_nan {sq : K → K} {A : Mat (Ext K)} {m n k j0 : Nat} (hj : j0 < m) {S : List (Ext K)} {iter : Nat}
    {prev s : St (Ext K)} {i : Nat} {w0 : List (Ext K)} (hw : prev.F.w[j0]? = some w0) (hn : AllNan w0)
    {c : Sum (Out (Ext K)) (St (Ext K) × Ext K)}
    (h : column (Ext.num sq) A (fun r => .ok r) m n k S iter prev i s = .ok c) :
    ∃ o, c = .inl o ∧ o.status = RESIDUAL_NAN := by
  unfold column at h
  obtain ⟨li, -, h⟩ := Res.bind_eq_ok.mp h
  obtain ⟨l, -, h⟩ := Res.bind_eq_ok.mp h
  obtain ⟨b, -, h⟩ := Res.bind_eq_ok.mp h
  dsimp only at h
  obtain ⟨px, hpx, h⟩ := Res.bind_eq_ok.mp h
  obtain ⟨PX, -, h⟩ := Res.bind_eq_ok.mp h
  obtain ⟨w, hwz, h⟩ := Res.bind_eq_ok.mp h
  rw [Res.ok_bind] at h
  have hx : AllNan (scal (Ext.num sq) ((Ext.num sq).div (Ext.num sq).one ((Ext.num sq).nrm2 px.2)) px.2) :=
    (combine_nan hj hw hn hpx).scal
  have hwn : .nan ∈ w := by
    unfold Num.axpyz at hwz
    obtain ⟨_, hc1, hwz⟩ := Res.bind_eq_ok.mp hwz
    cases hwz
    have hl := (Solver.of_cassert hc1).1
    have := AllNan.zip (f := fun u v => (Ext.num sq).add ((Ext.num sq).mul ((Ext.num sq).neg li) u) v) hl hx.1 (by
      intro a ha c _
      rw [hx.2 a ha]
      show Ext.add (Ext.mul _ .nan) c = .nan
      rw [mul_nan, nan_add])
    obtain ⟨a, ha⟩ := List.exists_mem_of_ne_nil _ this.1
    have ha' := ha
    rw [this.2 a ha] at ha'
    exact ha'
  rw [Ext.nrm2_nan sq w hwn] at h
  rw [if_pos (show (Ext.num sq).isNaN Ext.nan = true from rfl)] at h
  cases h
  exact ⟨_, rfl, rfl⟩

theorem passWith_nan {sq : K → K} {A : Mat (Ext K)} {L : Lib (Ext K)} {cfg : Cfg (Ext K)} {m n k j0 iter : Nat}
    (hj : j0 < m) {lb ub : Int} {s : St (Ext K)} {w0 : List (Ext K)} (hw : s.F.w[j0]? = some w0) (hn : AllNan w0)
    {P : Pass (Ext K)} (h : passWith (Ext.num sq) L cfg m iter k lb ub (fun s => s.F.rows)
      (fun k S prev => column (Ext.num sq) A (fun r => .ok r) m n k S iter prev) s = .ok P) :
    (∃ o, P = .done o ∧ o.status = RESIDUAL_NAN) ∨ ∃ s', P = .restart s' ∧ s'.F = s.F := by
  unfold passWith at h
  dsimp only at h
  split at h
  · cases h
    exact .inr ⟨_, rfl, rfl⟩
  · split at h
    · cases h
    · obtain ⟨c, hc, h⟩ := Res.bind_eq_ok.mp h
      obtain ⟨m', rfl⟩ : ∃ m', m = m' + 1 := ⟨m - 1, by omega⟩
      rw [List.range_succ_eq_map] at hc
      unfold columns at hc
      obtain ⟨c1, hc1, hc⟩ := Res.bind_eq_ok.mp hc
      obtain ⟨o, rfl, ho⟩ := column_nan hj (prev := { s with lam := _ }) hw hn hc1
      cases hc
      cases h
      exact .inl ⟨o, rfl, ho⟩

theorem loop_nan {sq : K → K} {A : Mat (Ext K)} {L : Lib (Ext K)} {cfg : Cfg (Ext K)} {m n j0 : Nat}
    (hj : j0 < m) {w0 : List (Ext K)} (hn : AllNan w0) (iter : Nat) :
    ∀ (fuel : Nat) (singular : Bool) (resid : Ext K) (s : St (Ext K)) (out : Out (Ext K)), s.F.w[j0]? = some w0 →
      loop cfg (fun iter singular s => pass (Ext.num sq) L cfg m iter singular (fun s => s.F.rows)
        (fun k S prev => column (Ext.num sq) A (fun r => .ok r) m n k S iter prev) s) fuel iter singular resid s =
        some (.ok out) → out.status ≠ SUCCESS := by
  intro fuel
  induction fuel with
  | zero => intro singular resid s out _ h; cases h
  | succ fuel ih =>
    intro singular resid s out hw h
    unfold loop at h
    split at h
    · have key : ∀ P, pass (Ext.num sq) L cfg m iter singular (fun s => s.F.rows)
          (fun k S prev => column (Ext.num sq) A (fun r => .ok r) m n k S iter prev) s = .ok P →
          (∃ o, P = .done o ∧ o.status = RESIDUAL_NAN) ∨ ∃ s', P = .restart s' ∧ s'.F = s.F := by
        intro P hP
        unfold pass at hP
        split at hP
        · exact passWith_nan hj hw hn hP
        · exact passWith_nan hj hw hn hP
      split at h
      · rename_i o hP
        cases h
        rcases key _ hP with ⟨o', ho, hs⟩ | ⟨s', hs, _⟩
        · cases ho
          rw [hs]; decide
        · cases hs
      · rename_i s' hP
        rcases key _ hP with ⟨o', ho, hs⟩ | ⟨s'', hs, hF⟩
        · cases ho
        · cases hs
          exact ih true resid s' out (by rw [hF]; exact hw) h
      · rename_i s' r' hP
        rcases key _ hP with ⟨o', ho, hs⟩ | ⟨s'', hs, hF⟩
        · cases ho
        · cases hs
      all_goals cases h
    · cases h
      show MAXITER ≠ SUCCESS
      decide

/-- **C120 is violated**: when one of the start vectors is an eigenvector, of length 1, LOBPCG never succeeds, whatever
LAPACK does and however many iterations are allowed: `w = A x - λ x = 0` is divided by its norm. -/
theorem C120_eigenvector_violated {sq : K → K} (hsq0 : sq 0 = 0) (hn : 0 < n)
    {A : Mat (Ext K)} (hA : IsMat A Ext.fin M) (L : Lib (Ext K)) (cfg : Cfg (Ext K)) (l : List (Ext K))
    {xin : List (List (Ext K))} {j : Nat} (hj : j < l.length) {u : Fin n → K} (hx : xin[j]? = some (vec Ext.fin u))
    (hu : u ⬝ᵥ u = 1) {c : K} (heig : M *ᵥ u = c • u) (fuel : Nat) (out : Out (Ext K))
    (h : standard (Ext.num sq) L cfg A noPrecond l xin n none fuel = some (.ok out)) : out.status ≠ SUCCESS := by
  have E := Ext.exact sq
  unfold standard at h
  simp only [hA.col, ne_eq, not_true_eq_false, if_false, noPrecond, Res.ok_bind] at h
  split at h
  · rename_i pc s hinit
    split at hinit
    · cases hinit
    · obtain ⟨t, ht, hinit⟩ := Res.bind_eq_ok.mp hinit
      cases hinit
      obtain ⟨hlen, hspec⟩ := mapRes_spec ht
      have hxj : (initial (Ext.num sq) l.length none xin)[j]? = some (vec Ext.fin u) := by
        simp only [initial]
        rw [List.getElem?_take_of_lt hj]
        exact hx
      have hjt : j < t.length := by
        rw [hlen]
        exact (List.getElem?_eq_some_iff.mp hxj).1
      obtain ⟨b, hb, hiv⟩ := hspec j t[j] (List.getElem?_eq_getElem hjt)
      rw [hxj] at hb
      cases hb
      have hnan : AllNan (t[j]).2.1 := by
        unfold initVec mvInto at hiv
        have hrow : cassert (decide (A.row = n)) = .ok () := cassert_of (by simp [hA.row])
        rw [hrow, Res.ok_bind, hA.mv, Res.ok_bind, dot_vec E, Res.ok_bind, axpyz_neg_vec E, Res.ok_bind] at hiv
        obtain ⟨W, -, hiv⟩ := Res.bind_eq_ok.mp hiv
        have hz : M *ᵥ u - (u ⬝ᵥ (M *ᵥ u)) • u = 0 := by
          rw [heig, dotProduct_smul, hu, smul_eq_mul, mul_one, sub_self]
        injection hiv with hiv
        rw [← hiv]
        dsimp only
        rw [hz, nrm2_vec E]
        have hn0 : norm2 sq (0 : Fin n → K) = 0 := by unfold norm2; rw [dotProduct_zero, hsq0]
        rw [hn0]
        refine ⟨?_, ?_⟩
        · intro h0
          have := congrArg List.length h0
          simp [scal, vec] at this
          omega
        · intro a ha
          unfold scal at ha
          obtain ⟨b, hb, rfl⟩ := List.mem_map.mp ha
          unfold vec at hb
          obtain ⟨i, rfl⟩ := (List.mem_ofFn' _ _).mp hb
          show Ext.mul (Ext.div (.fin 1) (.fin 0)) (.fin 0) = .nan
          simp [Ext.div, Ext.mul, Ext.scaleInf]
      exact loop_nan hj hnan 0 fuel false _ _ out (by simp [List.getElem?_map, List.getElem?_eq_getElem hjt]) h
  all_goals cases h

end Verif.Lobpcg
