import Verif.Props.LobpcgBlock

/-! C119: the vectors LOBPCG returns are always finite and of length 1, whatever LAPACK does. -/

namespace Verif.Lobpcg

open Spec Solver Lapack Matrix

variable {K : Type} [Field K] [LinearOrder K] [IsStrictOrderedRing K] {n : Nat} {M : Matrix (Fin n) (Fin n) K}

/-- `m` finite vectors of length 1 -/
def UnitVecs (n m : Nat) (xs : List (List (Ext K))) : Prop :=
  ∃ v : Fin m → Fin n → K, (xs = List.ofFn fun i => vec Ext.fin (v i)) ∧ ∀ i, v i ⬝ᵥ v i = 1

structure UInv (M : Matrix (Fin n) (Fin n) K) (m iter : Nat) (s : St (Ext K)) : Prop where
  base : Base M 1 St.F m s
  unit : 0 < iter → UnitVecs n m s.F.x

/-- what a pass leads to -/
def UPass (M : Matrix (Fin n) (Fin n) K) (m iter : Nat) : Pass (Ext K) → Prop
  | .done o => o.status = RESIDUAL_NAN ∨ UnitVecs n m o.x
  | .restart s' => UInv M m iter s'
  | .next s' _ => UInv M m (iter + 1) s'

section

variable {sq : K → K} (hsq : ∀ a, 0 ≤ a → sq a * sq a = a) (hsq0 : ∀ a, 0 ≤ a → 0 ≤ sq a) (hn : 0 < n)
  {A : Mat (Ext K)} (hA : IsMat A Ext.fin M) {L : Lib (Ext K)} {cfg : Cfg (Ext K)}

section

variable {pc : List (Ext K) → Res (List (Ext K))} {T : (Fin n → K) → Fin n → K} (hpc : PcIs pc T)

include hsq hsq0 hn hA hpc

theorem passWith_unit {m iter k : Nat} {lb ub : Int} {s : St (Ext K)} (hs : UInv M m iter s) {p : Pass (Ext K)}
    (h : passWith (Ext.num sq) L cfg m iter k lb ub (fun s => s.F.rows)
      (fun k S prev => column (Ext.num sq) A pc m n k S iter prev) s = .ok p) : UPass M m iter p := by
  unfold passWith at h
  dsimp only at h
  generalize L.sygvd 1 true false k (gram (Ext.num sq) (s.G.rows.take k) (s.F.rows.take k)) k
    (gram (Ext.num sq) (s.F.rows.take k) (s.F.rows.take k)) k = r at h
  have hs1 : Inv0 M 1 St.F m { s with lam := overwrite s.lam r.2.2.1 } := ⟨hs.base.inv.im, hs.base.inv.iq⟩
  split at h
  · cases h
    exact ⟨⟨hs1, hs.base.l⟩, hs.unit⟩
  · split at h
    · cases h
    · obtain ⟨c, hc, h⟩ := Res.bind_eq_ok.mp h
      cases c with
      | inl o =>
        cases h
        exact .inl (columns_inl_nan (fun i z o hh => column_inl hh) _ _ _ hc)
      | inr q =>
        obtain ⟨s', rs⟩ := q
        obtain ⟨resid, hmax, h⟩ := Res.bind_eq_ok.mp h
        rw [List.range_eq_range'] at hc
        obtain ⟨hI, hl, hrl, hg⟩ := columns_d (Inv := fun z => Inv0 M 1 St.F m z) (C := fun _ _ _ => True) (D := ColD M T)
          (m := m) (fun z hz => ⟨hz.im.x.l1, hz.im.w.l1⟩)
          (by
            intro i z z' q hz hb
            obtain ⟨w, x, p, W, X, P, li, rfl, ⟨h1, h2, h3⟩, h4, h5⟩ := column_d hsq hsq0 hn hpc hA.mv hs1.im hb
            have hput := hz.im.put (i := i) h1 h2 h3
            exact ⟨⟨hput, hput.self⟩, w, x, li, rfl, rfl, rfl, trivial, h5⟩) m 0 [] _ s' rs hs1 hs.base.l rfl
          (by omega) (by intro i hi; omega) hc
        have hunit : UnitVecs n m s'.F.x := by
          have hunit : ∀ i : Fin m, ∃ v : Fin n → K, s'.F.x[(i : Nat)]? = some (vec Ext.fin v) ∧ v ⬝ᵥ v = 1 := by
            intro i
            obtain ⟨x, li, w, q, e1, -, -, -, -, v, e5, e6, -⟩ := hg i i.2
            exact ⟨v, by rw [e1, e5], e6⟩
          choose v hv hvv using hunit
          refine ⟨v, ?_, hvv⟩
          have := take_ofFn (rows := s'.F.x) (k := m) (g := fun i => vec Ext.fin (v i)) hv
          rwa [List.take_of_length_le (by rw [hI.im.x.l1])] at this
        split at h
        · cases h
          exact .inr hunit
        · cases h
          exact ⟨⟨hI, hl⟩, fun _ => hunit⟩

theorem loop_unit {m : Nat} (hmax : 0 < cfg.maxiter) :
    ∀ (fuel iter : Nat) (singular : Bool) (resid : Ext K) (s : St (Ext K)) (o : Out (Ext K)), UInv M m iter s →
    loop cfg (fun iter singular s => pass (Ext.num sq) L cfg m iter singular (fun s => s.F.rows)
      (fun k S prev => column (Ext.num sq) A pc m n k S iter prev) s) fuel iter singular resid s =
        some (.ok o) → o.status = RESIDUAL_NAN ∨ UnitVecs n m o.x := by
  intro fuel
  induction fuel with
  | zero => intro iter singular resid s o _ h; cases h
  | succ fuel ih =>
    intro iter singular resid s o hs h
    have hpass : ∀ p, pass (Ext.num sq) L cfg m iter singular (fun s => s.F.rows)
        (fun k S prev => column (Ext.num sq) A pc m n k S iter prev) s = .ok p → UPass M m iter p := by
      intro p hp
      unfold pass at hp
      split at hp
      · exact passWith_unit hsq hsq0 hn hA hpc hs hp
      · exact passWith_unit hsq hsq0 hn hA hpc hs hp
    unfold loop at h
    split at h
    · split at h
      · rename_i o' hP
        cases h
        exact hpass _ hP
      · rename_i s' hP
        exact ih _ _ _ s' o (hpass _ hP) h
      · rename_i s' r' hP
        exact ih _ _ _ s' o (hpass _ hP) h
      all_goals cases h
    · cases h
      exact .inr (hs.unit (by omega))

/-- **C119**, standard problem: after at least one iteration, LOBPCG returns either `RESIDUAL_NAN` or finite vectors of
length 1, whatever the matrix, the start vectors and the answers of LAPACK, with every preconditioner that is a map on finite
vectors and hides no NaN. -/
theorem C119_unit_precond (hmax : 0 < cfg.maxiter) {l : List (Ext K)} {xin : List (List (Ext K))} {xcol : Nat}
    {rs : Option (List (List (Ext K)))} (hrs : ∀ r, rs = some r → l.length ≤ r.length) {fuel : Nat} {out : Out (Ext K)}
    (h : standard (Ext.num sq) L cfg A (.ok pc) l xin xcol rs fuel = some (.ok out)) (hst : out.status ≠ RESIDUAL_NAN) :
    UnitVecs n l.length out.x := by
  obtain ⟨pc', s, hrun, hI, hpc'⟩ := standard_init hn hA hrs h
  rw [hrun] at h
  cases hpc'
  exact (loop_unit hsq hsq0 hn hA hpc hmax fuel 0 false _ s out ⟨hI.base, fun h0 => absurd h0 (by omega)⟩ h).resolve_left
    hst

/-- **C119**, standard problem, with nothing assumed about the result: it is a set of orthonormal Ritz vectors with their
numbers, not worse than the start vectors. -/
theorem C119_precond_partial (hM : Mᵀ = M) (hL : Dsygvd L) (hmax : 0 < cfg.maxiter) {l : List (Ext K)}
    {xin : List (List (Ext K))} {xcol : Nat} {rs : Option (List (List (Ext K)))}
    (hrs : ∀ r, rs = some r → l.length ≤ r.length) {fuel : Nat} {out : Out (Ext K)}
    (h : standard (Ext.num sq) L cfg A (.ok pc) l xin xcol rs fuel = some (.ok out))
    (hheard : standard (Ext.num sq) (loud l.length L) cfg A (.ok pc) l xin xcol rs fuel ≠
      some (.throw "internal LAPACK sygvd returned error"))
    (hst : out.status ≠ RESIDUAL_NAN) :
    ∃ (v : Fin l.length → Fin n → K) (lam : Fin l.length → K), (out.x = List.ofFn fun i => vec Ext.fin (v i)) ∧
      out.l = List.ofFn (fun i => Ext.fin (lam i)) ∧ (∀ i j, v i ⬝ᵥ v j = if i = j then 1 else 0) ∧
      RitzPairs M 1 lam v ∧ Improves M 1 Ext.fin (startOf l.length rs xin) lam := by
  obtain ⟨v, hx, hv⟩ := C119_unit_precond hsq hsq0 hn hA hpc hmax hrs h hst
  obtain ⟨lam, h1, h2, h3⟩ := C119_lobpcg_standard_partial hn hA hM hL hmax hrs h hheard hst hx
  refine ⟨v, lam, hx, h1, ?_, h2, h3⟩
  intro i j
  by_cases hij : i = j
  · subst hij; rw [if_pos rfl, hv]
  · rw [if_neg hij]
    have := (h2.orth i j hij).1
    rwa [Matrix.one_mulVec] at this

end

include hsq hsq0 hn hA

/-- **C119** without a preconditioner -/
theorem C119_unit_vectors (hmax : 0 < cfg.maxiter) {l : List (Ext K)} {xin : List (List (Ext K))} {xcol : Nat}
    {rs : Option (List (List (Ext K)))} (hrs : ∀ r, rs = some r → l.length ≤ r.length) {fuel : Nat} {out : Out (Ext K)}
    (h : standard (Ext.num sq) L cfg A noPrecond l xin xcol rs fuel = some (.ok out)) (hst : out.status ≠ RESIDUAL_NAN) :
    UnitVecs n l.length out.x :=
  C119_unit_precond hsq hsq0 hn hA pcIs_none hmax hrs h hst

/-- **C119**, standard problem without a preconditioner, with nothing assumed about the result: it is a set of orthonormal
Ritz vectors with their numbers, not worse than the start vectors. -/
theorem C119_no_precond_partial (hM : Mᵀ = M) (hL : Dsygvd L) (hmax : 0 < cfg.maxiter) {l : List (Ext K)}
    {xin : List (List (Ext K))} {xcol : Nat} {rs : Option (List (List (Ext K)))}
    (hrs : ∀ r, rs = some r → l.length ≤ r.length) {fuel : Nat} {out : Out (Ext K)}
    (h : standard (Ext.num sq) L cfg A noPrecond l xin xcol rs fuel = some (.ok out))
    (hheard : standard (Ext.num sq) (loud l.length L) cfg A noPrecond l xin xcol rs fuel ≠
      some (.throw "internal LAPACK sygvd returned error"))
    (hst : out.status ≠ RESIDUAL_NAN) :
    ∃ (v : Fin l.length → Fin n → K) (lam : Fin l.length → K), (out.x = List.ofFn fun i => vec Ext.fin (v i)) ∧
      out.l = List.ofFn (fun i => Ext.fin (lam i)) ∧ (∀ i j, v i ⬝ᵥ v j = if i = j then 1 else 0) ∧
      RitzPairs M 1 lam v ∧ Improves M 1 Ext.fin (startOf l.length rs xin) lam :=
  C119_precond_partial hsq hsq0 hn hA pcIs_none hM hL hmax hrs h hheard hst

end

end Verif.Lobpcg
