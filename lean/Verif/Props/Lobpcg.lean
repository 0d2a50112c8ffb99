import Verif.Lemmas.Lobpcg

/-!
C70, C71: what a return code of success of the LOBPCG solvers certifies, in IEEE-like arithmetic and
whatever the LAPACK routine `sygvd` returns.
-/

namespace Verif.Lobpcg

open Spec Solver Lapack Matrix

variable {K : Type} [Field K] [LinearOrder K] [IsStrictOrderedRing K] {n : Nat}
  {M : Matrix (Fin n) (Fin n) K}

/-- the data between two passes -/
structure Good' (Inv : St (Ext K) → Prop) (m : Nat) (s : St (Ext K)) : Prop where
  inv : Inv s
  x : s.F.x.length = m
  l : s.l.length = m

/-- `Q` of what is returned, `I` of the data carried over -/
def Pass.Holds (Q : Out (Ext K) → Prop) (I : St (Ext K) → Prop) : Pass (Ext K) → Prop
  | .done o => Q o
  | .restart s' => I s'
  | .next s' _ => I s'

theorem passWith_ok (sq : K → K) {P : (Fin n → K) → Fin n → K} {Inv : St (Ext K) → Prop}
    (hlam : ∀ (s : St (Ext K)) lam, Inv s → Inv { s with lam := lam })
    {L : Lib (Ext K)} {cfg : Cfg (Ext K)} {tol : K} (htol : cfg.tol = .fin tol) {m iter k : Nat}
    {lb ub : Int} {sb : St (Ext K) → List (List (Ext K))}
    {body : (k : Nat) → (S : List (Ext K)) → (prev : St (Ext K)) → Nat → St (Ext K) →
      Res (Sum (Out (Ext K)) (St (Ext K) × Ext K))}
    (hbody : ∀ k S prev i s s' r, Inv prev → Inv s → body k S prev i s = .ok (.inr (s', r)) →
      ColOk sq M P Inv i s s' r)
    (hnan : ∀ k S prev i s o, body k S prev i s = .ok (.inl o) → o.status = RESIDUAL_NAN)
    {s : St (Ext K)} (hs : Good' Inv m s) {p : Pass (Ext K)}
    (h : passWith (Ext.num sq) L cfg m iter k lb ub sb body s = .ok p) :
    p.Holds (fun o => o.status = RESIDUAL_NAN ∨
        (o.status = SUCCESS ∧ Pairs sq (fun l v => P (M *ᵥ v - l • v)) tol o.l o.x m))
      (Good' Inv m) := by
  unfold passWith at h
  dsimp only at h
  split at h
  · cases h
    exact ⟨hlam _ _ hs.inv, hs.x, hs.l⟩
  · split at h
    · cases h
    · rename_i hI1 hI2
      obtain ⟨c, hc, h⟩ := Res.bind_eq_ok.mp h
      have hs1 := hlam s (overwrite s.lam (L.sygvd 1 true false k
        (gram (Ext.num sq) (s.G.rows.take k) (s.F.rows.take k)) k
        (gram (Ext.num sq) ((sb s).take k) (s.F.rows.take k)) k).2.2.1) hs.inv
      cases c with
      | inl o =>
        cases h
        left
        -- the return inside the loop
        have : ∀ (is : List Nat) (rs : List (Ext K)) (f : Nat → St (Ext K) →
            Res (Sum (Out (Ext K)) (St (Ext K) × Ext K))) (z : St (Ext K)),
            (∀ i z o, f i z = .ok (.inl o) → o.status = RESIDUAL_NAN) →
            columns f is rs z = .ok (.inl o) → o.status = RESIDUAL_NAN := by
          intro is
          induction is with
          | nil => intro rs f z _ hh; cases hh
          | cons i is ih =>
            intro rs f z hf hh
            rw [columns] at hh
            obtain ⟨q, hq, hh⟩ := Res.bind_eq_ok.mp hh
            cases q with
            | inl o' => cases hh; exact hf _ _ _ hq
            | inr q => exact ih _ f q.1 hf hh
        exact this _ _ _ _ (fun i z o => hnan _ _ _ i z o) hc
      | inr q =>
        obtain ⟨s', rs⟩ := q
        rw [List.range_eq_range'] at hc
        obtain ⟨hI, hx, hl, hr, hnn, hg⟩ := columns_ok (M := M) sq (P := P) (Inv := Inv) (m := m)
          (fun i z z' r hz hb => hbody _ _ _ i z z' r hs1 hz hb) m 0 [] _ s' rs hs1 hs.x hs.l rfl
          (by omega) (by simp) (by simp) hc
        obtain ⟨resid, hmax, h⟩ := Res.bind_eq_ok.mp h
        split at h
        · rename_i hstop
          cases h
          right
          refine ⟨rfl, ?_⟩
          rw [htol] at hstop
          exact pairs_of sq hx hl hr hnn hg hmax hstop.1
        · cases h
          exact ⟨hI, hx, hl⟩

theorem loop_ok {Inv : St (Ext K) → Prop} {cfg : Cfg (Ext K)} {Q : Out (Ext K) → Prop}
    {body : (iter : Nat) → (singular : Bool) → St (Ext K) → Res (Pass (Ext K))}
    (hbody : ∀ iter singular s p, Inv s → body iter singular s = .ok p → p.Holds Q Inv)
    (hmax : ∀ o, o.status = MAXITER → Q o) :
    ∀ (fuel iter : Nat) (singular : Bool) (resid : Ext K) (s : St (Ext K)) (o : Out (Ext K)), Inv s →
      loop cfg body fuel iter singular resid s = some (.ok o) → Q o
  | 0, _, _, _, _, _, _, h => by simp [loop] at h
  | fuel + 1, iter, singular, resid, s, o, hs, h => by
    rw [loop] at h
    split at h
    · cases hb : body iter singular s with
      | ok p =>
        have := hbody iter singular s p hs hb
        rw [hb] at h
        cases p with
        | done o' => cases h; exact this
        | restart s' => exact loop_ok hbody hmax fuel _ _ _ s' o this h
        | next s' r' => exact loop_ok hbody hmax fuel _ _ _ s' o this h
      | throw e => rw [hb] at h; cases h
      | abort e => rw [hb] at h; cases h
      | ub e => rw [hb] at h; cases h
    · cases h
      exact hmax _ rfl

theorem mapRes_spec {β γ : Type} {f : β → Res γ} : ∀ {l : List β} {r : List γ}, mapRes f l = .ok r →
    r.length = l.length ∧ ∀ (i : Nat) (c : γ), r[i]? = some c → ∃ b, l[i]? = some b ∧ f b = .ok c
  | [], r, h => by cases h; simp
  | a :: l, r, h => by
    rw [mapRes] at h
    obtain ⟨b, hb, h⟩ := Res.bind_eq_ok.mp h
    obtain ⟨r', hr', h⟩ := Res.bind_eq_ok.mp h
    cases h
    obtain ⟨h1, h2⟩ := mapRes_spec hr'
    refine ⟨by simp [h1], ?_⟩
    intro i c hc
    cases i with
    | zero => simp only [List.getElem?_cons_zero, Option.some.injEq] at hc ⊢; exact ⟨a, rfl, hc ▸ hb⟩
    | succ i => simpa using h2 i c (by simpa using hc)

theorem zeros_rel (m : Nat) (j : Nat) (u U : List (Ext K))
    (h : (List.replicate m (List.replicate n (Ext.fin (0 : K))))[j]? = some u)
    (h' : (List.replicate m (List.replicate n (Ext.fin (0 : K))))[j]? = some U) : Rel M u U := by
  rw [List.getElem?_replicate] at h h'
  split at h
  · rename_i hj
    rw [if_pos hj] at h'
    cases h; cases h'
    exact Rel.zero
  · cases h

theorem column_inl {N : Num (Ext K)} {A : Mat (Ext K)} {pc : List (Ext K) → Res (List (Ext K))}
    {m k iter i : Nat} {S : List (Ext K)} {prev s : St (Ext K)} {o : Out (Ext K)}
    (h : column N A pc m n k S iter prev i s = .ok (.inl o)) : o.status = RESIDUAL_NAN := by
  unfold column at h
  obtain ⟨_, _, h⟩ := Res.bind_eq_ok.mp h
  obtain ⟨_, _, h⟩ := Res.bind_eq_ok.mp h
  obtain ⟨_, _, h⟩ := Res.bind_eq_ok.mp h
  obtain ⟨_, _, h⟩ := Res.bind_eq_ok.mp h
  obtain ⟨_, _, h⟩ := Res.bind_eq_ok.mp h
  obtain ⟨_, _, h⟩ := Res.bind_eq_ok.mp h
  obtain ⟨_, _, h⟩ := Res.bind_eq_ok.mp h
  dsimp only at h
  split at h
  · cases h; rfl
  · obtain ⟨_, _, h⟩ := Res.bind_eq_ok.mp h
    cases h

/-- from the two cases of `pass` to what the loop needs -/
theorem pass_split {sq : K → K} {L : Lib (Ext K)} {cfg : Cfg (Ext K)} {m iter : Nat} {singular : Bool}
    {sb : St (Ext K) → List (List (Ext K))}
    {body : (k : Nat) → (S : List (Ext K)) → (prev : St (Ext K)) → Nat → St (Ext K) →
      Res (Sum (Out (Ext K)) (St (Ext K) × Ext K))}
    {s : St (Ext K)} {p : Pass (Ext K)} {I : St (Ext K) → Prop} {Q : Out (Ext K) → Prop}
    (h : pass (Ext.num sq) L cfg m iter singular sb body s = .ok p)
    (hp : ∀ (k : Nat) (lb ub : Int), passWith (Ext.num sq) L cfg m iter k lb ub sb body s = .ok p →
      p.Holds (fun o => o.status = RESIDUAL_NAN ∨ (o.status = SUCCESS ∧ Q o)) I) :
    p.Holds (fun o => o.status = SUCCESS → Q o) I := by
  have := by
    unfold pass at h
    split at h
    · exact hp _ _ _ h
    · exact hp _ _ _ h
  cases p with
  | done o =>
    rcases this with h1 | ⟨_, h2⟩
    · intro h3; rw [h1] at h3; exact absurd h3 (by decide)
    · exact fun _ => h2
  | restart s' => exact this
  | next s' r => exact this

/-- **C70**: if `LOBPCG::solve` for the standard problem returns success, then the `m` numbers in `l` and
the `m` rows of `x` are finite, each row is a vector divided by its Euclidean norm, and for each pair the preconditioned
residual `P (A v - λ v)` has norm less than the tolerance, whatever `sygvd` returned and however many
iterations were made. -/
theorem C70_lobpcg_standard_success {sq : K → K} (hn : 0 < n)
    {L : Lib (Ext K)} {cfg : Cfg (Ext K)} {tol : K} (htol : cfg.tol = .fin tol)
    {A : Mat (Ext K)} (hA : IsMat A Ext.fin M)
    {pc : List (Ext K) → Res (List (Ext K))} {P : (Fin n → K) → Fin n → K} (hpc : Strict pc P)
    {l : List (Ext K)} {xin : List (List (Ext K))} {xcol : Nat} {rs : Option (List (List (Ext K)))}
    (hrs : ∀ r, rs = some r → l.length ≤ r.length) {fuel : Nat} {out : Out (Ext K)}
    (h : standard (Ext.num sq) L cfg A (.ok pc) l xin xcol rs fuel = some (.ok out))
    (hs : out.status = SUCCESS) :
    Pairs sq (fun lam v => P (M *ᵥ v - lam • v)) tol out.l out.x l.length := by
  unfold standard at h
  dsimp only at h
  rw [hA.col] at h
  split at h
  rotate_left
  · cases h
  · cases h
  · cases h
  rename_i pc' s hinit
  split at hinit
  · cases hinit
  split at hinit
  · cases hinit
  rename_i hcol hlen
  obtain ⟨pc'', hpc'', hinit⟩ := Res.bind_eq_ok.mp hinit
  cases hpc''
  obtain ⟨t, ht, hinit⟩ := Res.bind_eq_ok.mp hinit
  cases hinit
  obtain ⟨ht1, ht2⟩ := mapRes_spec ht
  have hxl : (initial (Ext.num sq) l.length rs xin).length = l.length := by
    unfold initial
    cases rs with
    | none => simp; omega
    | some r => have := hrs r rfl; simp; omega
  have hI : Good' (fun s => FamRel M s.F s.G) l.length
      { F := ⟨t.map (fun v => v.2.1), initial (Ext.num sq) l.length rs xin,
          List.replicate l.length (List.replicate n (Ext.num sq).zero)⟩
        G := ⟨t.map (fun v => v.2.2), t.map (fun v => v.1),
          List.replicate l.length (List.replicate n (Ext.num sq).zero)⟩
        H := ⟨[], [], []⟩
        l := l
        lam := List.replicate (3 * l.length) (Ext.num sq).zero } := by
    have hcomp : ∀ (j : Nat) v, t[j]? = some v → Rel M v.2.1 v.2.2 ∧
        ∀ x, (initial (Ext.num sq) l.length rs xin)[j]? = some x → Rel M x v.1 := by
      intro j v hv
      obtain ⟨x, hx, hiv⟩ := ht2 j v hv
      unfold initVec at hiv
      obtain ⟨X, hX, hiv⟩ := Res.bind_eq_ok.mp hiv
      obtain ⟨mu, hmu, hiv⟩ := Res.bind_eq_ok.mp hiv
      obtain ⟨w, hw, hiv⟩ := Res.bind_eq_ok.mp hiv
      obtain ⟨W, hW, hiv⟩ := Res.bind_eq_ok.mp hiv
      cases hiv
      refine ⟨rel_mvInto hA.mv hW, ?_⟩
      intro y hy
      rw [hx] at hy
      cases hy
      exact rel_mvInto hA.mv hX
    refine ⟨⟨?_, ?_, zeros_rel _⟩, hxl, rfl⟩
    · intro j u U hu hU
      simp only [List.getElem?_map, Option.map_eq_some_iff] at hu hU
      obtain ⟨v, hv, rfl⟩ := hu
      obtain ⟨v', hv', rfl⟩ := hU
      rw [hv] at hv'
      cases hv'
      exact (hcomp j v hv).1
    · intro j u U hu hU
      simp only [List.getElem?_map, Option.map_eq_some_iff] at hu hU
      obtain ⟨v', hv', rfl⟩ := hU
      exact (hcomp j v' hv').2 u hu
  have key := loop_ok (Inv := Good' (fun s => FamRel M s.F s.G) l.length) (cfg := cfg)
    (Q := fun o => o.status = SUCCESS →
      Pairs sq (fun lam v => P (M *ᵥ v - lam • v)) tol o.l o.x l.length)
    (body := fun iter singular s => pass (Ext.num sq) L cfg l.length iter singular (fun s => s.F.rows)
      (fun k S prev => column (Ext.num sq) A pc l.length n k S iter prev) s)
    (by
      intro iter singular z p hz hb
      exact pass_split hb (fun k lb ub hb => passWith_ok (M := M) sq (P := P)
        (Inv := fun s => FamRel M s.F s.G) (fun _ _ hh => hh) htol
        (fun k S prev i z z' r hp hz hc => column_ok sq hn hA.mv hpc hp hz hc)
        (fun k S prev i z o hc => column_inl hc) hz hb))
    (by intro o h1 h2; rw [h1] at h2; exact absurd h2 (by decide))
    fuel 0 false _ _ out hI h
  exact key hs

end Verif.Lobpcg
