import Verif.Props.LobpcgRitz
import Verif.Props.LobpcgCases

/-! C119: the theorems about the two solvers. -/

namespace Verif.Lobpcg

open Spec Solver Lapack Matrix

variable {K : Type} [Field K] [LinearOrder K] [IsStrictOrderedRing K] {n : Nat} {M Q : Matrix (Fin n) (Fin n) K}

/-- the first vectors are no better than those the solver starts from: random vectors are only scaled -/
theorem start_better (sq : K → K) (hn : 0 < n) {m : Nat} {rs : Option (List (List (Ext K)))}
    {xin : List (List (Ext K))} (hx : xin.length = m) {v : Fin m → Fin n → K}
    (hv : initial (Ext.num sq) m rs xin = List.ofFn (fun i => vec Ext.fin (v i))) {lam : Fin m → K}
    (h : Improves M Q Ext.fin (initial (Ext.num sq) m rs xin) lam) :
    Improves M Q Ext.fin (startOf m rs xin) lam := by
  cases rs with
  | none =>
    have : initial (Ext.num sq) m none xin = startOf m none xin := by
      simp only [initial, startOf]
      exact List.take_of_length_le (by omega)
    rw [← this]
    exact h
  | some rs =>
    intro i r u ρ hinj hu hq
    have key : ∀ j, ∃ c : K, (initial (Ext.num sq) m (some rs) xin)[r j]? = some (vec Ext.fin (c • u j)) := by
      intro j
      have h1 : (initial (Ext.num sq) m (some rs) xin)[r j]? = some (scal (Ext.num sq)
          ((Ext.num sq).div (Ext.num sq).one ((Ext.num sq).nrm2 (vec Ext.fin (u j)))) (vec Ext.fin (u j))) := by
        simp only [initial, List.getElem?_map]
        have := hu j
        simp only [startOf] at this
        rw [this]
        rfl
      have h2 := h1
      rw [hv] at h2
      have hlt : r j < m := by
        by_contra hge
        rw [List.getElem?_eq_none (by simp; omega)] at h2
        cases h2
      simp only [List.getElem?_ofFn, hlt, dif_pos, Option.some.injEq] at h2
      obtain ⟨u', c, e1, _, e2⟩ := scaled sq hn h2.symm
      refine ⟨c, ?_⟩
      rw [h1, ← h2, e2, vec_inj e1]
    choose c hc using key
    refine h i r (fun j => c j • u j) ρ hinj hc ?_
    intro d
    have := hq (fun j => d j * c j)
    simp only [smul_smul]
    exact this

theorem zeros_brel (m : Nat) :
    BRel M m (List.replicate m (List.replicate n (Ext.fin (0 : K)))) (List.replicate m (List.replicate n (Ext.fin (0 : K)))) := by
  refine ⟨by simp, by simp, ?_⟩
  intro j u U h h'
  rw [List.getElem?_replicate] at h h'
  split at h
  · rename_i hj
    rw [if_pos hj] at h'
    cases h; cases h'
    exact SRel.zero
  · cases h

theorem SRel.self (u : List (Ext K)) : SRel (n := n) 1 u u := by
  intro v hv
  rw [Matrix.one_mulVec]; exact hv

theorem SFam.self {m : Nat} {f g : Fam (Ext K)} (h : SFam M m f g) : SFam (n := n) 1 m f f :=
  ⟨⟨h.w.l1, h.w.l1, fun j u U h1 h2 => by rw [h1] at h2; cases h2; exact SRel.self _⟩,
   ⟨h.x.l1, h.x.l1, fun j u U h1 h2 => by rw [h1] at h2; cases h2; exact SRel.self _⟩,
   ⟨h.p.l1, h.p.l1, fun j u U h1 h2 => by rw [h1] at h2; cases h2; exact SRel.self _⟩⟩

/-- both cases of `pass` -/
theorem pass_ritz (sq : K → K) (hn : 0 < n) (hM : Mᵀ = M) (hQ : Qᵀ = Q) {m : Nat} {L : Lib (Ext K)} (hL : Dsygvd L)
    {hf : St (Ext K) → Fam (Ext K)} (hlam : ∀ s lam, hf { s with lam := lam } = hf s)
    {cfg : Cfg (Ext K)} {iter : Nat} {singular : Bool}
    {body : (k : Nat) → (S : List (Ext K)) → (prev : St (Ext K)) → Nat → St (Ext K) →
      Res (Sum (Out (Ext K)) (St (Ext K) × Ext K))}
    (hbody : ∀ k S prev i s s' r, Inv0 M Q hf m prev → Inv0 M Q hf m s → body k S prev i s = .ok (.inr (s', r)) →
      (Inv0 M Q hf m s' ∧ s'.lam = s.lam) ∧ ∃ x li, s'.F.x = s.F.x.set i x ∧ s'.l = s.l.set i li ∧
        ColC sq n m k S prev.F s.lam i x li)
    (hnan : ∀ k S prev i s o, body k S prev i s = .ok (.inl o) → o.status = RESIDUAL_NAN)
    {s : St (Ext K)} (hs : Base M Q hf m s) {p : Pass (Ext K)}
    (h : pass (Ext.num sq) (loud m L) cfg m iter singular (fun s => (hf s).rows) body s = .ok p) :
    PassFine M Q hf m s p := by
  unfold pass at h
  split at h
  · exact passWith_ritz sq hn hM hQ (loud_ok m hL) hlam (by omega) (by omega) (by push_cast; omega) (by push_cast; omega)
      (fun a b => loud_quiet m _ L a b) (hbody _) (hnan _) hs h
  · exact passWith_ritz sq hn hM hQ (loud_ok m hL) hlam (by omega) (by omega) (by push_cast; omega) (by push_cast; omega)
      (fun a b => loud_quiet m _ L a b) (hbody _) (hnan _) hs h

/-- the state in which the loop starts does not depend on LAPACK, the settings or the number of passes allowed -/
theorem standard_init {sq : K → K} (hn : 0 < n) {A : Mat (Ext K)} (hA : IsMat A Ext.fin M)
    {L : Lib (Ext K)} {cfg : Cfg (Ext K)} {create : Res (List (Ext K) → Res (List (Ext K)))}
    {l : List (Ext K)} {xin : List (List (Ext K))} {xcol : Nat} {rs : Option (List (List (Ext K)))}
    (hrs : ∀ r, rs = some r → l.length ≤ r.length) {fuel : Nat} {out : Out (Ext K)}
    (h : standard (Ext.num sq) L cfg A create l xin xcol rs fuel = some (.ok out)) :
    ∃ (pc : List (Ext K) → Res (List (Ext K))) (s : St (Ext K)),
      (∀ (L : Lib (Ext K)) (cfg : Cfg (Ext K)) (fuel : Nat),
        standard (Ext.num sq) L cfg A create l xin xcol rs fuel =
          loop cfg (fun iter singular s => pass (Ext.num sq) L cfg l.length iter singular (fun s => s.F.rows)
            (fun k S prev => column (Ext.num sq) A pc l.length n k S iter prev) s) fuel 0 false (Ext.num sq).zero s) ∧
      LInv M 1 St.F l.length (startOf l.length rs xin) 0 s ∧ create = .ok pc := by
  unfold standard at h
  dsimp only at h
  rw [hA.col] at h
  split at h
  rotate_left
  · cases h
  · cases h
  · cases h
  rename_i pc s hinit
  have hinit0 := hinit
  split at hinit
  · cases hinit
  split at hinit
  · cases hinit
  rename_i hcol hlen
  obtain ⟨pc', hpc', hinit⟩ := Res.bind_eq_ok.mp hinit
  obtain ⟨t, ht, hinit⟩ := Res.bind_eq_ok.mp hinit
  injection hinit with hinit
  obtain ⟨hpc0, hs0⟩ := Prod.mk.inj hinit
  obtain ⟨ht1, ht2⟩ := mapRes_spec ht
  have hxl : (initial (Ext.num sq) l.length rs xin).length = l.length := by
    unfold initial
    cases rs with
    | none => simp; omega
    | some r => have := hrs r rfl; simp; omega
  have hcomp : ∀ (j : Nat) v, t[j]? = some v → SRel M v.2.1 v.2.2 ∧
      ∀ x, (initial (Ext.num sq) l.length rs xin)[j]? = some x → SRel M x v.1 := by
    intro j v hv
    obtain ⟨x, hx, hiv⟩ := ht2 j v hv
    unfold initVec at hiv
    obtain ⟨X, hX, hiv⟩ := Res.bind_eq_ok.mp hiv
    obtain ⟨mu, hmu, hiv⟩ := Res.bind_eq_ok.mp hiv
    obtain ⟨w, hw, hiv⟩ := Res.bind_eq_ok.mp hiv
    obtain ⟨W, hW, hiv⟩ := Res.bind_eq_ok.mp hiv
    cases hiv
    refine ⟨srel_mvInto hA.mv hW, ?_⟩
    intro y hy
    rw [hx] at hy
    cases hy
    exact srel_mvInto hA.mv hX
  have hfam : SFam M l.length
      ⟨t.map (fun v => v.2.1), initial (Ext.num sq) l.length rs xin,
        List.replicate l.length (List.replicate n (Ext.num sq).zero)⟩
      ⟨t.map (fun v => v.2.2), t.map (fun v => v.1),
        List.replicate l.length (List.replicate n (Ext.num sq).zero)⟩ := by
    refine ⟨⟨by simp [ht1, hxl], by simp [ht1, hxl], ?_⟩, ⟨hxl, by simp [ht1, hxl], ?_⟩, zeros_brel _⟩
    · intro j u U hu hU
      simp only [List.getElem?_map, Option.map_eq_some_iff] at hu hU
      obtain ⟨v, hv, rfl⟩ := hu
      obtain ⟨v', hv', rfl⟩ := hU
      rw [hv] at hv'
      cases hv'
      exact (hcomp j v hv).1
    · intro j u U hu hU
      simp only [List.getElem?_map, Option.map_eq_some_iff] at hu hU
      obtain ⟨v', hv', rfl⟩ := hU
      exact (hcomp j v' hv').2 u hu
  refine ⟨pc, s, fun L cfg fuel => ?_, ?_⟩
  · unfold standard
    dsimp only
    rw [hA.col, hinit0]
  · rw [← hs0, ← hpc0]
    refine ⟨?_, hpc'⟩
    exact ⟨⟨⟨hfam, hfam.self⟩, rfl⟩, fun v hv lam hl => start_better sq hn (by omega) hv hl, fun h0 => absurd h0 (by omega)⟩

/-- a pass of the solver for the standard problem -/
theorem standard_pass {sq : K → K} (hn : 0 < n) {A : Mat (Ext K)} (hA : IsMat A Ext.fin M) (hM : Mᵀ = M)
    {L : Lib (Ext K)} (hL : Dsygvd L) {cfg : Cfg (Ext K)} {m : Nat} {pc : List (Ext K) → Res (List (Ext K))}
    (iter : Nat) (singular : Bool) (s : St (Ext K)) (p : Pass (Ext K)) (hs : Base M 1 St.F m s)
    (h : pass (Ext.num sq) (loud m L) cfg m iter singular (fun s => s.F.rows)
      (fun k S prev => column (Ext.num sq) A pc m n k S iter prev) s = .ok p) : PassFine M 1 St.F m s p := by
  refine pass_ritz sq hn hM (Matrix.transpose_one) hL (fun _ _ => rfl) ?_
    (fun k S prev i z o hc => column_inl hc) hs h
  intro k S prev i z z' r hp hz hc
  obtain ⟨w, x, p, W, X, P, li, rfl, r1, r2, r3, hcc⟩ := column_c sq hn hA.mv hp.im hc
  have hput := hz.im.put (i := i) r1 r2 r3
  exact ⟨⟨⟨hput, hput.self⟩, rfl⟩, x, li, rfl, rfl, hcc⟩

/-- **C119**, standard problem: let the matrix be symmetric and let LAPACK work as documented. If LOBPCG returns with
any code but `RESIDUAL_NAN`, after at least one iteration, with finite vectors, and LAPACK reported no error that the
solver ignores, then the numbers are the Rayleigh quotients of the vectors, in ascending order, the vectors are not zero
and orthogonal to one another, and number `i` is at most the largest Rayleigh quotient on any space spanned by `i + 1`
of the vectors the solver started from. The part about ignored errors is what is missing from the full property:
`C119_not_without_error`. -/
theorem C119_lobpcg_standard_partial {sq : K → K} (hn : 0 < n)
    {A : Mat (Ext K)} (hA : IsMat A Ext.fin M) (hM : Mᵀ = M) {L : Lib (Ext K)} (hL : Dsygvd L)
    {cfg : Cfg (Ext K)} (hmax : 0 < cfg.maxiter) {create : Res (List (Ext K) → Res (List (Ext K)))}
    {l : List (Ext K)} {xin : List (List (Ext K))} {xcol : Nat} {rs : Option (List (List (Ext K)))}
    (hrs : ∀ r, rs = some r → l.length ≤ r.length) {fuel : Nat} {out : Out (Ext K)}
    (h : standard (Ext.num sq) L cfg A create l xin xcol rs fuel = some (.ok out))
    (hheard : standard (Ext.num sq) (loud l.length L) cfg A create l xin xcol rs fuel ≠
      some (.throw "internal LAPACK sygvd returned error"))
    (hst : out.status ≠ RESIDUAL_NAN)
    {v : Fin l.length → Fin n → K} (hx : out.x = List.ofFn fun i => vec Ext.fin (v i)) :
    ∃ lam : Fin l.length → K, out.l = List.ofFn (fun i => Ext.fin (lam i)) ∧ RitzPairs M 1 lam v ∧
      Improves M 1 Ext.fin (startOf l.length rs xin) lam := by
  have h : standard (Ext.num sq) (loud l.length L) cfg A create l xin xcol rs fuel = some (.ok out) := by
    rcases standard_loud (Ext.num sq) L cfg A create l xin xcol rs fuel with e | e
    · rw [e]; exact h
    · exact absurd e hheard
  clear hheard
  obtain ⟨pc, s, hrun, hI, _⟩ := standard_init hn hA hrs h
  rw [hrun] at h
  exact loop_ritz hmax (fun iter singular s p hs hp => standard_pass hn hA hM hL iter singular s p hs hp)
    fuel 0 false _ s out hI h hst v hx

/-- the same for the generalised problem -/
theorem generalized_init {sq : K → K} (hn : 0 < n) {A B : Mat (Ext K)} (hA : IsMat A Ext.fin M) (hB : IsMat B Ext.fin Q)
    {L : Lib (Ext K)} {cfg : Cfg (Ext K)} {create : Res (List (Ext K) → Res (List (Ext K)))}
    {l : List (Ext K)} {xin : List (List (Ext K))} {xcol : Nat} {itype : Int} {rs : Option (List (List (Ext K)))}
    (hrs : ∀ r, rs = some r → l.length ≤ r.length) {fuel : Nat} {out : Out (Ext K)}
    (h : generalized (Ext.num sq) L cfg A B create l xin xcol itype rs fuel = some (.ok out)) :
    ∃ (pc : List (Ext K) → Res (List (Ext K))) (s : St (Ext K)),
      (∀ (L : Lib (Ext K)) (cfg : Cfg (Ext K)) (fuel : Nat),
        generalized (Ext.num sq) L cfg A B create l xin xcol itype rs fuel =
          loop cfg (fun iter singular s => pass (Ext.num sq) L cfg l.length iter singular (fun s => s.H.rows)
            (fun k S prev => gcolumn (Ext.num sq) A B pc l.length n k S iter prev) s) fuel 0 false
              (Ext.num sq).zero s) ∧
      LInv M Q St.H l.length (startOf l.length rs xin) 0 s := by
  unfold generalized at h
  dsimp only at h
  rw [hA.col] at h
  split at h
  rotate_left
  · cases h
  · cases h
  · cases h
  rename_i pc s hinit
  have hinit0 := hinit
  obtain ⟨_, _, hinit⟩ := Res.bind_eq_ok.mp hinit
  split at hinit
  · cases hinit
  split at hinit
  · cases hinit
  split at hinit
  · cases hinit
  rename_i hcol hshape hlen
  obtain ⟨pc', hpc', hinit⟩ := Res.bind_eq_ok.mp hinit
  obtain ⟨t, ht, hinit⟩ := Res.bind_eq_ok.mp hinit
  injection hinit with hinit
  obtain ⟨_, hs0⟩ := Prod.mk.inj hinit
  obtain ⟨ht1, ht2⟩ := mapRes_spec ht
  have hxl : (initial (Ext.num sq) l.length rs xin).length = l.length := by
    unfold initial
    cases rs with
    | none => simp; omega
    | some r => have := hrs r rfl; simp; omega
  have hcomp : ∀ (j : Nat) v, t[j]? = some v → (SRel M v.2.2.1 v.2.2.2.1 ∧ SRel Q v.2.2.1 v.2.2.2.2) ∧
      ∀ x, (initial (Ext.num sq) l.length rs xin)[j]? = some x → SRel M x v.1 ∧ SRel Q x v.2.1 := by
    intro j v hv
    obtain ⟨x, hx, hiv⟩ := ht2 j v hv
    unfold ginitVec at hiv
    obtain ⟨X, hX, hiv⟩ := Res.bind_eq_ok.mp hiv
    obtain ⟨BX, hBX, hiv⟩ := Res.bind_eq_ok.mp hiv
    obtain ⟨muA, hmuA, hiv⟩ := Res.bind_eq_ok.mp hiv
    obtain ⟨muB, hmuB, hiv⟩ := Res.bind_eq_ok.mp hiv
    obtain ⟨w, hw, hiv⟩ := Res.bind_eq_ok.mp hiv
    obtain ⟨W, hW, hiv⟩ := Res.bind_eq_ok.mp hiv
    obtain ⟨BW, hBW, hiv⟩ := Res.bind_eq_ok.mp hiv
    cases hiv
    refine ⟨⟨srel_mvInto hA.mv hW, srel_mvInto hB.mv hBW⟩, ?_⟩
    intro y hy
    rw [hx] at hy
    cases hy
    exact ⟨srel_mvInto hA.mv hX, srel_mvInto hB.mv hBX⟩
  have hfam : SFam M l.length
      ⟨t.map (fun v => v.2.2.1), initial (Ext.num sq) l.length rs xin,
        List.replicate l.length (List.replicate n (Ext.num sq).zero)⟩
      ⟨t.map (fun v => v.2.2.2.1), t.map (fun v => v.1),
        List.replicate l.length (List.replicate n (Ext.num sq).zero)⟩ := by
    refine ⟨⟨by simp [ht1, hxl], by simp [ht1, hxl], ?_⟩, ⟨hxl, by simp [ht1, hxl], ?_⟩, zeros_brel _⟩
    · intro j u U hu hU
      simp only [List.getElem?_map, Option.map_eq_some_iff] at hu hU
      obtain ⟨v, hv, rfl⟩ := hu
      obtain ⟨v', hv', rfl⟩ := hU
      rw [hv] at hv'
      cases hv'
      exact (hcomp j v hv).1.1
    · intro j u U hu hU
      simp only [List.getElem?_map, Option.map_eq_some_iff] at hu hU
      obtain ⟨v', hv', rfl⟩ := hU
      exact ((hcomp j v' hv').2 u hu).1
  have hfamB : SFam Q l.length
      ⟨t.map (fun v => v.2.2.1), initial (Ext.num sq) l.length rs xin,
        List.replicate l.length (List.replicate n (Ext.num sq).zero)⟩
      ⟨t.map (fun v => v.2.2.2.2), t.map (fun v => v.2.1),
        List.replicate l.length (List.replicate n (Ext.num sq).zero)⟩ := by
    refine ⟨⟨by simp [ht1, hxl], by simp [ht1, hxl], ?_⟩, ⟨hxl, by simp [ht1, hxl], ?_⟩, zeros_brel _⟩
    · intro j u U hu hU
      simp only [List.getElem?_map, Option.map_eq_some_iff] at hu hU
      obtain ⟨v, hv, rfl⟩ := hu
      obtain ⟨v', hv', rfl⟩ := hU
      rw [hv] at hv'
      cases hv'
      exact (hcomp j v hv).1.2
    · intro j u U hu hU
      simp only [List.getElem?_map, Option.map_eq_some_iff] at hu hU
      obtain ⟨v', hv', rfl⟩ := hU
      exact ((hcomp j v' hv').2 u hu).2
  refine ⟨pc, s, fun L cfg fuel => ?_, ?_⟩
  · unfold generalized
    dsimp only
    rw [hA.col, hinit0]
  · rw [← hs0]
    exact ⟨⟨⟨hfam, hfamB⟩, rfl⟩, fun v hv lam hl => start_better sq hn (by omega) hv hl, fun h0 => absurd h0 (by omega)⟩

/-- a pass of the solver for the generalised problem -/
theorem generalized_pass {sq : K → K} (hn : 0 < n) {A B : Mat (Ext K)} (hA : IsMat A Ext.fin M)
    (hB : IsMat B Ext.fin Q) (hM : Mᵀ = M) (hQ : Qᵀ = Q)
    {L : Lib (Ext K)} (hL : Dsygvd L) {cfg : Cfg (Ext K)} {m : Nat} {pc : List (Ext K) → Res (List (Ext K))}
    (iter : Nat) (singular : Bool) (s : St (Ext K)) (p : Pass (Ext K)) (hs : Base M Q St.H m s)
    (h : pass (Ext.num sq) (loud m L) cfg m iter singular (fun s => s.H.rows)
      (fun k S prev => gcolumn (Ext.num sq) A B pc m n k S iter prev) s = .ok p) : PassFine M Q St.H m s p := by
  refine pass_ritz sq hn hM hQ hL (fun _ _ => rfl) ?_ (fun k S prev i z o hc => gcolumn_inl hc) hs h
  intro k S prev i z z' r hp hz hc
  obtain ⟨w, x, p, W, X, P, BW, BX, BP, li, rfl, ⟨r1, r2, r3⟩, ⟨q1, q2, q3⟩, hcc⟩ :=
    gcolumn_c sq hn hA.mv hB.mv hp.im hp.iq hc
  exact ⟨⟨⟨hz.im.put r1 r2 r3, hz.iq.put q1 q2 q3⟩, rfl⟩, x, li, rfl, rfl, hcc⟩

/-- **C119**, generalised problem `A x = λ B x` with symmetric `A` and `B`. -/
theorem C119_lobpcg_generalized_partial {sq : K → K} (hn : 0 < n)
    {A B : Mat (Ext K)} (hA : IsMat A Ext.fin M) (hB : IsMat B Ext.fin Q) (hM : Mᵀ = M) (hQ : Qᵀ = Q)
    {L : Lib (Ext K)} (hL : Dsygvd L)
    {cfg : Cfg (Ext K)} (hmax : 0 < cfg.maxiter) {create : Res (List (Ext K) → Res (List (Ext K)))}
    {l : List (Ext K)} {xin : List (List (Ext K))} {xcol : Nat} {itype : Int} {rs : Option (List (List (Ext K)))}
    (hrs : ∀ r, rs = some r → l.length ≤ r.length) {fuel : Nat} {out : Out (Ext K)}
    (h : generalized (Ext.num sq) L cfg A B create l xin xcol itype rs fuel = some (.ok out))
    (hheard : generalized (Ext.num sq) (loud l.length L) cfg A B create l xin xcol itype rs fuel ≠
      some (.throw "internal LAPACK sygvd returned error"))
    (hst : out.status ≠ RESIDUAL_NAN)
    {v : Fin l.length → Fin n → K} (hx : out.x = List.ofFn fun i => vec Ext.fin (v i)) :
    ∃ lam : Fin l.length → K, out.l = List.ofFn (fun i => Ext.fin (lam i)) ∧ RitzPairs M Q lam v ∧
      Improves M Q Ext.fin (startOf l.length rs xin) lam := by
  have h : generalized (Ext.num sq) (loud l.length L) cfg A B create l xin xcol itype rs fuel = some (.ok out) := by
    rcases generalized_loud (Ext.num sq) L cfg A B create l xin xcol itype rs fuel with e | e
    · rw [e]; exact h
    · exact absurd e hheard
  clear hheard
  obtain ⟨pc, s, hrun, hI⟩ := generalized_init hn hA hB hrs h
  rw [hrun] at h
  exact loop_ritz hmax (fun iter singular s p hs hp => generalized_pass hn hA hB hM hQ hL iter singular s p hs hp)
    fuel 0 false _ s out hI h hst v hx

end Verif.Lobpcg
