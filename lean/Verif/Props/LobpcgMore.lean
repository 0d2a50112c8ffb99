import Verif.Props.LobpcgImprovesCases

/-! C119: more iterations never give larger numbers. -/

namespace Verif.Lobpcg

open Spec Solver Lapack Matrix

variable {K : Type} [Field K] [LinearOrder K] [IsStrictOrderedRing K] {n : Nat} {M Q : Matrix (Fin n) (Fin n) K}

/-- Ritz values are as good as their own vectors -/
theorem improves_self {m : Nat} {lam : Fin m → K} {v : Fin m → Fin n → K} (hr : RitzPairs M Q lam v) :
    Improves M Q Ext.fin (List.ofFn fun i => vec Ext.fin (v i)) lam := by
  intro i r u ρ hinj hu hq
  have hrm : ∀ j, r j < m := by
    intro j
    have h1 := hu j
    by_contra hge
    rw [List.getElem?_eq_none (by simp; omega)] at h1
    cases h1
  have hge : ∃ j, (i : Nat) ≤ r j := by
    by_contra hno
    have hlt : ∀ j, r j < i := fun j => by
      by_contra hh
      exact hno ⟨j, by omega⟩
    have hf : Function.Injective (fun j : Fin ((i : Nat) + 1) => (⟨r j, hlt j⟩ : Fin i)) := by
      intro a b hab
      exact hinj (congrArg Fin.val hab)
    have := Fintype.card_le_of_injective _ hf
    simp at this
  obtain ⟨j, hj⟩ := hge
  have huv : u j = v ⟨r j, hrm j⟩ := by
    have h1 := hu j
    simp only [List.getElem?_ofFn, hrm j, dif_pos, Option.some.injEq] at h1
    exact (vec_inj h1).symm
  have h1 := hq (Pi.single j 1)
  have e : ∑ a, (Pi.single j 1 : Fin ((i : Nat) + 1) → K) a • u a = u j := by
    rw [Finset.sum_eq_single j]
    · simp
    · intro b _ hb; simp [hb]
    · intro hb; exact absurd (Finset.mem_univ _) hb
  rw [e, huv, hr.quot] at h1
  exact le_trans (hr.sorted i ⟨r j, hrm j⟩ hj) (le_of_mul_le_mul_right h1 (hr.pos _))

/-- Two runs of the loop that differ in the limit: the results are the same, or the run with the smaller limit has
reached it, and the other one goes on from there. -/
theorem loop_more {hf : St (Ext K) → Fam (Ext K)} {m : Nat} {start : List (List (Ext K))} {cfg cfg' : Cfg (Ext K)}
    (hle : cfg.maxiter ≤ cfg'.maxiter)
    {body : (iter : Nat) → (singular : Bool) → St (Ext K) → Res (Pass (Ext K))}
    (hbody : ∀ iter singular s p, Base M Q hf m s → body iter singular s = .ok p → PassFine M Q hf m s p) :
    ∀ (fuel fuel' iter : Nat) (sg : Bool) (r r' : Ext K) (s : St (Ext K)) (o o' : Out (Ext K)),
      LInv M Q hf m start iter s → loop cfg body fuel iter sg r s = some (.ok o) →
      loop cfg' body fuel' iter sg r' s = some (.ok o') →
      (o.x = o'.x ∧ o.l = o'.l) ∨ ∃ (fuel1 iter1 : Nat) (sg1 : Bool) (r1 : Ext K) (s1 : St (Ext K)),
        cfg.maxiter ≤ iter1 ∧ LInv M Q hf m start iter1 s1 ∧ o.x = s1.F.x ∧ o.l = s1.l ∧
        loop cfg' body fuel1 iter1 sg1 r1 s1 = some (.ok o')
  | 0, _, _, _, _, _, _, _, _, _, h, _ => by simp [loop] at h
  | _ + 1, 0, _, _, _, _, _, _, _, _, _, h => by simp [loop] at h
  | fuel + 1, fuel' + 1, iter, sg, r, r', s, o, o', hs, h, h' => by
    have h'0 := h'
    rw [loop] at h h'
    split at h
    · rename_i hlt
      rw [if_pos (by omega)] at h'
      cases hb : body iter sg s with
      | ok p =>
        have hp := hbody iter sg s p hs.base hb
        rw [hb] at h h'
        cases p with
        | done q => cases h; cases h'; exact Or.inl ⟨rfl, rfl⟩
        | restart s' =>
          obtain ⟨h1, h2, h3⟩ := hp
          exact loop_more hle hbody fuel fuel' _ _ _ _ s' o o'
            ⟨h1, by rw [h2]; exact hs.better, by rw [h2, h3]; exact hs.fine⟩ h h'
        | next s' q =>
          obtain ⟨h1, h2⟩ := hp
          have up : ∀ v : Fin m → Fin n → K, s'.F.x = List.ofFn (fun i => vec Ext.fin (v i)) →
              ∃ lam : Fin m → K, s'.l = List.ofFn (fun i => Ext.fin (lam i)) ∧ RitzPairs M Q lam v ∧
                Improves M Q Ext.fin start lam := by
            intro v hv
            obtain ⟨lam, g1, g2, g3, v0, g4⟩ := h2 v hv
            exact ⟨lam, g1, g2, hs.better v0 g4 lam g3⟩
          refine loop_more hle hbody fuel fuel' _ _ _ _ s' o o' ⟨h1, ?_, fun _ => up⟩ h h'
          intro v hv lam hl
          obtain ⟨lam0, _, h4, h5⟩ := up v hv
          rw [hv] at hl
          exact improves_trans h4 h5 hl
      | throw e => rw [hb] at h; cases h
      | abort e => rw [hb] at h; cases h
      | ub e => rw [hb] at h; cases h
    · rename_i hge
      cases h
      exact Or.inr ⟨fuel' + 1, iter, sg, r', s, by omega, hs, rfl, rfl, h'0⟩

/-- the numbers of the longer run are not larger -/
theorem more_le {hf : St (Ext K) → Fam (Ext K)} {m : Nat} {start : List (List (Ext K))} {cfg cfg' : Cfg (Ext K)}
    (hmax : 0 < cfg.maxiter) (hle : cfg.maxiter ≤ cfg'.maxiter)
    {body : (iter : Nat) → (singular : Bool) → St (Ext K) → Res (Pass (Ext K))}
    (hbody : ∀ iter singular s p, Base M Q hf m s → body iter singular s = .ok p → PassFine M Q hf m s p)
    {fuel fuel' : Nat} {r : Ext K} {s : St (Ext K)} {o o' : Out (Ext K)} (hs : LInv M Q hf m start 0 s)
    (h : loop cfg body fuel 0 false r s = some (.ok o)) (h' : loop cfg' body fuel' 0 false r s = some (.ok o'))
    (hst : o.status ≠ RESIDUAL_NAN) (hst' : o'.status ≠ RESIDUAL_NAN)
    {v v' : Fin m → Fin n → K} (hx : o.x = List.ofFn fun i => vec Ext.fin (v i))
    (hx' : o'.x = List.ofFn fun i => vec Ext.fin (v' i)) :
    ∃ lam lam' : Fin m → K, o.l = List.ofFn (fun i => Ext.fin (lam i)) ∧ o'.l = List.ofFn (fun i => Ext.fin (lam' i)) ∧
      ∀ i, lam' i ≤ lam i := by
  obtain ⟨lam, h1, h2, h3⟩ := loop_ritz hmax hbody fuel 0 false r s o hs h hst v hx
  rcases loop_more hle hbody fuel fuel' 0 false r r s o o' hs h h' with ⟨e1, e2⟩ | ⟨fuel1, iter1, sg1, r1, s1, g1, g2, g3, g4, g5⟩
  · exact ⟨lam, lam, h1, by rw [← e2]; exact h1, fun i => le_refl _⟩
  · have hI : LInv M Q hf m s1.F.x iter1 s1 := by
      refine ⟨g2.base, fun _ _ _ hl => hl, fun _ w hw => ?_⟩
      obtain ⟨mu, q1, q2, _⟩ := g2.fine (by omega) w hw
      exact ⟨mu, q1, q2, by rw [hw]; exact improves_self q2⟩
    obtain ⟨lam', k1, k2, k3⟩ := loop_ritz (lt_of_lt_of_le hmax hle) hbody fuel1 iter1 sg1 r1 s1 o' hI g5 hst' v' hx'
    refine ⟨lam, lam', h1, k1, fun i => ?_⟩
    rw [← g3, hx] at k3
    exact ritz_le h2 k3 i

/-- **C119**: of two runs of LOBPCG that differ only in the maximal number of iterations, the longer one returns numbers
that are at most those of the other one (standard problem; the same hypotheses as `C119_lobpcg_standard_partial`). -/
theorem C119_more_iterations_partial {sq : K → K} (hn : 0 < n)
    {A : Mat (Ext K)} (hA : IsMat A Ext.fin M) (hM : Mᵀ = M) {L : Lib (Ext K)} (hL : Dsygvd L)
    {cfg : Cfg (Ext K)} {more : Nat} (hmax : 0 < cfg.maxiter) (hle : cfg.maxiter ≤ more)
    {create : Res (List (Ext K) → Res (List (Ext K)))}
    {l : List (Ext K)} {xin : List (List (Ext K))} {xcol : Nat} {rs : Option (List (List (Ext K)))}
    (hrs : ∀ r, rs = some r → l.length ≤ r.length) {fuel fuel' : Nat} {out out' : Out (Ext K)}
    (h : standard (Ext.num sq) L cfg A create l xin xcol rs fuel = some (.ok out))
    (h' : standard (Ext.num sq) L { cfg with maxiter := more } A create l xin xcol rs fuel' = some (.ok out'))
    (hheard : standard (Ext.num sq) (loud l.length L) cfg A create l xin xcol rs fuel ≠
      some (.throw "internal LAPACK sygvd returned error"))
    (hheard' : standard (Ext.num sq) (loud l.length L) { cfg with maxiter := more } A create l xin xcol rs fuel' ≠
      some (.throw "internal LAPACK sygvd returned error"))
    (hst : out.status ≠ RESIDUAL_NAN) (hst' : out'.status ≠ RESIDUAL_NAN)
    {v v' : Fin l.length → Fin n → K} (hx : out.x = List.ofFn fun i => vec Ext.fin (v i))
    (hx' : out'.x = List.ofFn fun i => vec Ext.fin (v' i)) :
    ∃ lam lam' : Fin l.length → K, out.l = List.ofFn (fun i => Ext.fin (lam i)) ∧
      out'.l = List.ofFn (fun i => Ext.fin (lam' i)) ∧ ∀ i, lam' i ≤ lam i := by
  have h : standard (Ext.num sq) (loud l.length L) cfg A create l xin xcol rs fuel = some (.ok out) := by
    rcases standard_loud (Ext.num sq) L cfg A create l xin xcol rs fuel with e | e
    · rw [e]; exact h
    · exact absurd e hheard
  have h' : standard (Ext.num sq) (loud l.length L) { cfg with maxiter := more } A create l xin xcol rs fuel' =
      some (.ok out') := by
    rcases standard_loud (Ext.num sq) L { cfg with maxiter := more } A create l xin xcol rs fuel' with e | e
    · rw [e]; exact h'
    · exact absurd e hheard'
  obtain ⟨pc, s, hrun, hI, _⟩ := standard_init hn hA hrs h
  rw [hrun] at h h'
  exact more_le (cfg := cfg) (cfg' := { cfg with maxiter := more }) hmax hle
    (fun iter singular s p hs hp => standard_pass hn hA hM hL iter singular s p hs hp) hI h h' hst hst' hx hx'

/-- **C119**: the same for the generalised problem. -/
theorem C119_more_iterations_generalized_partial {sq : K → K} (hn : 0 < n)
    {A B : Mat (Ext K)} (hA : IsMat A Ext.fin M) (hB : IsMat B Ext.fin Q) (hM : Mᵀ = M) (hQ : Qᵀ = Q)
    {L : Lib (Ext K)} (hL : Dsygvd L)
    {cfg : Cfg (Ext K)} {more : Nat} (hmax : 0 < cfg.maxiter) (hle : cfg.maxiter ≤ more)
    {create : Res (List (Ext K) → Res (List (Ext K)))}
    {l : List (Ext K)} {xin : List (List (Ext K))} {xcol : Nat} {itype : Int} {rs : Option (List (List (Ext K)))}
    (hrs : ∀ r, rs = some r → l.length ≤ r.length) {fuel fuel' : Nat} {out out' : Out (Ext K)}
    (h : generalized (Ext.num sq) L cfg A B create l xin xcol itype rs fuel = some (.ok out))
    (h' : generalized (Ext.num sq) L { cfg with maxiter := more } A B create l xin xcol itype rs fuel' = some (.ok out'))
    (hheard : generalized (Ext.num sq) (loud l.length L) cfg A B create l xin xcol itype rs fuel ≠
      some (.throw "internal LAPACK sygvd returned error"))
    (hheard' : generalized (Ext.num sq) (loud l.length L) { cfg with maxiter := more } A B create l xin xcol itype rs
      fuel' ≠ some (.throw "internal LAPACK sygvd returned error"))
    (hst : out.status ≠ RESIDUAL_NAN) (hst' : out'.status ≠ RESIDUAL_NAN)
    {v v' : Fin l.length → Fin n → K} (hx : out.x = List.ofFn fun i => vec Ext.fin (v i))
    (hx' : out'.x = List.ofFn fun i => vec Ext.fin (v' i)) :
    ∃ lam lam' : Fin l.length → K, out.l = List.ofFn (fun i => Ext.fin (lam i)) ∧
      out'.l = List.ofFn (fun i => Ext.fin (lam' i)) ∧ ∀ i, lam' i ≤ lam i := by
  have h : generalized (Ext.num sq) (loud l.length L) cfg A B create l xin xcol itype rs fuel = some (.ok out) := by
    rcases generalized_loud (Ext.num sq) L cfg A B create l xin xcol itype rs fuel with e | e
    · rw [e]; exact h
    · exact absurd e hheard
  have h' : generalized (Ext.num sq) (loud l.length L) { cfg with maxiter := more } A B create l xin xcol itype rs fuel' =
      some (.ok out') := by
    rcases generalized_loud (Ext.num sq) L { cfg with maxiter := more } A B create l xin xcol itype rs fuel' with e | e
    · rw [e]; exact h'
    · exact absurd e hheard'
  obtain ⟨pc, s, hrun, hI⟩ := generalized_init hn hA hB hrs h
  rw [hrun] at h h'
  exact more_le (cfg := cfg) (cfg' := { cfg with maxiter := more }) hmax hle
    (fun iter singular s p hs hp => generalized_pass hn hA hB hM hQ hL iter singular s p hs hp) hI h h' hst hst' hx hx'


/-! ### A concrete pair of runs -/

/-- a library that asks `L` first and `L'` when `L` reports an error -/
def orElse (L L' : Lib (Ext ℚ)) : Lib (Ext ℚ) :=
  { L with sygvd := fun t v u k a lda b ldb =>
      if (L.sygvd t v u k a lda b ldb).2.2.2 = 0 then L.sygvd t v u k a lda b ldb
      else L'.sygvd t v u k a lda b ldb }

theorem Dsygvd.orElse {L L' : Lib (Ext ℚ)} (h : Dsygvd L) (h' : Dsygvd L') : Dsygvd (orElse L L') := by
  intro k a b ha hb h0
  by_cases hc : (L.sygvd 1 true false k (a.map Ext.fin) k (b.map Ext.fin) k).2.2.2 = 0
  · simp only [Lobpcg.orElse, hc, if_true] at h0 ⊢
    exact h k a b ha hb hc
  · simp only [Lobpcg.orElse, hc, if_false] at h0 ⊢
    exact h' k a b ha hb h0

/-- `diag(0, 8, 5)` -/
def moreA : Crs ℚ := ⟨3, 3, [0, 1, 2, 3], [0, 1, 2], [0, 8, 5], 3, 3, true⟩

theorem moreA_safe : moreA.Safe :=
  { created := rfl, lenV := rfl, nnz_le := by decide, lenP := rfl, ptr_le := by decide,
    lenC := by decide, col_lt := by decide }

def moreSq (a : ℚ) : ℚ :=
  if a = 9216/148225 then 96/385 else if a = 16/25 then 4/5 else if a = 57600/5929 then 240/77 else
  if a = 5625/5929 then 75/77 else a

/-- the answers of LAPACK to the projected problems of the two iterations -/
def moreLib1 : Lib (Ext ℚ) :=
  answer [1872/385, 96/385, 96/385, 1928/385] [1, 0, 0, 1]
    ([-4/5, 3/5, 3/5, 4/5].map q, [], [360/77, 400/77].map q, 0)

def moreLib2 : Lib (Ext ℚ) :=
  answer [241/77, 240/77, 300/77, 240/77, 360/77, 288/77, 300/77, 288/77, 1872/385] [1, 0, 0, 0, 1, 4/5, 0, 4/5, 1]
    ([-60/77, 4/77, 45/77, 5/77, 128/77, -100/77, -48/77, 25/231, -200/231].map q, [], [0, 5, 8].map q, 0)

theorem moreLib1_ok : Dsygvd moreLib1 := by
  refine dsygvd_answer (k := 2) (z := [-4/5, 3/5, 3/5, 4/5]) (w := [360/77, 400/77]) rfl fun _ => ⟨[1, 0, 0, 1], ?_, ?_⟩
  · refine ⟨⟨rfl, rfl⟩, ?_, fun _ => rfl, ?_, ?_, ?_⟩
    · intro hh; exact absurd hh (by decide)
    · intro _ k hk i hi
      interval_cases k <;> interval_cases i <;> decide +kernel
    · intro _ k hk
      interval_cases k
      · exact ⟨0, by decide, by decide +kernel⟩
      · exact ⟨0, by decide, by decide +kernel⟩
    · intro _ k l hkl hl
      interval_cases l <;> interval_cases k <;> decide +kernel
  · intro _
    rw [if_neg (by decide)]
    ext i j
    fin_cases i <;> fin_cases j <;> decide +kernel

theorem moreLib2_ok : Dsygvd moreLib2 := by
  refine dsygvd_answer (k := 3)
    (z := [-60/77, 4/77, 45/77, 5/77, 128/77, -100/77, -48/77, 25/231, -200/231]) (w := [0, 5, 8]) rfl
    fun _ => ⟨[1, 0, 0, 0, 1, 0, 0, 0, 1], ?_, ?_⟩
  · refine ⟨⟨rfl, rfl⟩, ?_, fun _ => rfl, ?_, ?_, ?_⟩
    · intro hh; exact absurd hh (by decide)
    · intro _ k hk i hi
      interval_cases k <;> interval_cases i <;> decide +kernel
    · intro _ k hk
      interval_cases k
      · exact ⟨0, by decide, by decide +kernel⟩
      · exact ⟨0, by decide, by decide +kernel⟩
      · exact ⟨0, by decide, by decide +kernel⟩
    · intro _ k l hkl hl
      interval_cases l <;> interval_cases k <;> decide +kernel
  · intro _
    rw [if_neg (by decide)]
    ext i j
    fin_cases i <;> fin_cases j <;> decide +kernel

def moreRun (L : Lib (Ext ℚ)) (maxiter : Nat) : Option (Res (Out (Ext ℚ))) :=
  standard (Ext.num moreSq) L { lobCfg with maxiter := maxiter } (ofCrs [0, 1, 2] [0, 1, 2] (crsMap Ext.fin moreA))
    noPrecond [q 0] [[q (12/385), q (25/385), q (384/385)]] 3 none 5

/-- `maxiter = 1`: the quotient goes from 1928/385 down to 360/77, `maxiter = 2`: down to the eigenvalue 0 -/
theorem more_run1 : moreRun (orElse moreLib1 moreLib2) 1 = some (.ok
    { status := MAXITER, l := [q (360/77)], x := [[q (40/77), q (-45/77), q (48/77)]], finalIter := 1,
      finalResid := q (240/77) }) := by
  decide +kernel

theorem more_run2 : moreRun (orElse moreLib1 moreLib2) 2 = some (.ok
    { status := SUCCESS, l := [q 0], x := [[q 1, q 0, q 0]], finalIter := 2, finalResid := q 0 }) := by
  decide +kernel

/-- the hypotheses of `C119_more_iterations_partial` are met by these two runs -/
example : ∃ lam lam' : Fin 1 → ℚ, [q (360/77)] = List.ofFn (fun i => Ext.fin (lam i)) ∧
    [q 0] = List.ofFn (fun i => Ext.fin (lam' i)) ∧ ∀ i, lam' i ≤ lam i :=
  C119_more_iterations_partial (n := 3) (sq := moreSq) (L := orElse moreLib1 moreLib2)
    (cfg := { lobCfg with maxiter := 1 }) (more := 2) (create := noPrecond) (l := [q 0])
    (xin := [[q (12/385), q (25/385), q (384/385)]]) (xcol := 3) (rs := none) (fuel := 5) (fuel' := 5) (by decide)
    (isMat_crsExt moreA moreA_safe (by decide) rfl rfl [0, 1, 2] [0, 1, 2] (by unfold Order; decide)
      (by unfold Order; decide))
    (by ext i j; fin_cases i <;> fin_cases j <;> decide +kernel) (Dsygvd.orElse moreLib1_ok moreLib2_ok)
    (by decide) (by decide) (by intro r h; cases h) more_run1 more_run2 (by decide +kernel) (by decide +kernel)
    (by decide) (by decide) (v := fun _ => ![40/77, -45/77, 48/77]) (v' := fun _ => ![1, 0, 0])
    (by decide +kernel) (by decide +kernel)

end Verif.Lobpcg
